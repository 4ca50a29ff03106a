import Verif.Proof.Separate
import Verif.Props.Digest
import Verif.Props.UpdateSound

/-!
# C85: when a proof made by the prover is accepted

C20, C26, C68 and C83 say that a proof made by the prover is accepted if and only if the opened nodes are `Separated`: neighbours in the
order of paths have different commitments.  That condition speaks of commitments.  Here it is replaced by one about the contents: both
halves of some stem are asked for and hold the same values (`TwinHalves`).  Apart from this case a proof is accepted, or nodes of the
trie explicitly break its commitments.
-/

set_option autoImplicit false
set_option linter.unusedSectionVars false
set_option linter.constructorNameAsVariable false

namespace Verif.Props
open Verif Verif.Spec Verif.Trie Verif.Proof Verif.Ipa Verif.Wire Verif.Ffi Verif.Eip Verif.Bander
open scoped Classical

section
variable {F G : Type} [Field F] [AddCommGroup G] [Module F G]

theorem twin_not_separated_of {C : Crypto F G} {m : KV} {K : Key → Prop} (h : TwinHalves m K) : ¬ Separated C m K := by
  obtain ⟨k, k', hk, hk', hs, hp, h1, h2, he⟩ := h
  exact not_separated hk hk' hs hp h1 (by omega) (by rw [suffixComm_eq_commit, suffixComm_eq_commit, suffixVec_of_equalHalves he])

/-- C85.  Unless nodes of the trie break its commitments, the opened nodes are separated exactly if no two halves of a stem with the same
contents are both asked for. -/
theorem C85_separated (hF : BigField F) (C : Crypto F G) (m : KV) (K : Key → Prop) :
    (Separated C m K ↔ ¬ TwinHalves m K) ∨ SelfBreak C m := by
  by_cases hb : SelfBreak C m
  · exact Or.inr hb
  · exact Or.inl ⟨fun h ht => twin_not_separated_of ht h, separated_of hF hb⟩

/-- C85.  If the keys asked for of each stem of the trie are in one half, no equal halves are asked for. -/
theorem C85_one_half {m : KV} {K : Key → Prop}
    (h : ∀ k k', K k → K k' → k.stem = k'.stem → HasStem m k.stem → k.suffix.val < 128 → k'.suffix.val < 128) : ¬ TwinHalves m K := by
  rintro ⟨k, k', hk, hk', hs, hp, h1, h2, _⟩
  have := h k k' hk hk' hs hp h1
  omega

/-- C85.  If every stem of which both halves are asked for holds a value whose partner in the other half is different, no equal halves
are asked for. -/
theorem C85_differ {m : KV} {K : Key → Prop}
    (h : ∀ k, K k → HasStem m k.stem → ∃ i, i < 128 ∧ m (mkKey k.stem (Fin.ofNat 256 i)) ≠ m (mkKey k.stem (Fin.ofNat 256 (128 + i)))) :
    ¬ TwinHalves m K := by
  rintro ⟨k, _, hk, _, _, hp, _, _, he⟩
  obtain ⟨i, hi, hne⟩ := h k hk hp
  exact hne (he i hi)

variable [DecidableEq F] [DecidableEq G]

/-- C85.  With a complete opening argument the proof made for any keys of any reachable trie is accepted with the values returned by
`get` - or checking it panics because two halves of a stem with the same contents are both asked for, or nodes of the trie break its
commitments. -/
theorem C85_honest_proofs (hF : BigField F) (C : Crypto F G) (O : Opener F G) (hO : CompleteOpener C O) (l : List (Key × Value))
    {db : MemoryDb F G} (hb : build C l = .ok db) {keys : List Key} (hk : keys ≠ []) {root : G} (hr : Trie.rootCommitment db = .ok root) :
    ∃ p, createVerkleProof O db keys = .ok (.ok p) ∧
      (TwinHalves (lastWrite l) (· ∈ keys) →
        check C O p keys (keys.map (Trie.get db)) root = .error "assert commitments.len() == all_paths.len()") ∧
      (¬ TwinHalves (lastWrite l) (· ∈ keys) →
        (∃ uh, check C O p keys (keys.map (Trie.get db)) root = .ok (true, some uh)) ∨ SelfBreak C (lastWrite l)) := by
  obtain ⟨p, h1, h2, h3⟩ := C20_honest_proofs_verify_partial C O hO l hb hk hr
  refine ⟨p, h1, fun ht => h3 (twin_not_separated_of ht), fun ht => ?_⟩
  by_cases hsb : SelfBreak C (lastWrite l)
  · exact Or.inr hsb
  · exact Or.inl (h2 (separated_of hF hsb ht))

/-- C85.  The stateless updater, given an honest proof for distinct keys, the true old values and any new ones: if no two equal halves of a
stem are asked for and the place of every written key is taken, it returns the root of the full trie after the writes, or nodes of the trie
break its commitments; if the place of some written key is empty it panics, or nodes break the commitments; if equal halves are asked for it
panics. -/
theorem C85_update (hF : BigField F) (C : Crypto F G) (O : Opener F G) (hO : CompleteOpener C O) {ord : Path → List Stem → List Stem}
    (hord : ∀ p l, (ord p l).Perm l) (l : List (Key × Value)) {db : MemoryDb F G} (hb : build C l = .ok db) {keys : List Key} (hk : keys ≠ [])
    (hnd : keys.Nodup) {updated : List (Option Value)} (hlen : updated.length = keys.length) {root : G}
    (hr : Trie.rootCommitment db = .ok root) :
    ∃ p db' root', createVerkleProof O db keys = .ok (.ok p) ∧ Trie.insert C db (writes keys updated) = .ok db' ∧
      Trie.rootCommitment db' = .ok root' ∧
      (TwinHalves (lastWrite l) (· ∈ keys) →
        verifyAndUpdate C O ord p root keys (keys.map (Trie.get db)) updated = .error "assert commitments.len() == all_paths.len()") ∧
      (¬ TwinHalves (lastWrite l) (· ∈ keys) →
        (((∀ kv ∈ writes keys updated, PlaceTaken (lastWrite l) kv.1.stem) →
          verifyAndUpdate C O ord p root keys (keys.map (Trie.get db)) updated = .ok (.ok root')) ∧
        ((∃ kv ∈ writes keys updated, ¬ PlaceTaken (lastWrite l) kv.1.stem) →
          verifyAndUpdate C O ord p root keys (keys.map (Trie.get db)) updated = .error "no entry found for key")) ∨
        SelfBreak C (lastWrite l)) := by
  obtain ⟨p, db', root', h1, h2, h3, h4, h5⟩ := C26_stateless_update_partial C O hO hord l hb hk hnd hlen hr
  refine ⟨p, db', root', h1, h2, h3, fun ht => h5 (twin_not_separated_of ht), fun ht => ?_⟩
  by_cases hsb : SelfBreak C (lastWrite l)
  · exact Or.inr hsb
  · exact Or.inl (h4 (separated_of hF hsb ht))

/-- The contents met by a chain of blocks: no block asks for two equal halves of a stem, and the places of the written keys are taken. -/
def Servable : List (Key × Value) → List (List Key × List (Option Value)) → Prop
  | _, [] => True
  | l, (keys, updated) :: rest =>
    ¬ TwinHalves (lastWrite l) (· ∈ keys) ∧ (∀ kv ∈ writes keys updated, PlaceTaken (lastWrite l) kv.1.stem) ∧ Servable (l ++ writes keys updated) rest

/-- Nodes of one of the tries of a chain of blocks break its commitments. -/
def BreakOnWay (C : Crypto F G) : List (Key × Value) → List (List Key × List (Option Value)) → Prop
  | _, [] => False
  | l, (keys, updated) :: rest => SelfBreak C (lastWrite l) ∨ BreakOnWay C (l ++ writes keys updated) rest

theorem Served.servable {C : Crypto F G} : ∀ {reqs : List (List Key × List (Option Value))} {l : List (Key × Value)}, Served C l reqs → Servable l reqs
  | [], _, _ => trivial
  | _ :: _, _, ⟨h1, h2, h3⟩ => ⟨fun ht => twin_not_separated_of ht h1, h2, h3.servable⟩

theorem Servable.served (hF : BigField F) {C : Crypto F G} : ∀ {reqs : List (List Key × List (Option Value))} {l : List (Key × Value)},
    Servable l reqs → ¬ BreakOnWay C l reqs → Served C l reqs
  | [], _, _, _ => trivial
  | _ :: _, _, ⟨h1, h2, h3⟩, hb =>
    ⟨separated_of hF (fun h => hb (Or.inl h)) h1, h2, h3.served hF fun h => hb (Or.inr h)⟩

/-- C85 for chains of blocks.  An honest node serves every chain; the client that is sent the blocks ends with the root of the trie after all
writes if no block asks for two equal halves of a stem and the places of written keys are taken, or nodes of a trie on the way break its
commitments; otherwise the client panics. -/
theorem C85_chain (hF : BigField F) (C : Crypto F G) (O : Opener F G) (hO : CompleteOpener C O) {ord : Path → List Stem → List Stem}
    (hord : ∀ p l, (ord p l).Perm l) (reqs : List (List Key × List (Option Value))) (l : List (Key × Value)) {db : MemoryDb F G}
    (hb : build C l = .ok db) {root : G} (hr : Trie.rootCommitment db = .ok root) (hf : Formed reqs) :
    ∃ bs db' root', serve C O db reqs = .ok (.ok (bs, db')) ∧ bs.map (fun b => (b.keys, b.updated)) = reqs ∧
      Trie.insert C db (allWrites reqs) = .ok db' ∧ Trie.rootCommitment db' = .ok root' ∧
      (Servable l reqs → followChain C O ord root bs = .ok (.ok root') ∨ BreakOnWay C l reqs) ∧
      (¬ Servable l reqs → ∃ e, followChain C O ord root bs = .error e) := by
  obtain ⟨bs, db', root', h1, h2, h3, h4, h5, h6⟩ := C70_honest_chain_partial C O hO hord reqs l hb hr hf
  refine ⟨bs, db', root', h1, h2, h3, h4, fun hs => ?_, fun hs => h6 fun h => hs h.servable⟩
  by_cases hbw : BreakOnWay C l reqs
  · exact Or.inr hbw
  · exact Or.inl (h5 (hs.served hF hbw))

/-! ### Items of accounts -/

/-- Slots of which no two lie in different halves of one group. -/
def OneHalf (slots : List Slot) : Prop :=
  ∀ s ∈ slots, ∀ s' ∈ slots, s.1 = s'.1 → s.2.place.1 = s'.2.place.1 → s.2.place.2.val < 128 → s'.2.place.2.val < 128

/-- The items of an account header other than its first chunks of code. -/
def HeaderItem : Item → Prop
  | .storage s => s < 64
  | .code _ => False
  | _ => True

/-- C85.  The items of account headers - version, balance, nonce, code hash, code size and the first 64 storage slots - all lie in the
first half. -/
theorem C85_header {slots : List Slot} (h : ∀ s ∈ slots, HeaderItem s.2) : OneHalf slots := by
  intro _ _ s' hs' _ _ _
  have h' := h s' hs'
  obtain ⟨a, i⟩ := s'
  cases i with
  | storage n =>
    have hn : n < 64 := h'
    show ((Item.storage n).place.2).val < 128
    rw [Item.place, if_pos hn]
    show (64 + n) % 256 < 128
    omega
  | code n => exact absurd h' (by simp [HeaderItem])
  | version => exact (by decide : (0 : Byte).val < 128)
  | balance => exact (by decide : (1 : Byte).val < 128)
  | nonce => exact (by decide : (2 : Byte).val < 128)
  | codeKeccak => exact (by decide : (3 : Byte).val < 128)
  | codeSize => exact (by decide : (4 : Byte).val < 128)

theorem oneHalf_keys {P : Hash64} {slots : List Slot} {m : KV} (hc : ¬ Collides P (· ∈ slots)) (h : OneHalf slots) :
    ¬ TwinHalves m (· ∈ slots.map (slotKey P)) := by
  refine C85_one_half fun k k' hk hk' hs _ h1 => ?_
  obtain ⟨s, hs1, rfl⟩ := List.mem_map.1 hk
  obtain ⟨s', hs2, rfl⟩ := List.mem_map.1 hk'
  rw [slotKey, mkKey_suffix] at h1 ⊢
  rw [slotKey, slotKey, mkKey_stem, mkKey_stem] at hs
  have he : (s.1, s.2.place.1) = (s'.1, s'.2.place.1) := by
    by_contra hne
    exact hc ⟨s, s', hs1, hs2, hne, hs⟩
  rw [Prod.mk.injEq] at he
  exact h s hs1 s' hs2 he.1 he.2 h1

theorem collides_mono {P : Hash64} {A B : Slot → Prop} (h : ∀ s, A s → B s) (hc : Collides P A) : Collides P B := by
  obtain ⟨s, s', h1, h2, h3⟩ := hc
  exact ⟨s, s', h _ h1, h _ h2, h3⟩

/-- C85.  The state of accounts: the proof made for items no two of which lie in different halves of one group is accepted with the values
last written to them - or two of the items used collide, or nodes of the trie break its commitments. -/
theorem C85_state (hF : BigField F) (C : Crypto F G) (O : Opener F G) (hO : CompleteOpener C O) (P : Hash64) (w : List (Slot × Value))
    (hw : ∀ x ∈ w, x.1.2.Valid) {l : List (Key × Value)} (hl : stateWrites P w = .ok l) {db : MemoryDb F G} (hb : build C l = .ok db)
    {root : G} (hr : Trie.rootCommitment db = .ok root) {slots : List Slot} (hne : slots ≠ []) (hv : ∀ s ∈ slots, s.2.Valid)
    (h1 : OneHalf slots) :
    (∃ keys p uh, slots.mapM (fun s => itemKey P s.1 s.2) = .ok keys ∧ createVerkleProof O db keys = .ok (.ok p) ∧
      check C O p keys (slots.map (lastState w)) root = .ok (true, some uh)) ∨
    Collides P (fun s => s ∈ slots ∨ Written w s) ∨ SelfBreak C (lastWrite l) := by
  by_cases hc : Collides P fun s => s ∈ slots ∨ Written w s
  · exact Or.inr (Or.inl hc)
  rw [stateWrites_ok P hw] at hl
  cases hl
  obtain ⟨p, hp, -, h⟩ := C85_honest_proofs hF C O hO _ hb (keys := slots.map (slotKey P)) (by simpa using hne) hr
  rcases h (oneHalf_keys (fun h => hc (collides_mono (fun _ => Or.inl) h)) h1) with ⟨uh, h⟩ | h
  · refine Or.inl ⟨_, p, uh, Proof.mapM_ok _ _ _ fun s hs => slotKey_ok P (hv s hs), hp, ?_⟩
    rw [← h, List.map_map]
    congr 1
    refine List.map_congr_left fun s hs => ?_
    rw [build_iff] at hb
    subst hb
    exact (lastWrite_state hc hw (fun _ h => Or.inr h) (hv s hs) (Or.inl hs)).symm
  · exact Or.inr (Or.inr h)

/-- The slots of a group of 256 storage slots. -/
def inGroup (a : Bytes 32) (t : ℕ) (s : Slot) : Prop := ∃ i, i < 256 ∧ s = (a, .storage (256 * t + i))

theorem group_place {t i : ℕ} (ht : 1 ≤ t) (hi : i < 256) : (Item.storage (256 * t + i)).place = (2 ^ 240 + t, Fin.ofNat 256 i) := by
  rw [Item.place, if_neg (by omega)]
  refine Prod.ext ?_ (Fin.ext ?_)
  · show 2 ^ 240 + (256 * t + i) / 256 = 2 ^ 240 + t
    omega
  · show (256 * t + i) % 256 = i % 256
    omega

/-- C85.  The excluded case is met by storage of contracts: if the slots `256 t .. 256 t + 127` of an account hold the same values as the
slots `256 t + 128 .. 256 t + 255`, and not all are empty, then the proof made for any items including one of each half panics when
checked, whatever the commitments - or two of the items used collide. -/
theorem C85_storage_panics (C : Crypto F G) (O : Opener F G) (hO : CompleteOpener C O) (P : Hash64) (w : List (Slot × Value))
    (hw : ∀ x ∈ w, x.1.2.Valid) {l : List (Key × Value)} (hl : stateWrites P w = .ok l) {db : MemoryDb F G} (hb : build C l = .ok db)
    {root : G} (hr : Trie.rootCommitment db = .ok root) {slots : List Slot} (hv : ∀ s ∈ slots, s.2.Valid) (a : Bytes 32) {t : ℕ} (ht : 1 ≤ t)
    (ht' : 256 * t + 256 ≤ 2 ^ 256 - 2 ^ 248) {i j : ℕ} (hi : i < 128) (hj : j < 128) (hs : (a, .storage (256 * t + i)) ∈ slots)
    (hs' : (a, .storage (256 * t + (128 + j))) ∈ slots)
    (heq : ∀ n, n < 128 → lastState w (a, .storage (256 * t + n)) = lastState w (a, .storage (256 * t + (128 + n))))
    (hsome : ∃ n, n < 128 ∧ lastState w (a, .storage (256 * t + n)) ≠ none) :
    (∃ keys p, slots.mapM (fun s => itemKey P s.1 s.2) = .ok keys ∧ createVerkleProof O db keys = .ok (.ok p) ∧
      check C O p keys (slots.map (lastState w)) root = .error "assert commitments.len() == all_paths.len()") ∨
    Collides P fun s => (s ∈ slots ∨ inGroup a t s) ∨ Written w s := by
  by_cases hc : Collides P fun s => (s ∈ slots ∨ inGroup a t s) ∨ Written w s
  · exact Or.inr hc
  left
  rw [stateWrites_ok P hw] at hl
  cases hl
  have hne : slots.map (slotKey P) ≠ [] := fun h => by
    rw [List.map_eq_nil_iff] at h
    rw [h] at hs
    exact absurd hs (by simp)
  obtain ⟨p, hp, -, h⟩ := C20_honest_proofs_verify_partial C O hO _ hb hne hr
  have hkey : ∀ n, n < 256 → slotKey P (a, .storage (256 * t + n)) = mkKey (hashAddrInt P a (2 ^ 240 + t)).stem (Fin.ofNat 256 n) := by
    intro n hn
    rw [slotKey]
    simp only [group_place ht hn]
  have hval : ∀ n, n < 256 → lastWrite (w.map fun x => (slotKey P x.1, x.2)) (mkKey (hashAddrInt P a (2 ^ 240 + t)).stem (Fin.ofNat 256 n)) =
      lastState w (a, .storage (256 * t + n)) := by
    intro n hn
    rw [← hkey n hn]
    exact lastWrite_state hc hw (fun _ h => Or.inr h) (s := (a, .storage (256 * t + n)))
      (by show 256 * t + n < 2 ^ 256 - 2 ^ 248; omega) (Or.inl (Or.inr ⟨n, hn, rfl⟩))
  have htw : TwinHalves (lastWrite (w.map fun x => (slotKey P x.1, x.2))) (· ∈ slots.map (slotKey P)) := by
    refine ⟨_, _, List.mem_map_of_mem hs, List.mem_map_of_mem hs', ?_, ?_, ?_, ?_, ?_⟩
    · rw [hkey i (by omega), hkey (128 + j) (by omega), mkKey_stem, mkKey_stem]
    · obtain ⟨n, hn, hnn⟩ := hsome
      refine ⟨Fin.ofNat 256 n, ?_⟩
      rw [hkey i (by omega), mkKey_stem, hval n (by omega)]
      exact hnn
    · rw [hkey i (by omega), mkKey_suffix]
      show i % 256 < 128
      omega
    · rw [hkey (128 + j) (by omega), mkKey_suffix]
      show 128 ≤ (128 + j) % 256
      omega
    · intro n hn
      rw [hkey i (by omega), mkKey_stem, hval n (by omega), hval (128 + n) (by omega)]
      exact heq n hn
  refine ⟨_, p, Proof.mapM_ok _ _ _ fun s hs => slotKey_ok P (hv s hs), hp, ?_⟩
  rw [← h (twin_not_separated_of htw), List.map_map]
  congr 1
  refine List.map_congr_left fun s hs => ?_
  rw [build_iff] at hb
  subst hb
  exact (lastWrite_state hc hw (fun _ h => Or.inr h) (hv s hs) (Or.inl (Or.inl hs))).symm

end

/-! ### The opening argument of the code, digests, Bandersnatch -/

section

/-- C85 with the proofs of the code.  For all hashes but a part of 2⁻²⁴¹ the proof made for keys of a trie over Bandersnatch is written, read
back and accepted with the values returned by `get` - unless two halves of a stem with the same contents are both asked for, or nodes of the
trie break its commitments. -/
theorem C85_digest {order : List (ProverQuery (ZMod r) BElem) → List ℕ} (ho : ∀ qs, IsOrder qs (order qs)) (l : List (Key × Value))
    {db : MemoryDb (ZMod r) BElem} (hb : build crypto l = .ok db) {keys : List Key} (hk : keys ≠ []) (hk' : 36 * keys.length < 2 ^ 32)
    {root : BElem} (hr : Trie.rootCommitment db = .ok root) (ht : ¬ TwinHalves (lastWrite l) (· ∈ keys)) (H₀ : List Byte → Digest)
    (D : Finset (List Byte)) (hD : ∀ s : List Byte, s.length ≤ 99 * (36 * keys.length) + 192 → s ∈ D) :
    2 ^ 241 * Fintype.card {H : D → Digest // ¬ ∃ (p : VerkleProof BElem (MultiProof (ZMod r) BElem)) (bs : List Byte)
        (uh : UpdateHint BElem),
        createVerkleProof (multiOpener ⟨codec, chal (over H₀ H)⟩ crypto genPt order) db keys = .ok (.ok p) ∧ writeProof codec p = .ok bs ∧
        readProof codec bs = .ok (some p) ∧
        check crypto (multiOpener ⟨codec, chal (over H₀ H)⟩ crypto genPt order) p keys (keys.map (Trie.get db)) root =
          .ok (true, some uh)} ≤ Fintype.card Digest ^ D.card ∨ SelfBreak crypto (lastWrite l) := by
  by_cases hsb : SelfBreak crypto (lastWrite l)
  · exact Or.inr hsb
  · exact Or.inl (C83_honest_trie_partial ho l hb hk hk' hr (separated_of C52_scalar_field.1 hsb ht) H₀ D hD)

/-- C85 for updates with the proofs of the code (as `C85_digest`; the place of every written key is taken). -/
theorem C85_update_digest {order : List (ProverQuery (ZMod r) BElem) → List ℕ} (ho : ∀ qs, IsOrder qs (order qs))
    {ord : Path → List Stem → List Stem} (hord : ∀ p l, (ord p l).Perm l) (l : List (Key × Value)) {db : MemoryDb (ZMod r) BElem}
    (hb : build crypto l = .ok db) {keys : List Key} (hk : keys ≠ []) (hnd : keys.Nodup) {updated : List (Option Value)}
    (hlen : updated.length = keys.length) {root : BElem} (hr : Trie.rootCommitment db = .ok root)
    (ht : ¬ TwinHalves (lastWrite l) (· ∈ keys)) (hp : ∀ kv ∈ writes keys updated, PlaceTaken (lastWrite l) kv.1.stem)
    {db' : MemoryDb (ZMod r) BElem} {root' : BElem} (hb' : Trie.insert crypto db (writes keys updated) = .ok db')
    (hr' : Trie.rootCommitment db' = .ok root') (H₀ : List Byte → Digest) (D : Finset (List Byte))
    (hD : ∀ s : List Byte, s.length ≤ 99 * (36 * keys.length) + 192 → s ∈ D) :
    2 ^ 241 * Fintype.card {H : D → Digest // ¬ ∃ p : VerkleProof BElem (MultiProof (ZMod r) BElem),
        createVerkleProof (multiOpener ⟨codec, chal (over H₀ H)⟩ crypto genPt order) db keys = .ok (.ok p) ∧
        verifyAndUpdate crypto (multiOpener ⟨codec, chal (over H₀ H)⟩ crypto genPt order) ord p root keys (keys.map (Trie.get db)) updated =
          .ok (.ok root')} ≤ Fintype.card Digest ^ D.card ∨ SelfBreak crypto (lastWrite l) := by
  by_cases hsb : SelfBreak crypto (lastWrite l)
  · exact Or.inr hsb
  · exact Or.inl (digest_part_lt (C83_honest_update_partial codec crypto genPt ho hord l hb hk hnd hlen hr
      (separated_of C52_scalar_field.1 hsb ht) hp hb' hr' H₀ D hD))

/-- C85 for the state of accounts with the proofs of the code.  For all hashes but a part of 2⁻²⁴¹ the proof made for items, no two of which
lie in different halves of one group, is written, read back and accepted with the values last written to the items - or two of the items
used collide, or nodes of the trie break its commitments. -/
theorem C85_state_digest {order : List (ProverQuery (ZMod r) BElem) → List ℕ} (ho : ∀ qs, IsOrder qs (order qs)) (P : Hash64)
    (w : List (Slot × Value)) (hw : ∀ x ∈ w, x.1.2.Valid) {l : List (Key × Value)} (hl : stateWrites P w = .ok l)
    {db : MemoryDb (ZMod r) BElem} (hb : build crypto l = .ok db) {root : BElem} (hr : Trie.rootCommitment db = .ok root) {slots : List Slot}
    (hne : slots ≠ []) (hlen : 36 * slots.length < 2 ^ 32) (hv : ∀ s ∈ slots, s.2.Valid) (h1 : OneHalf slots) (H₀ : List Byte → Digest)
    (D : Finset (List Byte)) (hD : ∀ s : List Byte, s.length ≤ 99 * (36 * slots.length) + 192 → s ∈ D) :
    (∃ keys, slots.mapM (fun s => itemKey P s.1 s.2) = .ok keys ∧
      2 ^ 241 * Fintype.card {H : D → Digest // ¬ ∃ (p : VerkleProof BElem (MultiProof (ZMod r) BElem)) (bs : List Byte)
        (uh : UpdateHint BElem),
        createVerkleProof (multiOpener ⟨codec, chal (over H₀ H)⟩ crypto genPt order) db keys = .ok (.ok p) ∧ writeProof codec p = .ok bs ∧
        readProof codec bs = .ok (some p) ∧
        check crypto (multiOpener ⟨codec, chal (over H₀ H)⟩ crypto genPt order) p keys (slots.map (lastState w)) root =
          .ok (true, some uh)} ≤ Fintype.card Digest ^ D.card) ∨
    Collides P (fun s => s ∈ slots ∨ Written w s) ∨ SelfBreak crypto (lastWrite l) := by
  by_cases hc : Collides P fun s => s ∈ slots ∨ Written w s
  · exact Or.inr (Or.inl hc)
  rw [stateWrites_ok P hw] at hl
  cases hl
  have hvals : (slots.map (slotKey P)).map (Trie.get db) = slots.map (lastState w) := by
    rw [List.map_map]
    refine List.map_congr_left fun s hs => ?_
    rw [build_iff] at hb
    subst hb
    exact lastWrite_state hc hw (fun _ h => Or.inr h) (hv s hs) (Or.inl hs)
  rcases C85_digest ho _ hb (keys := slots.map (slotKey P)) (by simpa using hne) (by simpa using hlen) hr
    (oneHalf_keys (fun h => hc (collides_mono (fun _ => Or.inl) h)) h1) H₀ D (by simpa using hD) with h | h
  · rw [hvals] at h
    exact Or.inl ⟨_, Proof.mapM_ok _ _ _ fun s hs => slotKey_ok P (hv s hs), h⟩
  · exact Or.inr (Or.inr h)

end

/-! ### The hypotheses can be met -/

/-- Parameters without breaks. -/
theorem negCrypto_no_selfBreak (m : KV) : ¬ SelfBreak negCrypto m := by
  rintro (h | ⟨x, _, h0, s, _, off, j, _, h⟩)
  · exact negCrypto_not_broken _ _ h
  · simp only [suffixVec] at h
    generalize m (mkKey s (Fin.ofNat 256 (off + j.val / 2))) = o at h
    cases o with
    | none => simp [slot] at h; exact h0 h
    | some v =>
      simp only [slot] at h
      split at h
      · rw [lowHalf_eq] at h
        exact negCrypto_not_nat h0 _ h
      · exact negCrypto_not_nat h0 _ h

theorem no_twin_of {keys : List Key} (h : ∀ k ∈ keys, (∃ i : Fin 128, lastWrite proofHist (mkKey k.stem (Fin.ofNat 256 i)) ≠
      lastWrite proofHist (mkKey k.stem (Fin.ofNat 256 (128 + i.val)))) ∨ ∀ b, lastWrite proofHist (mkKey k.stem b) = none) :
    ¬ TwinHalves (lastWrite proofHist) (· ∈ keys) := by
  refine C85_differ fun k hk hs => ?_
  rcases h k hk with ⟨i, hi⟩ | h
  · exact ⟨i.val, i.2, hi⟩
  · obtain ⟨b, hb⟩ := hs
    exact absurd (h b) hb

/-- No equal halves are asked for by keys of both halves of a stem, another stem, an absent suffix and an empty place. -/
theorem proofKeys_no_twin : ¬ TwinHalves (lastWrite proofHist) (· ∈ proofKeys) := no_twin_of (by decide +kernel)

theorem updKeys_no_twin : ¬ TwinHalves (lastWrite proofHist) (· ∈ updKeys) := no_twin_of (by decide +kernel)

/-- With parameters without breaks the proof for those keys is accepted. -/
example : ∃ db root p uh, build negCrypto proofHist = .ok db ∧ Trie.rootCommitment db = .ok root ∧
    createVerkleProof lookupOpener db proofKeys = .ok (.ok p) ∧
    check negCrypto lookupOpener p proofKeys (proofKeys.map (Trie.get db)) root = .ok (true, some uh) := by
  have hb := build_eq negCrypto proofHist
  have hr := root_of_build (C := negCrypto) (m := lastWrite proofHist)
  obtain ⟨p, h1, -, h2⟩ := C85_honest_proofs bigField_rat negCrypto lookupOpener lookupOpener_complete proofHist hb (keys := proofKeys)
    (by simp [proofKeys]) hr
  rcases h2 proofKeys_no_twin with ⟨uh, h⟩ | h
  · exact ⟨_, _, p, uh, hb, hr, h1, h⟩
  · exact absurd h (negCrypto_no_selfBreak _)

/-- The hypotheses of `C85_digest` and `C85_update_digest` are met by that trie over Bandersnatch. -/
example : ∃ (db : MemoryDb (ZMod r) BElem) (root : BElem) (D : Finset (List Byte)), build crypto proofHist = .ok db ∧
    Trie.rootCommitment db = .ok root ∧ 36 * proofKeys.length < 2 ^ 32 ∧ ¬ TwinHalves (lastWrite proofHist) (· ∈ proofKeys) ∧
    (∀ s : List Byte, s.length ≤ 99 * (36 * proofKeys.length) + 192 → s ∈ D) ∧
    ¬ TwinHalves (lastWrite proofHist) (· ∈ updKeys) ∧ updKeys.Nodup ∧
    ∀ kv ∈ writes updKeys updVals, PlaceTaken (lastWrite proofHist) kv.1.stem :=
  ⟨_, _, shortStrings _, build_eq _ _, rootCommitment_spec _ _, by simp [proofKeys], proofKeys_no_twin,
    fun _ h => mem_shortStrings h, updKeys_no_twin, by decide +kernel, upd_placeTaken⟩

theorem negCrypto_no_breakOnWay : ∀ (reqs : List (List Key × List (Option Value))) (l : List (Key × Value)), ¬ BreakOnWay negCrypto l reqs
  | [], _ => fun h => h
  | _ :: _, _ => fun h => h.elim (negCrypto_no_selfBreak _) (negCrypto_no_breakOnWay _ _)

/-- A chain of two blocks that write to a trie and read from it: the client follows. -/
example : ∃ db root bs db' root', build negCrypto proofHist = .ok db ∧ Trie.rootCommitment db = .ok root ∧
    serve negCrypto lookupOpener db twoBlocks = .ok (.ok (bs, db')) ∧ Trie.rootCommitment db' = .ok root' ∧
    followChain negCrypto lookupOpener (fun _ l => l) root bs = .ok (.ok root') := by
  obtain ⟨bs, db', root', h1, -, -, h4, h5, -⟩ := C85_chain bigField_rat negCrypto lookupOpener lookupOpener_complete
    (ord := fun _ l => l) (fun _ l => List.Perm.refl l) twoBlocks proofHist (build_eq _ _) root_of_build twoBlocks_formed
  exact ⟨_, _, bs, db', root', build_eq _ _, root_of_build, h1, h4,
    (h5 twoBlocks_served.servable).resolve_right (negCrypto_no_breakOnWay _ _)⟩

/-- The balance and nonce of one account and the balance of another, an account without storage and an empty place. -/
def headSlots : List Slot := [(alice, .balance), (alice, .nonce), (bob, .balance), (alice, .storage 3)]

/-- Items of account headers: the hypotheses of `C85_state` are met and its conclusion is the acceptance. -/
example : ∃ l db root keys p uh, stateWrites keepHash stateDemo = .ok l ∧ build negCrypto l = .ok db ∧ Trie.rootCommitment db = .ok root ∧
    headSlots.mapM (fun s => itemKey keepHash s.1 s.2) = .ok keys ∧ createVerkleProof lookupOpener db keys = .ok (.ok p) ∧
    check negCrypto lookupOpener p keys (headSlots.map (lastState stateDemo)) root = .ok (true, some uh) := by
  have hl := stateWrites_ok keepHash stateDemo_valid
  have hb := build_eq negCrypto (stateDemo.map fun x => (slotKey keepHash x.1, x.2))
  rcases C85_state bigField_rat negCrypto lookupOpener lookupOpener_complete keepHash stateDemo stateDemo_valid hl hb root_of_build
    (slots := headSlots) (by simp [headSlots]) (by intro s hs; fin_cases hs <;> simp [Item.Valid])
    (C85_header (by intro s hs; fin_cases hs <;> simp [HeaderItem])) with ⟨keys, p, uh, h1, h2, h3⟩ | h | h
  · exact ⟨_, _, _, keys, p, uh, hl, hb, root_of_build, h1, h2, h3⟩
  · refine absurd h (demo_no_collision fun s hs => ?_)
    rcases hs with hs | hs
    · fin_cases hs <;> simp [Item.place]
    · exact demo_slots hs
  · exact absurd h (negCrypto_no_selfBreak _)

/-- The value 1 in the storage slots 261 and 389 of an account, and nothing else. -/
def twinStore : List (Slot × Value) := [((alice, .storage 261), valOf 1), ((alice, .storage 389), valOf 1)]

/-- A proof for these two slots panics when checked. -/
example : ∃ l db root keys p, stateWrites keepHash twinStore = .ok l ∧ build negCrypto l = .ok db ∧ Trie.rootCommitment db = .ok root ∧
    [(alice, Item.storage 261), (alice, .storage 389)].mapM (fun s => itemKey keepHash s.1 s.2) = .ok keys ∧
    createVerkleProof lookupOpener db keys = .ok (.ok p) ∧
    check negCrypto lookupOpener p keys [some (valOf 1), some (valOf 1)] root = .error "assert commitments.len() == all_paths.len()" := by
  have hw : ∀ x ∈ twinStore, x.1.2.Valid := by intro x hx; fin_cases hx <;> simp [Item.Valid]
  have hl := stateWrites_ok keepHash hw
  have hb := build_eq negCrypto (twinStore.map fun x => (slotKey keepHash x.1, x.2))
  rcases C85_storage_panics negCrypto lookupOpener lookupOpener_complete keepHash twinStore hw hl hb root_of_build
    (slots := [(alice, Item.storage 261), (alice, .storage 389)]) (by intro s hs; fin_cases hs <;> simp [Item.Valid]) alice (t := 1) le_rfl
    (by norm_num) (i := 5) (j := 5) (by norm_num) (by norm_num) (by simp) (by simp)
    (by
      have : ∀ n : Fin 128, lastState twinStore (alice, .storage (256 * 1 + n.val)) =
          lastState twinStore (alice, .storage (256 * 1 + (128 + n.val))) := by decide +kernel
      exact fun n hn => this ⟨n, hn⟩)
    ⟨5, by norm_num, by decide +kernel⟩ with ⟨keys, p, h1, h2, h3⟩ | h
  · exact ⟨_, _, _, keys, p, hl, hb, root_of_build, h1, h2, h3⟩
  · exfalso
    obtain ⟨s, s', hs, hs', hne, -⟩ := h
    have hp : ∀ s : Slot, (s ∈ [(alice, Item.storage 261), (alice, .storage 389)] ∨ inGroup alice 1 s) ∨ Written twinStore s →
        (s.1, s.2.place.1) = (alice, 2 ^ 240 + 1) := by
      rintro s ((hs | ⟨i, hi, rfl⟩) | ⟨v, hs⟩)
      · fin_cases hs <;> simp [Item.place]
      · rw [group_place le_rfl hi]
      · simp only [twinStore, List.mem_cons, List.not_mem_nil, or_false, Prod.mk.injEq] at hs
        rcases hs with ⟨rfl, _⟩ | ⟨rfl, _⟩ <;> simp [Item.place]
    exact hne ((hp s hs).trans (hp s' hs').symm)

end Verif.Props
