import Verif.Props.State
import Verif.Props.RomClients
import Verif.Props.Padding

/-!
# C75: proofs for the keys of one stem

The conditions of C21 on hints can be dropped for the most common request: some keys of one stem, at least one of which is claimed to have
a value.  Then everything claimed is true, absence included, whatever the hint says.  The items at the head of an account share a
stem, so this covers a client that reads an account.
-/

set_option autoImplicit false
set_option linter.unusedSectionVars false

namespace Verif.Props
open Verif Verif.Spec Verif.Trie Verif.Proof Verif.Ipa Verif.Wire Verif.Eip
open scoped Classical

/-- All keys have the same stem. -/
def OneStem (keys : List Key) : Prop := ∀ k ∈ keys, ∀ k' ∈ keys, k.stem = k'.stem

/-- At least one value is claimed. -/
def ClaimsValue (keys : List Key) (values : List (Option Value)) : Prop := ∃ k w, (k, some w) ∈ keys.zip values

section
variable {F G : Type} [Field F] [AddCommGroup G] [Module F G]

theorem hintEntry_unique {hint : VerificationHint} {keys : List Key} {s : Stem} {e f : ExtPresent} {c d : ℕ}
    (h1 : HintEntry hint keys s e c) (h2 : HintEntry hint keys s f d) : e = f ∧ c = d := by
  obtain ⟨b, rfl, h1⟩ := h1
  obtain ⟨b', rfl, h2⟩ := h2
  have h := (get_hintByStem.2 h1).symm.trans (get_hintByStem.2 h2)
  simp only [Option.some.injEq, Prod.mk.injEq] at h
  exact ⟨h.1, by rw [h.2]⟩

theorem hintEntry_stem {hint : VerificationHint} {keys : List Key} {s : Stem} {e : ExtPresent} {d : ℕ}
    (h : HintEntry hint keys s e d) : ∃ k ∈ keys, k.stem = s := by
  obtain ⟨b, _, h⟩ := h
  exact mem_stemsOf.1 (List.of_mem_zip (List.of_mem_zip h).1).1

/-- If the queries are made for a proof that claims a value for one stem, the hint says that the stem is present. -/
theorem oneStem_present {C : Crypto F G} {hint : VerificationHint} {comms : List G} {keys : List Key}
    {values : List (Option Value)} {root : G} {qs : List (VerifierQuery F G)} {uh : UpdateHint G}
    (hq : createVerifierQueries C hint comms keys values root = .ok (some (qs, uh))) (hs : OneStem keys)
    (hv : ClaimsValue keys values) {s : Stem} {e : ExtPresent} {d : ℕ} (he : HintEntry hint keys s e d) : e = .present := by
  obtain ⟨st, hst, _⟩ := createVerifierQueries_ok hq
  obtain ⟨k, w, hk⟩ := hv
  obtain ⟨e', d', h1, h2⟩ := hst.ok k (some w) hk
  obtain ⟨k', hk', rfl⟩ := hintEntry_stem he
  rw [hs k' hk' k (List.of_mem_zip hk).1] at he
  rw [(hintEntry_unique he (isClaim_entry h1)).1]
  cases e' with
  | present => rfl
  | none => exact absurd (h2.value (by simp)) (by simp)
  | differentStem => exact absurd (h2.value (by simp)) (by simp)

theorem oneStem_consistent {C : Crypto F G} {hint : VerificationHint} {comms : List G} {keys : List Key}
    {values : List (Option Value)} {root : G} {qs : List (VerifierQuery F G)} {uh : UpdateHint G}
    (hq : createVerifierQueries C hint comms keys values root = .ok (some (qs, uh))) (hs : OneStem keys)
    (hv : ClaimsValue keys values) : HintConsistent hint keys := by
  have hone : ∀ s t e f c d, HintEntry hint keys s e c → HintEntry hint keys t f d → s = t ∧ e = f ∧ c = d := by
    intro s t e f c d h1 h2
    obtain ⟨k, hk, rfl⟩ := hintEntry_stem h1
    obtain ⟨k', hk', rfl⟩ := hintEntry_stem h2
    have h := hs k hk k' hk'
    rw [h] at h1 ⊢
    exact ⟨rfl, hintEntry_unique h1 h2⟩
  refine ⟨fun s t e f c d h1 h2 _ => ?_, fun s t e f c d h1 h2 _ => ?_, fun s d h1 => ?_⟩
  · obtain ⟨rfl, rfl, rfl⟩ := hone _ _ _ _ _ _ h1 h2
    rfl
  · obtain ⟨rfl, rfl, rfl⟩ := hone _ _ _ _ _ _ h1 h2
    exact ⟨Iff.rfl, fun _ _ => rfl⟩
  · exact absurd (oneStem_present hq hs hv h1) (by simp)

theorem accepted_queries {C : Crypto F G} {O : Opener F G} {p : VerkleProof G O.Pf} {keys : List Key} {values : List (Option Value)}
    {root : G} {uh : Option (UpdateHint G)} (hacc : check C O p keys values root = .ok (true, uh)) :
    ∃ qs uh', createVerifierQueries C p.hint p.comms keys values root = .ok (some (qs, uh')) := by
  simp only [check, bind, Except.bind] at hacc
  cases hq : createVerifierQueries C p.hint p.comms keys values root with
  | error e => rw [hq] at hacc; simp at hacc
  | ok o =>
    cases o with
    | none => rw [hq] at hacc; simp at hacc
    | some x => exact ⟨x.1, x.2, rfl⟩

/-- C75.  Suppose a proof, with any hint at all, for distinct keys of one stem, one value per key and at least one of them not absent, is
accepted against the root of a trie built from a history, and from the accepted opening argument a vector can be extracted for each
commitment.  Then either the commitment scheme is explicitly broken, or every claim, of a value or of absence, is true. -/
theorem C75_one_stem_claims_true (hF : BigField F) (C : Crypto F G) (O : Opener F G) (l : List (Key × Value))
    {db : MemoryDb F G} (hb : build C l = .ok db) {root : G} (hr : Trie.rootCommitment db = .ok root)
    (p : VerkleProof G O.Pf) (keys : List Key) (values : List (Option Value)) {uh : Option (UpdateHint G)}
    (hacc : check C O p keys values root = .ok (true, uh)) (hlen : keys.length = values.length) (hnd : keys.Nodup)
    (hs : OneStem keys) (hv : ClaimsValue keys values) (W : G → Byte → F)
    (hW : CheckExtracts C W p keys values root) :
    CheckBreak C (lastWrite l) W p keys values root ∨ ∀ k v, (k, v) ∈ keys.zip values → Trie.get db k = v := by
  obtain ⟨qs, uh', hq⟩ := accepted_queries hacc
  refine (C21_accepted_claims_true_partial hF C O l hb hr p keys values hacc hlen W hW).imp_right fun h k v hk => ?_
  obtain ⟨h1, h2⟩ := h k v hk (undisputed hnd (oneStem_consistent hq hs hv) hk)
  cases v with
  | some w => exact h1 w rfl
  | none =>
    rcases h2 rfl with h2 | ⟨d, hd, _⟩
    · exact h2
    · exact absurd (oneStem_present hq hs hv hd) (by simp)

/-- C75.  The same for the stateless updater: if it returns a root for any proof at all, for keys of one stem at least one of which is
claimed to have a value, the commitments are explicitly broken or the old values of the written keys are the stored ones and the root
is that of the trie after inserting the new values. -/
theorem C75_one_stem_update (hF : BigField F) (C : Crypto F G) (O : Opener F G)
    {ord : Path → List Stem → List Stem} (hord : ∀ p l, (ord p l).Perm l) (l : List (Key × Value))
    {db : MemoryDb F G} (hb : build C l = .ok db) {root : G} (hr : Trie.rootCommitment db = .ok root)
    (p : VerkleProof G O.Pf) (keys : List Key) (values updated : List (Option Value)) {r : G}
    (hacc : verifyAndUpdate C O ord p root keys values updated = .ok (.ok r)) (hlen : keys.length = values.length)
    (hs : OneStem keys) (hv : ClaimsValue keys values) (W : G → Byte → F)
    (hW : CheckExtracts C W p keys values root) :
    CheckBreak C (lastWrite l) W p keys values root ∨
    ((∀ k o v, ((k, o), some v) ∈ (keys.zip values).zip updated → Trie.get db k = o) ∧
      ∃ db', Trie.insert C db (writes keys updated) = .ok db' ∧ Trie.rootCommitment db' = .ok r) := by
  obtain ⟨qs, uh', hq⟩ : ∃ qs uh', createVerifierQueries C p.hint p.comms keys values root = .ok (some (qs, uh')) := by
    simp only [verifyAndUpdate, check, bind, Except.bind] at hacc
    cases hq : createVerifierQueries C p.hint p.comms keys values root with
    | error e => rw [hq] at hacc; simp at hacc
    | ok o =>
      cases o with
      | none => rw [hq] at hacc; simp at hacc
      | some x => exact ⟨x.1, x.2, rfl⟩
  exact C63_accepted_update_partial hF C O hord l hb hr p keys values updated hacc hlen
    (fun _ _ _ => (oneStem_consistent hq hs hv).consistentAt _) W hW

/-! ### Against a random hash -/

/-- The output of a program, a proof with keys and values, is accepted by `check` against `root` and one of its claims is false.  The keys
are distinct, at most `n`, all of one stem, and a value is claimed for at least one of them. -/
def ForgesOneStem (K : WireCodec F G) (C : Crypto F G) (Q : G) (order : List (ProverQuery F G) → List ℕ) (db : MemoryDb F G) (root : G)
    (n : ℕ) (A : Prog (List Byte) F (VerkleProof G (MultiProof F G) × List Key × List (Option Value))) (H : List Byte → F) : Prop :=
  let o := A.run H
  o.2.1.length = o.2.2.length ∧ o.2.1.length ≤ n ∧ o.2.1.Nodup ∧ OneStem o.2.1 ∧ ClaimsValue o.2.1 o.2.2 ∧
  (∃ uh, check C (multiOpener ⟨K, H⟩ C Q order) o.1 o.2.1 o.2.2 root = .ok (true, uh)) ∧
  ∃ k v, (k, v) ∈ o.2.1.zip o.2.2 ∧ Trie.get db k ≠ v

/-- What `rom_trie_at_of` asks of a winning output. -/
theorem ForgesOneStem.wins {K : WireCodec F G} {C : Crypto F G} {Q : G} {order : List (ProverQuery F G) → List ℕ} (hF : BigField F)
    {l : List (Key × Value)} {db : MemoryDb F G} (hb : build C l = .ok db) {root : G} (hr : Trie.rootCommitment db = .ok root) {n : ℕ}
    {A : Prog (List Byte) F (VerkleProof G (MultiProof F G) × List Key × List (Option Value))} {H : List Byte → F}
    (hH : ForgesOneStem K C Q order db root n A H) :
    ∃ qs uh, createVerifierQueries C (A.run H).1.hint (A.run H).1.comms (A.run H).2.1 (A.run H).2.2 root = .ok (some (qs, uh)) ∧
      qs.length ≤ 36 * n ∧
      (∃ uh, check C (multiOpener ⟨K, H⟩ C Q order) (A.run H).1 (A.run H).2.1 (A.run H).2.2 root = .ok (true, uh)) ∧
      ∀ vec, Extracts C vec qs → ProofBreak C (lastWrite l) vec qs := by
  obtain ⟨h1, h2, h3, h4, h5, ⟨uh, h6⟩, k, v, h7, h8⟩ := hH
  obtain ⟨qs, uh', hq⟩ := accepted_queries h6
  refine ⟨qs, uh', hq, ?_, ⟨uh, h6⟩, fun vec hext => ?_⟩
  · refine (C74_bounded_partial hq).1.trans (Nat.mul_le_mul_left _ ?_)
    exact (List.toFinset_card_le _).trans h2
  · rcases extracts_claims hF C l hb hr h1 hq hext with h9 | h9
    · exact h9
    · obtain ⟨h10, h11⟩ := h9 k v h7 (undisputed h3 (oneStem_consistent hq h4 h5) h7)
      cases v with
      | some w => exact absurd (h10 w rfl) h8
      | none =>
        rcases h11 rfl with h12 | ⟨d, hd, _⟩
        · exact absurd h12 h8
        · exact absurd (oneStem_present hq h4 h5 hd) (by simp)

/-- What `C75_random_hash` says, for a hash with values in `E` that `red` turns into challenges, each from at most `B` values.  The
output of a run, `.ret (A.run H)`, wins for the challenges of the run. -/
theorem rom_stem_of {E : Type} [Fintype E] {red : E → F} {B : ℕ} (hred : Spread red B) {N n : ℕ} (hF : BigField F) (K : WireCodec F G) (C : Crypto F G) (Q : G)
    (order : List (ProverQuery F G) → List ℕ) (l : List (Key × Value)) {db : MemoryDb F G} (hb : build C l = .ok db) {root : G}
    (hr : Trie.rootCommitment db = .ok root)
    (A : Prog (List Byte) E (VerkleProof G (MultiProof F G) × List Key × List (Option Value))) (hA : A.Within N)
    (H₀ : List Byte → E) (D : Finset (List Byte)) (hD : ∀ s : List Byte, s.length ≤ 99 * (36 * n) + 192 → s ∈ D)
    (h : (N + 11) * (B * (513 + 36 * n + 2 * (N + 11))) * Fintype.card E ^ D.card <
      Fintype.card E * Fintype.card {H : D → E // ForgesOneStem K C Q order db root n (.ret (A.run (over H₀ H))) (fun s => red (over H₀ H s))}) :
    ∃ (qs : List (VerifierQuery F G)) (X : MultiTree F G qs.length (255 + qs.length) 8), X.Distinct 256 ∧
      (∀ i j u, ∀ p ∈ (X.ipa i j u).leaves, ∃ H : D → E, ForgesOneStem K C Q order db root n (.ret (A.run (over H₀ H))) (fun s => red (over H₀ H s)) ∧
        MakesQueries C root (A.run (over H₀ H)) qs ∧ (A.run (over H₀ H)).1.proof = ⟨p.2, X.D i⟩ ∧
        drawn ⟨K, fun s => red (over H₀ H s)⟩ (newTranscript (lbl "vt")) ⟨p.2, X.D i⟩ qs = (X.r i, X.t i j, X.w i j u, p.1)) ∧
      ((∃ ρ ∈ X.rels qs.get 256, ρ ≠ 0 ∧ ∑ i : Fin 256, ρ.1 i • C.g i + ρ.2 • Q = 0) ∨
      ProofBreak C (lastWrite l) (vecOf qs X) qs) :=
  rom_trie_of hred hF K C Q order l root A hA id (fun H => ForgesOneStem K C Q order db root n (.ret (A.run H)) (fun s => red (H s)))
    (fun _ hH => hH.wins hF hb hr) H₀ D hD h

/-- C75.  Let a program ask the hash at most `N` times and output a proof with at most `n` keys and values.  If, against the root of a trie
built from a history, `check` accepts a false claim about keys of one stem, at least one of them with a value, for more than the part
`(N + 11) (513 + 36 n + 2 (N + 11)) / |F|` of the hashes, there are runs of the program, all with the same queries, from which a
non-trivial relation between the generators and `Q` or vectors breaking the commitments of the trie are computed.  Nothing is assumed
of the hint. -/
theorem C75_random_hash [Fintype F] {N n : ℕ} (hF : BigField F) (K : WireCodec F G) (C : Crypto F G) (Q : G)
    (order : List (ProverQuery F G) → List ℕ) (l : List (Key × Value)) {db : MemoryDb F G} (hb : build C l = .ok db) {root : G}
    (hr : Trie.rootCommitment db = .ok root)
    (A : Prog (List Byte) F (VerkleProof G (MultiProof F G) × List Key × List (Option Value))) (hA : A.Within N)
    (H₀ : List Byte → F) (D : Finset (List Byte)) (hD : ∀ s : List Byte, s.length ≤ 99 * (36 * n) + 192 → s ∈ D)
    (h : (N + 11) * (513 + 36 * n + 2 * (N + 11)) * Fintype.card F ^ D.card <
      Fintype.card F * Fintype.card {H : D → F // ForgesOneStem K C Q order db root n A (over H₀ H)}) :
    ∃ (qs : List (VerifierQuery F G)) (X : MultiTree F G qs.length (255 + qs.length) 8), X.Distinct 256 ∧
      (∀ i j u, ∀ p ∈ (X.ipa i j u).leaves, ∃ H : D → F, ForgesOneStem K C Q order db root n A (over H₀ H) ∧
        MakesQueries C root (A.run (over H₀ H)) qs ∧ (A.run (over H₀ H)).1.proof = ⟨p.2, X.D i⟩ ∧
        drawn ⟨K, over H₀ H⟩ (newTranscript (lbl "vt")) ⟨p.2, X.D i⟩ qs = (X.r i, X.t i j, X.w i j u, p.1)) ∧
      ((∃ ρ ∈ X.rels qs.get 256, ρ ≠ 0 ∧ ∑ i : Fin 256, ρ.1 i • C.g i + ρ.2 • Q = 0) ∨
      ProofBreak C (lastWrite l) (vecOf qs X) qs) :=
  rom_stem_of spread_id hF K C Q order l hb hr A hA H₀ D hD (by rw [one_mul]; exact h)

/-! ### A client that reads an account -/

/-- C75 for accounts.  Let a client have the root only and ask for items of an account that are kept together.  If `check` accepts a proof,
with any hint, and at least one of the items is not absent, then the commitments are explicitly broken, or two of the slots used collide,
or each item shown, absence included, is as last written. -/
theorem C75_account (hF : BigField F) (C : Crypto F G) (O : Opener F G) (H : Hash64) (w : List (Slot × Value))
    (hw : ∀ x ∈ w, x.1.2.Valid) {l : List (Key × Value)} (hl : stateWrites H w = .ok l) {db : MemoryDb F G} (hb : build C l = .ok db)
    {root : G} (hr : Trie.rootCommitment db = .ok root) (p : VerkleProof G O.Pf) (a : Bytes 32) (n : ℕ) (items : List Item)
    (hv : ∀ i ∈ items, i.Valid) (hn : ∀ i ∈ items, i.place.1 = n) (hnd : items.Nodup) {keys : List Key}
    (hk : items.mapM (itemKey H a) = .ok keys) (values : List (Option Value)) (hsome : ∃ v, some v ∈ values)
    {uh : Option (UpdateHint G)} (hacc : check C O p keys values root = .ok (true, uh)) (hlen : items.length = values.length)
    (W : G → Byte → F) (hW : CheckExtracts C W p keys values root) :
    CheckBreak C (lastWrite l) W p keys values root ∨ (Collides H fun s => (s.1 = a ∧ s.2 ∈ items) ∨ Written w s) ∨
      ∀ i v, (i, v) ∈ items.zip values → lastState w (a, i) = v := by
  by_cases hcol : Collides H fun s => (s.1 = a ∧ s.2 ∈ items) ∨ Written w s
  · exact Or.inr (Or.inl hcol)
  rw [Proof.mapM_ok _ (fun i => slotKey H (a, i)) _ fun i hi => slotKey_ok H (s := (a, i)) (hv i hi)] at hk
  cases hk
  have hinj : (items.map fun i => slotKey H (a, i)).Nodup := by
    refine List.Nodup.map_on (fun i hi j hj h => ?_) hnd
    exact congrArg Prod.snd (slotKey_inj hcol (Or.inl ⟨rfl, hi⟩) (Or.inl ⟨rfl, hj⟩) (hv i hi) (hv j hj) h)
  have hst : ∀ i ∈ items, (slotKey H (a, i)).stem = (hashAddrInt H a n).stem := fun i hi => by
    rw [slotKey, mkKey_stem, hn i hi]
  have hone : OneStem (items.map fun i => slotKey H (a, i)) := by
    intro k hk k' hk'
    obtain ⟨i, hi, rfl⟩ := List.mem_map.1 hk
    obtain ⟨j, hj, rfl⟩ := List.mem_map.1 hk'
    rw [hst i hi, hst j hj]
  have hcl : ClaimsValue (items.map fun i => slotKey H (a, i)) values := by
    obtain ⟨v, hv⟩ := hsome
    obtain ⟨j, hj, e⟩ := List.getElem_of_mem hv
    refine ⟨slotKey H (a, items[j]), v, ?_⟩
    rw [List.zip_map_left]
    refine List.mem_map.2 ⟨(items[j], some v), ?_, rfl⟩
    rw [← e]
    exact List.mem_iff_getElem.2 ⟨j, by simp; omega, by simp⟩
  refine (C75_one_stem_claims_true hF C O l hb hr p _ values hacc (by simpa using hlen) hinj hone hcl W hW).imp_right fun h => ?_
  refine Or.inr fun i v hm => ?_
  have h1 := h (slotKey H (a, i)) v (by
    rw [List.zip_map_left]
    exact List.mem_map.2 ⟨_, hm, rfl⟩)
  rw [build_iff] at hb
  subst hb
  have h1 : lastWrite l (slotKey H (a, i)) = v := h1
  rw [stateWrites_ok H hw] at hl
  cases hl
  have hi := (List.of_mem_zip hm).1
  rwa [lastWrite_state hcol hw (fun _ h => Or.inr h) (s := (a, i)) (hv i hi) (Or.inl ⟨rfl, hi⟩)] at h1

/-- What a program says about an account: a proof, the address, items and their values. -/
abbrev AccountClaim (F G : Type) := VerkleProof G (MultiProof F G) × Bytes 32 × List Item × List (Option Value)

/-- The proof with keys and values that a client checks for it. -/
def accountCheck (H : Hash64) (o : AccountClaim F G) : VerkleProof G (MultiProof F G) × List Key × List (Option Value) :=
  (o.1, o.2.2.1.map (fun i => slotKey H (o.2.1, i)), o.2.2.2)

/-- A program's output, a proof about at most `n` different items of one account that are kept together, is accepted against `root` with at
least one value shown, and one of the items, or an absence shown, is not as last written.  Not counted are outputs for which two of
the slots used collide. -/
def ForgesAccount (K : WireCodec F G) (C : Crypto F G) (Q : G) (order : List (ProverQuery F G) → List ℕ) (H : Hash64)
    (w : List (Slot × Value)) (root : G) (n : ℕ) (A : Prog (List Byte) F (AccountClaim F G)) (R : List Byte → F) : Prop :=
  let o := A.run R
  (∀ i ∈ o.2.2.1, i.Valid) ∧ (∀ i ∈ o.2.2.1, ∀ j ∈ o.2.2.1, i.place.1 = j.place.1) ∧ o.2.2.1.Nodup ∧
  o.2.2.1.length = o.2.2.2.length ∧ o.2.2.1.length ≤ n ∧ (∃ v, some v ∈ o.2.2.2) ∧
  (∃ keys uh, o.2.2.1.mapM (itemKey H o.2.1) = .ok keys ∧
    check C (multiOpener ⟨K, R⟩ C Q order) o.1 keys o.2.2.2 root = .ok (true, uh)) ∧
  (∃ i v, (i, v) ∈ o.2.2.1.zip o.2.2.2 ∧ lastState w (o.2.1, i) ≠ v) ∧
  ¬ Collides H fun s => (s.1 = o.2.1 ∧ s.2 ∈ o.2.2.1) ∨ Written w s

/-- What `rom_trie_at_of` asks of a winning output. -/
theorem ForgesAccount.wins {K : WireCodec F G} {C : Crypto F G} {Q : G} {order : List (ProverQuery F G) → List ℕ} (hF : BigField F)
    {H : Hash64} {w : List (Slot × Value)} (hw : ∀ x ∈ w, x.1.2.Valid)
    {l : List (Key × Value)} (hl : stateWrites H w = .ok l) {db : MemoryDb F G} (hb : build C l = .ok db) {root : G}
    (hr : Trie.rootCommitment db = .ok root) {n : ℕ} {A : Prog (List Byte) F (AccountClaim F G)} {R : List Byte → F}
    (hR : ForgesAccount K C Q order H w root n A R) :
    ∃ qs uh, createVerifierQueries C (accountCheck H (A.run R)).1.hint (accountCheck H (A.run R)).1.comms (accountCheck H (A.run R)).2.1
        (accountCheck H (A.run R)).2.2 root = .ok (some (qs, uh)) ∧ qs.length ≤ 36 * n ∧
      (∃ uh, check C (multiOpener ⟨K, R⟩ C Q order) (accountCheck H (A.run R)).1 (accountCheck H (A.run R)).2.1
        (accountCheck H (A.run R)).2.2 root = .ok (true, uh)) ∧
      ∀ vec, Extracts C vec qs → ProofBreak C (lastWrite l) vec qs := by
  obtain ⟨hv, hn, hnd, hlen, hmax, hsome, ⟨keys, uh, hk, hacc⟩, ⟨i, v, hm, hne⟩, hcol⟩ := hR
  generalize A.run R = o at *
  obtain ⟨p, a, items, values⟩ := o
  simp only at hv hn hnd hlen hmax hsome hk hacc hm hne hcol
  simp only [accountCheck]
  rw [Proof.mapM_ok _ (fun i => slotKey H (a, i)) _ fun i hi => slotKey_ok H (s := (a, i)) (hv i hi)] at hk
  cases hk
  obtain ⟨qs, uh', hq⟩ := accepted_queries hacc
  refine ⟨qs, uh', hq, ?_, ⟨uh, hacc⟩, fun vec hext => ?_⟩
  · refine (C74_bounded_partial hq).1.trans (Nat.mul_le_mul_left _ ?_)
    exact (List.toFinset_card_le _).trans (by simpa using hmax)
  · have hi := (List.of_mem_zip hm).1
    rcases C75_account hF C (⟨MultiProof F G, fun _ => .error "", fun _ _ => .ok true⟩ : Opener F G) H w hw hl hb hr p a i.place.1 items hv
        (fun j hj => hn j hj i hi) hnd (keys := items.map fun i => slotKey H (a, i))
        (Proof.mapM_ok _ (fun i => slotKey H (a, i)) _ fun i hi => slotKey_ok H (s := (a, i)) (hv i hi)) values hsome
        (uh := some uh') (by simp only [check, hq, bind, Except.bind]) hlen vec (fun qs' u' h' => by
          rw [hq] at h'
          cases h'
          exact hext) with h1 | h1 | h1
    · obtain ⟨qs', u', h2, h3⟩ := h1
      rw [hq] at h2
      cases h2
      exact h3
    · exact absurd h1 hcol
    · exact absurd (h1 i v hm) hne

/-- What `C75_account_random_hash` says, for a hash with values in `E` that `red` turns into challenges, each from at most `B` values.  The
output of a run, `.ret (A.run H)`, wins for the challenges of the run. -/
theorem rom_account_of {E : Type} [Fintype E] {red : E → F} {B : ℕ} (hred : Spread red B) {N n : ℕ} (hF : BigField F) (K : WireCodec F G) (C : Crypto F G) (Q : G)
    (order : List (ProverQuery F G) → List ℕ) (H : Hash64) (w : List (Slot × Value))
    (hw : ∀ x ∈ w, x.1.2.Valid) {l : List (Key × Value)} (hl : stateWrites H w = .ok l) {db : MemoryDb F G} (hb : build C l = .ok db)
    {root : G} (hr : Trie.rootCommitment db = .ok root) (A : Prog (List Byte) E (AccountClaim F G)) (hA : A.Within N)
    (R₀ : List Byte → E) (D : Finset (List Byte)) (hD : ∀ s : List Byte, s.length ≤ 99 * (36 * n) + 192 → s ∈ D)
    (h : (N + 11) * (B * (513 + 36 * n + 2 * (N + 11))) * Fintype.card E ^ D.card <
      Fintype.card E * Fintype.card {R : D → E // ForgesAccount K C Q order H w root n (.ret (A.run (over R₀ R))) (fun s => red (over R₀ R s))}) :
    ∃ (qs : List (VerifierQuery F G)) (X : MultiTree F G qs.length (255 + qs.length) 8), X.Distinct 256 ∧
      (∀ i j u, ∀ p ∈ (X.ipa i j u).leaves, ∃ R : D → E, ForgesAccount K C Q order H w root n (.ret (A.run (over R₀ R))) (fun s => red (over R₀ R s)) ∧
        MakesQueries C root (accountCheck H (A.run (over R₀ R))) qs ∧ (A.run (over R₀ R)).1.proof = ⟨p.2, X.D i⟩ ∧
        drawn ⟨K, fun s => red (over R₀ R s)⟩ (newTranscript (lbl "vt")) ⟨p.2, X.D i⟩ qs = (X.r i, X.t i j, X.w i j u, p.1)) ∧
      ((∃ ρ ∈ X.rels qs.get 256, ρ ≠ 0 ∧ ∑ i : Fin 256, ρ.1 i • C.g i + ρ.2 • Q = 0) ∨
      ProofBreak C (lastWrite l) (vecOf qs X) qs) :=
  rom_trie_of hred hF K C Q order l root A hA (accountCheck H) (fun R => ForgesAccount K C Q order H w root n (.ret (A.run R)) (fun s => red (R s)))
    (fun _ hR => hR.wins hF hw hl hb hr) R₀ D hD h

/-- C75 for accounts, against a random hash.  Let a program ask the hash at most `N` times and output an address, at most `n` items kept
together, values and a proof.  If, against the root of the state after some writes, a client accepts something false with at least one
value shown for more than the part `(N + 11) (513 + 36 n + 2 (N + 11)) / |F|` of the hashes, there are runs of the program, all with the
same queries, from which a non-trivial relation between the generators and `Q` or vectors breaking the commitments are computed. -/
theorem C75_account_random_hash [Fintype F] {N n : ℕ} (hF : BigField F) (K : WireCodec F G) (C : Crypto F G) (Q : G)
    (order : List (ProverQuery F G) → List ℕ) (H : Hash64) (w : List (Slot × Value))
    (hw : ∀ x ∈ w, x.1.2.Valid) {l : List (Key × Value)} (hl : stateWrites H w = .ok l) {db : MemoryDb F G} (hb : build C l = .ok db)
    {root : G} (hr : Trie.rootCommitment db = .ok root) (A : Prog (List Byte) F (AccountClaim F G)) (hA : A.Within N)
    (R₀ : List Byte → F) (D : Finset (List Byte)) (hD : ∀ s : List Byte, s.length ≤ 99 * (36 * n) + 192 → s ∈ D)
    (h : (N + 11) * (513 + 36 * n + 2 * (N + 11)) * Fintype.card F ^ D.card <
      Fintype.card F * Fintype.card {R : D → F // ForgesAccount K C Q order H w root n A (over R₀ R)}) :
    ∃ (qs : List (VerifierQuery F G)) (X : MultiTree F G qs.length (255 + qs.length) 8), X.Distinct 256 ∧
      (∀ i j u, ∀ p ∈ (X.ipa i j u).leaves, ∃ R : D → F, ForgesAccount K C Q order H w root n A (over R₀ R) ∧
        MakesQueries C root (accountCheck H (A.run (over R₀ R))) qs ∧ (A.run (over R₀ R)).1.proof = ⟨p.2, X.D i⟩ ∧
        drawn ⟨K, over R₀ R⟩ (newTranscript (lbl "vt")) ⟨p.2, X.D i⟩ qs = (X.r i, X.t i j, X.w i j u, p.1)) ∧
      ((∃ ρ ∈ X.rels qs.get 256, ρ ≠ 0 ∧ ∑ i : Fin 256, ρ.1 i • C.g i + ρ.2 • Q = 0) ∨
      ProofBreak C (lastWrite l) (vecOf qs X) qs) :=
  rom_account_of spread_id hF K C Q order H w hw hl hb hr A hA R₀ D hD (by rw [one_mul]; exact h)

/-! ### Both conditions are needed -/

/-- C75.  If only absence is claimed, false claims about one stem are accepted. -/
theorem C75_absence_alone_forged (C : Crypto F G) (O : Opener F G) (hO : CompleteOpener C O) :
    ∃ (l : List (Key × Value)) (db : MemoryDb F G) (root : G) (p : VerkleProof G O.Pf) (k : Key) (uh : UpdateHint G),
      build C l = .ok db ∧ Trie.rootCommitment db = .ok root ∧ OneStem [k] ∧ Trie.get db k ≠ none ∧
      check C O p [k] [none] root = .ok (true, some uh) := by
  obtain ⟨db, root, p, uh, h1, h2, h3, h4⟩ := C21_absence_forged_by_own_stem C O hO
  refine ⟨_, db, root, p, soloKey, uh, h1, h2, ?_, by rw [h3]; simp, h4⟩
  intro k hk k' hk'
  simp only [List.mem_singleton] at hk hk'
  rw [hk, hk']

/-- C75.  With two stems, values that were never stored are accepted. -/
theorem C75_two_stems_forged (C : Crypto F G) (O : Opener F G) (hO : CompleteOpener C O) :
    ∃ (l : List (Key × Value)) (db : MemoryDb F G) (root : G) (p : VerkleProof G O.Pf) (k k' : Key) (v : Value) (uh : UpdateHint G),
      build C l = .ok db ∧ Trie.rootCommitment db = .ok root ∧ k ≠ k' ∧ Trie.get db k = none ∧
      check C O p [k, k'] [some v, some v] root = .ok (true, some uh) := by
  obtain ⟨db, root, p, uh, h1, h2, h3, h4⟩ := C21_presence_forged_at_shared_path C O hO
  exact ⟨_, db, root, p, twinKey, soloKey, _, uh, h1, h2, by decide, h3, h4⟩

/-- What `forges_one_stem` says, for a hash with values in `E` that `red` turns into challenges, each from at most `c` values. -/
theorem forges_one_stem_of {E : Type} [Fintype E] {red : E → F} {c : ℕ} (hred : Spread red c) (hF : BigField F) (C : Crypto F G) (hC : ∀ i, C.g i = 0) (K : WireCodec F G) (Q : G)
    (order : List (ProverQuery F G) → List ℕ) (H₀ : List Byte → E) (hbig : c * 20000 < Fintype.card E) :
    ∃ (db : MemoryDb F G) (root : G)
      (A : Prog (List Byte) F (VerkleProof G (MultiProof F G) × List Key × List (Option Value))) (D : Finset (List Byte)),
      build C [] = .ok db ∧ Trie.rootCommitment db = .ok root ∧ A.Within 11 ∧
      (∀ s : List Byte, s.length ≤ 99 * (36 * 1) + 192 → s ∈ D) ∧
      (11 + 11) * (c * (513 + 36 * 1 + 2 * (11 + 11))) * Fintype.card E ^ D.card <
        Fintype.card E * Fintype.card {H : D → E // ForgesOneStem K C Q order db root 1 A (fun s => red (over H₀ H s))} := by
  obtain ⟨db, root, A, D, hb, hr, hA, ho, hD, h⟩ := forges_zero_of (m := 36 * 1) hred (by norm_num) hF C hC K Q order H₀ (lt_of_le_of_lt (Nat.mul_le_mul_left c (by norm_num)) hbig)
  refine ⟨db, root, A, D, hb, hr, hA, hD, lt_of_lt_of_le h (Nat.mul_le_mul_left _ (Fintype.card_subtype_mono _ _ fun H hH => ?_))⟩
  obtain ⟨h1, h4, h5, h6⟩ := hH
  obtain ⟨π, hπ⟩ := ho (fun s => red (over H₀ H s))
  unfold ForgesOneStem
  rw [hπ] at h5 ⊢
  refine ⟨rfl, le_rfl, by simp, fun k hk k' hk' => ?_, ⟨soloKey, valOf 7, by simp⟩, h5, soloKey, some (valOf 7), by simp, ?_⟩
  · simp only [List.mem_singleton] at hk hk'
    rw [hk, hk']
  · rw [build_iff] at hb
    subst hb
    show lastWrite [] soloKey ≠ _
    simp [lastWrite]

/-- The hypotheses of `C75_random_hash` are met if all generators are zero. -/
theorem forges_one_stem [Fintype F] (hF : BigField F) (C : Crypto F G) (hC : ∀ i, C.g i = 0) (K : WireCodec F G) (Q : G)
    (order : List (ProverQuery F G) → List ℕ) (H₀ : List Byte → F) (hbig : 20000 < Fintype.card F) :
    ∃ (db : MemoryDb F G) (root : G)
      (A : Prog (List Byte) F (VerkleProof G (MultiProof F G) × List Key × List (Option Value))) (D : Finset (List Byte)),
      build C [] = .ok db ∧ Trie.rootCommitment db = .ok root ∧ A.Within 11 ∧
      (∀ s : List Byte, s.length ≤ 99 * (36 * 1) + 192 → s ∈ D) ∧
      (11 + 11) * (513 + 36 * 1 + 2 * (11 + 11)) * Fintype.card F ^ D.card <
        Fintype.card F * Fintype.card {H : D → F // ForgesOneStem K C Q order db root 1 A (over H₀ H)} := by
  have h := forges_one_stem_of spread_id hF C hC K Q order H₀ (by rw [one_mul]; exact hbig)
  simp only [one_mul] at h
  exact h

/-- What `forges_account` says, for a hash with values in `E` that `red` turns into challenges, each from at most `c` values. -/
theorem forges_account_of {E : Type} [Fintype E] {red : E → F} {c : ℕ} (hred : Spread red c) (hF : BigField F) (C : Crypto F G) (hC : ∀ i, C.g i = 0) (K : WireCodec F G) (Q : G)
    (order : List (ProverQuery F G) → List ℕ) (R₀ : List Byte → E) (hbig : c * 20000 < Fintype.card E) (a : Bytes 32) :
    ∃ (H : Hash64) (db : MemoryDb F G) (root : G) (A : Prog (List Byte) F (AccountClaim F G)) (D : Finset (List Byte)),
      stateWrites H [] = .ok [] ∧ build C [] = .ok db ∧ Trie.rootCommitment db = .ok root ∧ A.Within 11 ∧
      (∀ s : List Byte, s.length ≤ 99 * (36 * 1) + 192 → s ∈ D) ∧
      (11 + 11) * (c * (513 + 36 * 1 + 2 * (11 + 11))) * Fintype.card E ^ D.card <
        Fintype.card E * Fintype.card {R : D → E // ForgesAccount K C Q order H [] root 1 A (fun s => red (over R₀ R s))} := by
  obtain ⟨db, root, A, D, hb, hr, hA, ho, hD, h⟩ := forges_zero_of (m := 36 * 1) hred (by norm_num) hF C hC K Q order R₀ (lt_of_le_of_lt (Nat.mul_le_mul_left c (by norm_num)) hbig)
  let f : VerkleProof G (MultiProof F G) × List Key × List (Option Value) → Prog (List Byte) F (AccountClaim F G) :=
    fun o => .ret (o.1, a, [.code 133], o.2.2)
  have hkey : slotKey (fun _ => soloKey) (a, Item.code 133) = soloKey := by
    show mkKey soloKey.stem (Fin.ofNat 256 (128 + 133)) = soloKey
    decide +kernel
  refine ⟨fun _ => soloKey, db, root, A.bind f, D, rfl, hb, hr, Prog.Within.bind (f := f) (n := 0) (fun _ => trivial) hA, hD,
    lt_of_lt_of_le h (Nat.mul_le_mul_left _ (Fintype.card_subtype_mono _ _ fun R hR => ?_))⟩
  obtain ⟨h1, h4, ⟨uh, h5⟩, h6⟩ := hR
  obtain ⟨π, hπ⟩ := ho (fun s => red (over R₀ R s))
  unfold ForgesAccount
  rw [Prog.run_bind]
  rw [hπ] at h5 ⊢
  have hv : (Item.code 133).Valid := by show 133 < 2 ^ 248 - 64; norm_num
  have hk := slotKey_ok (fun _ => soloKey) (s := (a, Item.code 133)) hv
  rw [hkey] at hk
  simp only [f, Prog.run]
  refine ⟨by simpa using hv, by simp, by simp, rfl, le_rfl, ⟨valOf 7, by simp⟩, ⟨[soloKey], uh, ?_, h5⟩,
    ⟨.code 133, some (valOf 7), by simp, by simp [lastState]⟩, ?_⟩
  · simp only [List.mapM_cons, List.mapM_nil, hk]
    rfl
  · rintro ⟨s, s', hs, hs', hne, -⟩
    rcases hs with ⟨e1, e2⟩ | ⟨v, hv⟩
    · rcases hs' with ⟨e3, e4⟩ | ⟨v, hv⟩
      · simp only [List.mem_singleton] at e2 e4
        rw [e1, e2, e3, e4] at hne
        exact hne rfl
      · simp at hv
    · simp at hv

/-- The hypotheses of `C75_account_random_hash` are met if all generators are zero, by a program that shows a chunk of code of an account
in the empty state. -/
theorem forges_account [Fintype F] (hF : BigField F) (C : Crypto F G) (hC : ∀ i, C.g i = 0) (K : WireCodec F G) (Q : G)
    (order : List (ProverQuery F G) → List ℕ) (R₀ : List Byte → F) (hbig : 20000 < Fintype.card F) (a : Bytes 32) :
    ∃ (H : Hash64) (db : MemoryDb F G) (root : G) (A : Prog (List Byte) F (AccountClaim F G)) (D : Finset (List Byte)),
      stateWrites H [] = .ok [] ∧ build C [] = .ok db ∧ Trie.rootCommitment db = .ok root ∧ A.Within 11 ∧
      (∀ s : List Byte, s.length ≤ 99 * (36 * 1) + 192 → s ∈ D) ∧
      (11 + 11) * (513 + 36 * 1 + 2 * (11 + 11)) * Fintype.card F ^ D.card <
        Fintype.card F * Fintype.card {R : D → F // ForgesAccount K C Q order H [] root 1 A (over R₀ R)} := by
  have h := forges_account_of spread_id hF C hC K Q order R₀ (by rw [one_mul]; exact hbig) a
  simp only [one_mul] at h
  exact h

/-- The hypotheses of `C75_one_stem_claims_true` can all hold, without a break. -/
example : ∃ db root p uh, BigField ℚ ∧ build negCrypto soloHist = .ok db ∧ Trie.rootCommitment db = .ok root ∧
    check negCrypto lookupOpener p [soloKey] [some (valOf 7)] root = .ok (true, some uh) ∧
    OneStem [soloKey] ∧ ClaimsValue [soloKey] [some (valOf 7)] ∧
    CheckExtracts negCrypto id p [soloKey] [some (valOf 7)] root ∧
    ∀ qs, ¬ ProofBreak negCrypto (lastWrite soloHist) id qs := by
  obtain ⟨p, uh, hh, hp⟩ := solo_accepted negCrypto lookupOpener lookupOpener_complete
  refine ⟨_, _, p, uh, bigField_rat, build_eq _ _, rootCommitment_spec _ _, hp, ?_, ⟨soloKey, valOf 7, by simp⟩,
    lookup_extracts hp, negCrypto_no_break _⟩
  · intro k hk k' hk'
    simp only [List.mem_singleton] at hk hk'
    rw [hk, hk']

end
end Verif.Props
