import Verif.Props.Eip
import Verif.Props.Sound

/-!
# C71: the state of accounts, stored in a trie under the keys of `verkle-spec`

The keys derived by `verkle-spec` (C41, C45, C46), the chunks of code (C43) and the trie (C01, C09) put together: what was written for
an account is what is read, the root determines the state, and code can be read back chunk by chunk - or two different hash
inputs among those used have the same first 31 bytes of hash.

The writes and reads of accounts (`stateWrites`, `readCode`) are not functions of the repository, only the calls they consist of.
-/

set_option autoImplicit false
set_option linter.unusedSectionVars false

namespace Verif.Props
open Verif Verif.Spec Verif.Trie Verif.Proof Verif.Wire Verif.Eip

/-- An item of an account. -/
abbrev Slot := Bytes 32 × Item

/-- The pairs inserted into the trie for a list of writes to accounts. -/
def stateWrites (H : Hash64) (w : List (Slot × Value)) : Res (List (Key × Value)) :=
  w.mapM fun x => do .ok (← itemKey H x.1.1 x.1.2, x.2)

/-- The value last written to a slot. -/
def lastState (w : List (Slot × Value)) (s : Slot) : Option Value := (w.reverse.find? fun x => x.1 = s).map Prod.snd

/-- Two of the slots are hashed from different pairs of address and tree index, and the stems are the same. -/
def Collides (H : Hash64) (P : Slot → Prop) : Prop :=
  ∃ s s', P s ∧ P s' ∧ (s.1, s.2.place.1) ≠ (s'.1, s'.2.place.1) ∧
    (hashAddrInt H s.1 s.2.place.1).stem = (hashAddrInt H s'.1 s'.2.place.1).stem

/-- The slots written. -/
def Written (w : List (Slot × Value)) (s : Slot) : Prop := ∃ v, (s, v) ∈ w

/-- The place of a slot in the trie. -/
def slotKey (H : Hash64) (s : Slot) : Key := mkKey (hashAddrInt H s.1 s.2.place.1).stem s.2.place.2

theorem slotKey_ok (H : Hash64) {s : Slot} (hs : s.2.Valid) : itemKey H s.1 s.2 = .ok (slotKey H s) :=
  C41_places_disjoint.1 H s.1 s.2 hs

theorem slotKey_inj {H : Hash64} {P : Slot → Prop} (hc : ¬ Collides H P) {s s' : Slot} (hp : P s) (hp' : P s') (hs : s.2.Valid)
    (hs' : s'.2.Valid) (h : slotKey H s = slotKey H s') : s = s' := by
  rw [slotKey, slotKey, mkKey_inj] at h
  have h1 : (s.1, s.2.place.1) = (s'.1, s'.2.place.1) := by
    by_contra hne
    exact hc ⟨s, s', hp, hp', hne, h.1⟩
  rw [Prod.mk.injEq] at h1
  exact Prod.ext h1.1 (C41_places_disjoint.2 _ _ hs hs' (Prod.ext h1.2 h.2))

theorem stateWrites_ok (H : Hash64) {w : List (Slot × Value)} (hw : ∀ x ∈ w, x.1.2.Valid) :
    stateWrites H w = .ok (w.map fun x => (slotKey H x.1, x.2)) :=
  Proof.mapM_ok _ _ _ fun x hx => by rw [slotKey_ok H (hw x hx)]; rfl

/-- What is stored for a slot. -/
theorem lastWrite_state {H : Hash64} {P : Slot → Prop} (hc : ¬ Collides H P) {w : List (Slot × Value)} (hw : ∀ x ∈ w, x.1.2.Valid)
    (hP : ∀ s, Written w s → P s) {s : Slot} (hs : s.2.Valid) (hp : P s) :
    lastWrite (w.map fun x => (slotKey H x.1, x.2)) (slotKey H s) = lastState w s := by
  rw [lastWrite, lastState, ← List.map_reverse, List.find?_map, Option.map_map]
  congr 1
  have hm : ∀ l : List (Slot × Value), (∀ x ∈ l, x ∈ w) →
      l.find? ((fun p : Key × Value => decide (p.1 = slotKey H s)) ∘ fun x => (slotKey H x.1, x.2)) = l.find? fun x => x.1 = s := by
    intro l hl
    induction l with
    | nil => rfl
    | cons x l ih =>
      have hx := hl x (by simp)
      have : (slotKey H x.1 = slotKey H s) = (x.1 = s) := by
        refine propext ⟨fun h => slotKey_inj hc (hP _ ⟨x.2, hx⟩) hp (hw x hx) hs h, fun h => by rw [h]⟩
      simp only [List.find?_cons, Function.comp, this]
      rw [← ih fun y hy => hl y (by simp [hy])]
  exact hm _ fun x hx => List.mem_reverse.1 hx

section
variable {F G : Type} [Field F] [AddCommGroup G] [Module F G]

/-- C71.  Any list of writes to accounts, for items whose keys can be derived, is inserted, and then every item reads as last
written, absent if never written - or two of the items used are hashed from different inputs to the same stem. -/
theorem C71_state_reads (C : Crypto F G) (H : Hash64) (w : List (Slot × Value)) (hw : ∀ x ∈ w, x.1.2.Valid) :
    ∃ l db, stateWrites H w = .ok l ∧ build C l = .ok db ∧ ∀ s : Slot, s.2.Valid →
      (∃ k, itemKey H s.1 s.2 = .ok k ∧ Trie.get db k = lastState w s) ∨ Collides H fun s' => s' = s ∨ Written w s' := by
  refine ⟨_, _, stateWrites_ok H hw, build_eq C _, fun s hs => ?_⟩
  by_cases hc : Collides H fun s' => s' = s ∨ Written w s'
  · exact Or.inr hc
  · exact Or.inl ⟨_, slotKey_ok H hs, lastWrite_state hc hw (fun _ h => Or.inr h) hs (Or.inl rfl)⟩

/-- C71.  The root determines the state: if two lists of writes lead to the same root, every item has the same value after both, or
two of the items used collide, or the commitments are explicitly broken. -/
theorem C71_root_binds_state [DecidableEq G] (hF : BigField F) (C : Crypto F G) (H : Hash64) (w w' : List (Slot × Value))
    (hw : ∀ x ∈ w, x.1.2.Valid) (hw' : ∀ x ∈ w', x.1.2.Valid) {l l' : List (Key × Value)} (hl : stateWrites H w = .ok l)
    (hl' : stateWrites H w' = .ok l') {db db' : MemoryDb F G} (hb : build C l = .ok db) (hb' : build C l' = .ok db')
    (h : Trie.rootCommitment db = Trie.rootCommitment db' ∨ Trie.rootHash db = Trie.rootHash db') :
    (∀ s : Slot, s.2.Valid → lastState w s = lastState w' s ∨ Collides H fun s' => s' = s ∨ Written w s' ∨ Written w' s') ∨
      Broken C (lastWrite l) (lastWrite l') := by
  refine (C09_root_binds_map hF C l l' hb hb' h).imp_left fun hg s hs => ?_
  by_cases hc : Collides H fun s' => s' = s ∨ Written w s' ∨ Written w' s'
  · exact Or.inr hc
  left
  have h1 := hg (slotKey H s)
  rw [build_iff] at hb hb'
  subst hb hb'
  have h1 : lastWrite l (slotKey H s) = lastWrite l' (slotKey H s) := h1
  rw [stateWrites_ok H hw] at hl
  rw [stateWrites_ok H hw'] at hl'
  cases hl
  cases hl'
  rwa [lastWrite_state hc hw (fun _ h => Or.inr (Or.inl h)) hs (Or.inl rfl),
    lastWrite_state hc hw' (fun _ h => Or.inr (Or.inr h)) hs (Or.inl rfl)] at h1

/-- The chunks of a code as writes to an account. -/
def codeWrites (a : Bytes 32) (cs : List Value) : List (Slot × Value) := cs.mapIdx fun i c => ((a, .code i), c)

/-- Reading `size` bytes of code from a trie, chunk by chunk, without the first byte of each. -/
def readCode (H : Hash64) (db : MemoryDb F G) (a : Bytes 32) (size : ℕ) : Res (Option (List Byte)) := do
  let ks ← (List.range ((size + 30) / 31)).mapM fun i => itemKey H a (.code i)
  .ok ((ks.mapM (Trie.get db)).map fun cs => (cs.map fun c => c.1.tail).flatten.take size)

theorem lastState_append (u v : List (Slot × Value)) (s : Slot) : lastState (u ++ v) s = (lastState v s).or (lastState u s) := by
  simp only [lastState, List.reverse_append, List.find?_append]
  cases v.reverse.find? fun x => x.1 = s <;> simp

theorem lastState_none {w : List (Slot × Value)} {s : Slot} (h : ¬ Written w s) : lastState w s = none := by
  simp only [lastState, Option.map_eq_none_iff, List.find?_eq_none, List.mem_reverse, decide_eq_true_eq]
  intro x hx e
  exact h ⟨x.2, e ▸ hx⟩

theorem lastState_code (a : Bytes 32) (i : ℕ) (cs : List Value) : lastState (codeWrites a cs) (a, .code i) = cs[i]? := by
  induction cs using List.reverseRecOn with
  | nil => rfl
  | append_singleton cs c ih =>
    have e : codeWrites a (cs ++ [c]) = codeWrites a cs ++ [((a, .code cs.length), c)] := by simp [codeWrites]
    rw [e, lastState_append, ih]
    by_cases hi : i = cs.length
    · subst hi
      simp [lastState]
    · have : lastState [((a, Item.code cs.length), c)] (a, .code i) = none := by simp [lastState, Ne.symm hi]
      rw [this, Option.none_or]
      rcases Nat.lt_or_gt_of_ne hi with h | h
      · rw [List.getElem?_append_left h]
      · rw [List.getElem?_eq_none h.le, List.getElem?_eq_none (by simp; omega)]

theorem mapM_some {α β : Type} {f : α → Option β} {g : α → β} : ∀ {l : List α}, (∀ x ∈ l, f x = some (g x)) → l.mapM f = some (l.map g)
  | [], _ => rfl
  | x :: l, h => by
    rw [List.mapM_cons, h x (by simp), mapM_some fun y hy => h y (by simp [hy])]
    rfl

/-- C71.  Code written as chunks is read back as it was, whatever was written before, and whatever is written later to other slots
than those of the code - or two of the slots used collide. -/
theorem C71_code_reads (C : Crypto F G) (H : Hash64) (a : Bytes 32) {code : List Byte} (hne : code ≠ [])
    (hlen : (code.length + 30) / 31 < 2 ^ 248 - 64) (w w' : List (Slot × Value)) (hw : ∀ x ∈ w, x.1.2.Valid)
    (hw' : ∀ x ∈ w', x.1.2.Valid) (hlater : ∀ i, ¬ Written w' (a, .code i)) :
    ∃ cs l db, chunkifyCode code = .ok (cs.map Subtype.val) ∧ stateWrites H (w ++ codeWrites a cs ++ w') = .ok l ∧
      build C l = .ok db ∧
      (readCode H db a code.length = .ok (some code) ∨
        Collides H fun s => (∃ i, i < (code.length + 30) / 31 ∧ s = (a, .code i)) ∨ Written (w ++ codeWrites a cs ++ w') s) := by
  obtain ⟨out, h1, h2, ⟨z, h3⟩, h4, h5⟩ := C43_chunking_partial hne
  obtain ⟨cs, rfl⟩ : ∃ cs : List Value, out = cs.map Subtype.val := by
    refine ⟨out.attach.map fun c => ⟨c.1, h2 c.1 c.2⟩, ?_⟩
    simp
  have hcs : (code.length + 30) / 31 ≤ cs.length ∧ cs.length ≤ (code.length + 30) / 31 + 1 := by
    rw [List.length_map] at h4 h5
    by_cases ho : Overhang code
    · rw [h5 ho]; omega
    · rw [h4 ho]; omega
  obtain ⟨n, hn⟩ : ∃ n, n = (code.length + 30) / 31 := ⟨_, rfl⟩
  rw [← hn] at hcs hlen
  have hv : ∀ x ∈ w ++ codeWrites a cs ++ w', x.1.2.Valid := by
    intro x hx
    simp only [List.mem_append, codeWrites, List.mem_mapIdx] at hx
    rcases hx with (hx | ⟨i, hi, rfl⟩) | hx
    · exact hw x hx
    · show i < 2 ^ 248 - 64
      omega
    · exact hw' x hx
  refine ⟨cs, _, _, h1, stateWrites_ok H hv, build_eq C _, ?_⟩
  rw [← hn]
  by_cases hc : Collides H fun s => (∃ i, i < n ∧ s = (a, .code i)) ∨ Written (w ++ codeWrites a cs ++ w') s
  · exact Or.inr hc
  left
  have hget : ∀ i, i < n → Trie.get (specDb C (lastWrite ((w ++ codeWrites a cs ++ w').map fun x => (slotKey H x.1, x.2))))
      (slotKey H (a, .code i)) = cs[i]? := by
    intro i hi
    show lastWrite _ _ = _
    rw [lastWrite_state hc hv (fun _ h => Or.inr h) (s := (a, .code i)) (by show i < 2 ^ 248 - 64; omega) (Or.inl ⟨i, hi, rfl⟩),
      lastState_append, lastState_none (hlater i), Option.none_or, lastState_append, lastState_code,
      List.getElem?_eq_getElem (by omega), Option.some_or]
  have hk : (List.range n).mapM (fun i => itemKey H a (.code i)) = .ok ((List.range n).map fun i => slotKey H (a, .code i)) :=
    Proof.mapM_ok _ _ _ fun i hi => slotKey_ok H (s := (a, .code i)) (by
      have := List.mem_range.1 hi
      show i < 2 ^ 248 - 64
      omega)
  have hr : ((List.range n).map fun i => slotKey H (a, .code i)).mapM
      (Trie.get (specDb C (lastWrite ((w ++ codeWrites a cs ++ w').map fun x => (slotKey H x.1, x.2))))) = some (cs.take n) := by
    have e : cs.take n = (List.range n).map fun i => cs.getD i ⟨List.replicate 32 0, by simp⟩ := by
      apply List.ext_getElem
      · simp; omega
      · intro i h1 h2
        simp at h1
        simp [List.getD_eq_getElem?_getD, List.getElem?_eq_getElem h1.2]
    rw [List.mapM_map, e]
    refine mapM_some fun i hi => ?_
    have hi := List.mem_range.1 hi
    show Trie.get _ _ = _
    rw [hget i hi, List.getD_eq_getElem?_getD, List.getElem?_eq_getElem (by omega)]
    rfl
  unfold readCode
  rw [← hn, hk]
  simp only [bind, Except.bind]
  rw [hr, Option.map_some]
  congr 2
  have hl : ∀ l : List Value, (l.map fun c => c.1.tail).flatten.length = 31 * l.length := by
    intro l
    induction l with
    | nil => rfl
    | cons c l ih =>
      simp only [List.map_cons, List.flatten_cons, List.length_append, List.length_tail, c.2, ih, List.length_cons]
      omega
  have hs : (cs.map fun c => c.1.tail).flatten = ((cs.take n).map fun c => c.1.tail).flatten ++ ((cs.drop n).map fun c => c.1.tail).flatten := by
    rw [← List.flatten_append, ← List.map_append, List.take_append_drop]
  rw [List.map_map] at h3
  have h3 : (cs.map fun c => c.1.tail).flatten = code ++ List.replicate z 0 := h3
  have h6 : (code ++ List.replicate z 0).take code.length = code := by simp
  rw [← h3, hs, List.take_append_of_le_length (by rw [hl, List.length_take]; omega)] at h6
  exact h6

end

/-- C71.  A collision gives two different inputs of the hash whose hashes agree in the first 31 bytes. -/
theorem C71_collision {H : Hash64} {P : Slot → Prop} (hP : ∀ s, P s → s.2.Valid) (h : Collides H P) :
    ∃ b b' : Bytes 64, b ≠ b' ∧ (H b).stem = (H b').stem := by
  obtain ⟨s, s', hp, hp', hne, h⟩ := h
  refine ⟨_, _, fun e => hne ?_, h⟩
  obtain ⟨h1, h2⟩ := (C46_input_unambiguous.2.2 _ _ _ _ (place_lt (hP s hp)) (place_lt (hP s' hp'))).1 (congrArg Subtype.val e)
  rw [h1, h2]

/-! ### A client that reads the state through proofs -/

section
variable {F G : Type} [Field F] [DecidableEq F] [AddCommGroup G] [DecidableEq G] [Module F G]

/-- C71 for a client that has the root only (partial: with the conditions of C21).  If `check` accepts a proof for the keys of some
slots, one value per slot, and vectors are extracted from the accepted argument, then the commitments are
explicitly broken, or two of the slots used collide, or each value shown at whose stem the hint is consistent is the one last
written. -/
theorem C71_light_client_partial (hF : BigField F) (C : Crypto F G) (O : Opener F G) (H : Hash64) (w : List (Slot × Value))
    (hw : ∀ x ∈ w, x.1.2.Valid) {l : List (Key × Value)} (hl : stateWrites H w = .ok l) {db : MemoryDb F G} (hb : build C l = .ok db)
    {root : G} (hr : Trie.rootCommitment db = .ok root) (p : VerkleProof G O.Pf) (slots : List Slot) (hv : ∀ s ∈ slots, s.2.Valid)
    (hnd : slots.Nodup) {keys : List Key} (hk : slots.mapM (fun s => itemKey H s.1 s.2) = .ok keys) (values : List (Option Value))
    {uh : Option (UpdateHint G)} (hacc : check C O p keys values root = .ok (true, uh)) (hlen : slots.length = values.length)
    (W : G → Byte → F) (hW : CheckExtracts C W p keys values root) :
    CheckBreak C (lastWrite l) W p keys values root ∨ (Collides H fun s => s ∈ slots ∨ Written w s) ∨
      ∀ s v k, (s, some v) ∈ slots.zip values → itemKey H s.1 s.2 = .ok k → ConsistentAt p.hint keys k.stem →
        lastState w s = some v := by
  by_cases hcol : Collides H fun s => s ∈ slots ∨ Written w s
  · exact Or.inr (Or.inl hcol)
  rw [Proof.mapM_ok _ (slotKey H) _ fun s hs => slotKey_ok H (hv s hs)] at hk
  cases hk
  have hinj : (slots.map (slotKey H)).Nodup := by
    refine List.Nodup.map_on (fun s hs s' hs' h => ?_) hnd
    exact slotKey_inj hcol (Or.inl hs) (Or.inl hs') (hv s hs) (hv s' hs') h
  refine (C21_accepted_claims_true_partial hF C O l hb hr p _ values hacc (by simpa using hlen) W hW).imp_right fun h => ?_
  refine Or.inr fun s v k hm hk hc => ?_
  rw [slotKey_ok H (hv s (List.of_mem_zip hm).1)] at hk
  cases hk
  have hm' : (slotKey H s, some v) ∈ (slots.map (slotKey H)).zip values := by
    rw [List.zip_map_left]
    exact List.mem_map.2 ⟨_, hm, rfl⟩
  have h1 := (h (slotKey H s) (some v) hm' ⟨fun _ h' => zip_functional hinj h' hm', hc⟩).1 v rfl
  rw [build_iff] at hb
  subst hb
  have h1 : lastWrite l (slotKey H s) = some v := h1
  rw [stateWrites_ok H hw] at hl
  cases hl
  rwa [lastWrite_state hcol hw (fun _ h => Or.inr h) (hv s (List.of_mem_zip hm).1) (Or.inl (List.of_mem_zip hm).1)] at h1

end

/-! ### Concrete cases -/

/-- A hash that keeps the address. -/
def keepHash : Hash64 := fun b => ⟨b.1.take 32, by simp [b.2]⟩

def alice : Bytes 32 := ⟨1 :: List.replicate 31 0, by simp⟩
def bob : Bytes 32 := ⟨2 :: List.replicate 31 0, by simp⟩

/-- Balances of two accounts, a storage slot written twice. -/
def stateDemo : List (Slot × Value) :=
  [((alice, .balance), valOf 7), ((bob, .balance), valOf 9), ((alice, .storage 5), valOf 8), ((alice, .storage 5), valOf 6)]

theorem stateDemo_valid : ∀ x ∈ stateDemo, x.1.2.Valid := by
  intro x hx
  simp only [stateDemo, List.mem_cons, List.not_mem_nil, or_false] at hx
  rcases hx with rfl | rfl | rfl | rfl <;> simp [Item.Valid]

theorem keepHash_stem (a : Bytes 32) (n : ℕ) : (hashAddrInt keepHash a n).stem.1 = a.1.take 31 := by
  have h : (hashAddrInt keepHash a n).1 = a.1 := by
    show (a.1 ++ leBytes 32 n).take 32 = a.1
    rw [List.take_append_of_le_length (by rw [a.2]), List.take_of_length_le (by rw [a.2])]
  show ((hashAddrInt keepHash a n).1).take 31 = _
  rw [h]

/-- The slots of the header of two accounts do not collide. -/
theorem demo_no_collision {P : Slot → Prop} (hP : ∀ s, P s → (s.1 = alice ∨ s.1 = bob) ∧ s.2.place.1 = 0) : ¬ Collides keepHash P := by
  rintro ⟨s, s', hp, hp', hne, h⟩
  obtain ⟨h1, h2⟩ := hP s hp
  obtain ⟨h3, h4⟩ := hP s' hp'
  rw [h2, h4] at hne h
  have h := congrArg Subtype.val h
  rw [keepHash_stem, keepHash_stem] at h
  rcases h1 with h1 | h1 <;> rcases h3 with h3 | h3 <;> rw [h1, h3] at hne h
  · exact hne rfl
  · exact absurd h (by decide)
  · exact absurd h (by decide)
  · exact hne rfl

theorem demo_slots {s : Slot} (h : Written stateDemo s) : (s.1 = alice ∨ s.1 = bob) ∧ s.2.place.1 = 0 := by
  obtain ⟨v, hv⟩ := h
  simp only [stateDemo, List.mem_cons, List.not_mem_nil, or_false, Prod.mk.injEq] at hv
  rcases hv with ⟨rfl, _⟩ | ⟨rfl, _⟩ | ⟨rfl, _⟩ | ⟨rfl, _⟩ <;> simp [Item.place]

/-- The items read as last written, without a collision. -/
example : ∃ l db k k' k'', stateWrites keepHash stateDemo = .ok l ∧ build idealCrypto l = .ok db ∧
    itemKey keepHash alice (.storage 5) = .ok k ∧ Trie.get db k = some (valOf 6) ∧
    itemKey keepHash bob .balance = .ok k' ∧ Trie.get db k' = some (valOf 9) ∧
    itemKey keepHash bob .nonce = .ok k'' ∧ Trie.get db k'' = none := by
  obtain ⟨l, db, h1, h2, h3⟩ := C71_state_reads idealCrypto keepHash stateDemo stateDemo_valid
  have hn : ∀ s : Slot, (s.1 = alice ∨ s.1 = bob) ∧ s.2.place.1 = 0 → ¬ Collides keepHash fun s' => s' = s ∨ Written stateDemo s' :=
    fun s hs => demo_no_collision fun s' h => h.elim (fun e => e ▸ hs) demo_slots
  obtain ⟨k, e1, e2⟩ := (h3 (alice, .storage 5) (by simp [Item.Valid])).resolve_right (hn _ (by simp [Item.place]))
  obtain ⟨k', e1', e2'⟩ := (h3 (bob, .balance) trivial).resolve_right (hn _ (by simp [Item.place]))
  obtain ⟨k'', e1'', e2''⟩ := (h3 (bob, .nonce) trivial).resolve_right (hn _ (by simp [Item.place]))
  exact ⟨l, db, k, k', k'', h1, h2, e1, e2, e1', e2', e1'', e2''⟩

/-- Code with push data across chunks is read back, without a collision. -/
example : ∃ cs l db, chunkifyCode overhangCode = .ok (cs.map Subtype.val) ∧
    stateWrites keepHash (stateDemo ++ codeWrites alice cs ++ [((bob, .balance), valOf 1)]) = .ok l ∧ build idealCrypto l = .ok db ∧
    readCode keepHash db alice 32 = .ok (some overhangCode) := by
  obtain ⟨cs, l, db, h1, h2, h3, h4⟩ := C71_code_reads idealCrypto keepHash alice (code := overhangCode) (by simp [overhangCode])
    (by simp [overhangCode]) stateDemo [((bob, .balance), valOf 1)] stateDemo_valid (by simp [Item.Valid]) (by
      rintro i ⟨v, hv⟩
      simp at hv)
  have hl : cs.length = 3 := by
    obtain ⟨out, e1, e2, _⟩ := C43_full_claim_false
    rw [h1] at e1
    cases e1
    simpa using e2
  refine ⟨cs, l, db, h1, h2, h3, h4.resolve_right (demo_no_collision fun s hs => ?_)⟩
  rcases hs with ⟨i, hi, rfl⟩ | ⟨v, hv⟩
  · have : overhangCode.length = 32 := by simp [overhangCode]
    rw [this] at hi
    refine ⟨Or.inl rfl, ?_⟩
    simp only [Item.place]
    omega
  · simp only [List.mem_append, List.mem_singleton, codeWrites, List.mem_mapIdx] at hv
    rcases hv with (hv | ⟨i, hi, e⟩) | hv
    · exact demo_slots ⟨v, hv⟩
    · have := (Prod.mk.inj e).1
      subst this
      refine ⟨Or.inl rfl, ?_⟩
      simp only [Item.place]
      omega
    · have := (Prod.mk.inj hv).1
      subst this
      exact ⟨Or.inr rfl, rfl⟩

/-- The hypotheses of `C71_root_binds_state` are met by two different lists of writes with the same state. -/
example : ∃ l l' db db', stateWrites keepHash stateDemo = .ok l ∧
    stateWrites keepHash [((alice, .storage 5), valOf 6), ((bob, .balance), valOf 9), ((alice, .balance), valOf 7)] = .ok l' ∧
    build idealCrypto l = .ok db ∧ build idealCrypto l' = .ok db' ∧ Trie.rootCommitment db = Trie.rootCommitment db' := by
  have hv : ∀ x ∈ [((alice, Item.storage 5), valOf 6), ((bob, .balance), valOf 9), ((alice, .balance), valOf 7)], x.1.2.Valid := by
    intro x hx
    simp only [List.mem_cons, List.not_mem_nil, or_false] at hx
    rcases hx with rfl | rfl | rfl <;> simp [Item.Valid]
  refine ⟨_, _, _, _, stateWrites_ok _ stateDemo_valid, stateWrites_ok _ hv, build_eq _ _, build_eq _ _, ?_⟩
  have e : lastWrite (stateDemo.map fun x => (slotKey keepHash x.1, x.2)) =
      lastWrite ([((alice, Item.storage 5), valOf 6), ((bob, .balance), valOf 9), ((alice, .balance), valOf 7)].map
        fun x => (slotKey keepHash x.1, x.2)) := by
    funext k
    have d1 : slotKey keepHash (alice, .storage 5) ≠ slotKey keepHash (bob, .balance) := by decide +kernel
    have d2 : slotKey keepHash (alice, .storage 5) ≠ slotKey keepHash (alice, .balance) := by decide +kernel
    have d3 : slotKey keepHash (bob, .balance) ≠ slotKey keepHash (alice, .balance) := by decide +kernel
    simp only [lastWrite, stateDemo, List.map_cons, List.map_nil, List.reverse_cons, List.reverse_nil, List.nil_append,
      List.cons_append, List.find?_cons, List.find?_nil]
    by_cases h1 : slotKey keepHash (alice, .storage 5) = k
    · subst h1
      simp [Ne.symm d1, Ne.symm d2]
    · by_cases h2 : slotKey keepHash (bob, .balance) = k
      · subst h2
        simp [h1, Ne.symm d3]
      · by_cases h3 : slotKey keepHash (alice, .balance) = k <;> simp [h1, h2, h3]
  rw [e]

/-- The hypotheses of `C71_light_client_partial` can all hold, without a break and without a collision. -/
example : ∃ H w l db root p keys uh, (∀ x ∈ w, x.1.2.Valid) ∧ stateWrites H w = .ok l ∧ build negCrypto l = .ok db ∧
    Trie.rootCommitment db = .ok root ∧ [(alice, Item.code 133)].mapM (fun s : Slot => itemKey H s.1 s.2) = .ok keys ∧
    check negCrypto lookupOpener p keys [some (valOf 7)] root = .ok (true, some uh) ∧ HintConsistent p.hint keys ∧
    CheckExtracts negCrypto id p keys [some (valOf 7)] root ∧
    (∀ qs, ¬ ProofBreak negCrypto (lastWrite l) id qs) ∧ (¬ Collides H fun s => s ∈ [(alice, Item.code 133)] ∨ Written w s) ∧
    lastState w (alice, .code 133) = some (valOf 7) := by
  obtain ⟨p, uh, hh, hp⟩ := solo_accepted negCrypto lookupOpener lookupOpener_complete
  have hk : itemKey (fun _ => soloKey) alice (.code 133) = .ok soloKey :=
    (C41_places_disjoint.1 _ alice (.code 133) (by simp [Item.Valid])).trans (congrArg Except.ok (by decide +kernel))
  refine ⟨fun _ => soloKey, [((alice, .code 133), valOf 7)], soloHist, _, _, p, [soloKey], uh, by simp [Item.Valid], ?_, build_eq _ _,
    rootCommitment_spec _ _, ?_, hp, hh ▸ solo_consistent, lookup_extracts hp, negCrypto_no_break _, ?_, by decide⟩
  · simp only [stateWrites, List.mapM_cons, List.mapM_nil, hk]
    rfl
  · simp only [List.mapM_cons, List.mapM_nil, hk]
    rfl
  · rintro ⟨s, s', hs, hs', hne, _⟩
    have e : ∀ s : Slot, s ∈ [(alice, Item.code 133)] ∨ Written [((alice, Item.code 133), valOf 7)] s → s = (alice, .code 133) := by
      rintro s (h | ⟨v, h⟩)
      · simpa using h
      · simp only [List.mem_singleton, Prod.mk.injEq] at h
        exact h.1
    rw [e s hs, e s' hs'] at hne
    exact hne rfl

end Verif.Props
