import Verif.Trie.Binding
import Mathlib.Data.Rat.Encodable
import Mathlib.Logic.Encodable.Pi
import Mathlib.Algebra.Module.Pi
import Mathlib.Algebra.Field.Rat
import Mathlib.Data.Nat.Cast.Order.Field

/-!
# Properties of the in-memory trie: C01 - C10

`build C l` is `Trie::new(MemoryDb::new(), ..)` followed by `insert` of the pairs of `l` in order.  `lastWrite l k` is
the value the history `l` last wrote to `k`.
-/

set_option autoImplicit false

namespace Verif.Props
open Verif.Spec Verif.Trie
open scoped Classical

/-- A fresh trie after a sequence of inserts. -/
def build {F G : Type} [Field F] [AddCommGroup G] [SMul F G] (C : Crypto F G) (l : List (Key × Value)) : Res (MemoryDb F G) := do
  let db0 ← Trie.new (MemoryDb.new : MemoryDb F G)
  Trie.insert C db0 l

variable {F G : Type} [Field F] [AddCommGroup G] [Module F G]

/-- The value last written to `k` by the history `l`, if any. -/
def lastWrite (l : List (Key × Value)) : KV := fun k => (l.reverse.find? (fun p => p.1 = k)).map Prod.snd

theorem applyAll_append (l l' : List (Key × Value)) : ∀ m, applyAll m (l ++ l') = applyAll (applyAll m l) l' := by
  induction l with
  | nil => intro m; rfl
  | cons kv rest ih => intro m; obtain ⟨k, v⟩ := kv; exact ih _

theorem applyAll_eq (l : List (Key × Value)) : applyAll emptyKV l = lastWrite l := by
  induction l using List.reverseRecOn with
  | nil => rfl
  | append_singleton l kv ih =>
    obtain ⟨k, v⟩ := kv
    rw [applyAll_append, ih]
    funext k'
    simp only [applyAll, lastWrite, List.reverse_append, List.reverse_cons, List.reverse_nil, List.nil_append,
      List.singleton_append, List.find?_cons]
    by_cases h : k = k'
    · subst h; simp
    · simp [h, Ne.symm h, lastWrite]

/-- The refinement theorem in one line: the database is a function of the final map. -/
theorem build_eq (C : Crypto F G) (l : List (Key × Value)) : build C l = .ok (specDb C (lastWrite l)) := by
  rw [build, new_spec C]
  show Trie.insert C _ l = _
  rw [insert_spec, applyAll_eq]

theorem build_iff {C : Crypto F G} {l : List (Key × Value)} {db : MemoryDb F G} :
    build C l = .ok db ↔ db = specDb C (lastWrite l) := by
  rw [build_eq]; exact ⟨fun h => (Except.ok.inj h).symm, fun h => h ▸ rfl⟩

/-- Values grouped into several `insert` calls behave as one call. -/
theorem insert_append (C : Crypto F G) (l l' : List (Key × Value)) (db : MemoryDb F G) :
    Trie.insert C db (l ++ l') = (Trie.insert C db l >>= fun db' => Trie.insert C db' l') := by
  induction l generalizing db with
  | nil => rfl
  | cons kv rest ih =>
    simp only [List.cons_append, Trie.insert, bind, Except.bind]
    cases Trie.insertSingle C db kv with
    | error e => rfl
    | ok db' => exact ih db'

theorem lastWrite_snoc (l : List (Key × Value)) (k : Key) (v : Value) :
    lastWrite (l ++ [(k, v)]) = Function.update (lastWrite l) k (some v) := by
  rw [← applyAll_eq, applyAll_append, applyAll_eq]; rfl

/-! ### Concrete data for the examples -/

/-- A byte string of `n` equal bytes followed by given bytes. -/
def demoKey (a b : Byte) : Key := ⟨a :: List.replicate 30 7 ++ [b], by simp⟩
/-- The all-zero value. -/
def zeroVal : Value := ⟨List.replicate 32 0, by simp⟩
/-- The value whose bytes are all `1`. -/
def oneVal : Value := ⟨List.replicate 32 1, by simp⟩
/-- A key whose stem differs from that of `demoKey 1 _` only in its last byte, forcing a chain of 30 branches. -/
def demoDeep : Key := ⟨1 :: List.replicate 29 7 ++ [8, 5], by simp⟩
/-- A history with an overwrite, a chain insert and a second root child. -/
def demoHist : List (Key × Value) :=
  [(demoKey 1 5, oneVal), (demoDeep, oneVal), (demoKey 1 5, zeroVal), (demoKey 2 200, oneVal)]

/-- Parameters for which no break exists: `G = F^256` with the standard basis and an injective `h` avoiding `1`. -/
noncomputable def idealCrypto : Crypto ℚ (Byte → ℚ) where
  g i := fun j => if j.val = i then 1 else 0
  h x := if x = 0 then 0 else ((Encodable.encode x + 2 : ℕ) : ℚ)
  h_zero := by simp

theorem idealCrypto_commit (v : Byte → ℚ) : commit idealCrypto v = v := by
  funext j
  simp only [commit, idealCrypto, Finset.sum_apply, Pi.smul_apply, smul_eq_mul]
  rw [Finset.sum_eq_single j]
  · simp
  · intro i _ hi
    have : ¬ j.val = i.val := fun h => hi (Fin.ext h.symm)
    simp [this]
  · intro h; exact absurd (Finset.mem_univ _) h

theorem idealCrypto_h_inj {x y : Byte → ℚ} (h : idealCrypto.h x = idealCrypto.h y) : x = y := by
  simp only [idealCrypto] at h
  split at h <;> split at h
  · simp_all
  · exfalso
    have : ((0 : ℕ) : ℚ) = ((Encodable.encode y + 2 : ℕ) : ℚ) := by simpa using h
    have := Nat.cast_injective this
    omega
  · exfalso
    have : ((Encodable.encode x + 2 : ℕ) : ℚ) = ((0 : ℕ) : ℚ) := by simpa using h
    have := Nat.cast_injective this
    omega
  · have := Nat.cast_injective h
    exact Encodable.encode_injective (by omega)

theorem idealCrypto_h_ne_one (x : Byte → ℚ) : idealCrypto.h x ≠ 1 := by
  intro h
  simp only [idealCrypto] at h
  split at h
  · exact zero_ne_one h
  · have : ((Encodable.encode x + 2 : ℕ) : ℚ) = ((1 : ℕ) : ℚ) := by simpa using h
    have := Nat.cast_injective this
    omega

theorem idealCrypto_not_broken (m m' : KV) : ¬ Broken idealCrypto m m' := by
  rintro (⟨v, w, _, _, hne, h⟩ | ⟨x, y, _, _, hne, h⟩ | ⟨x, _, h⟩)
  · rw [idealCrypto_commit, idealCrypto_commit] at h; exact hne h
  · exact hne (idealCrypto_h_inj h)
  · exact idealCrypto_h_ne_one x h

theorem bigField_rat : BigField ℚ := fun _ _ _ _ h => Nat.cast_injective h

/-! ### C01 -/

/-- **C01.** After any sequence of inserts into a fresh trie, `get` returns the last written value, or `None`. -/
theorem C01_reads_return_last_write (C : Crypto F G) (l : List (Key × Value)) (k : Key) :
    ∃ db, build C l = .ok db ∧ Trie.get db k = lastWrite l k :=
  ⟨_, build_eq C l, rfl⟩

example : ∃ db, build idealCrypto demoHist = .ok db ∧ Trie.get db (demoKey 1 5) = some zeroVal
    ∧ Trie.get db demoDeep = some oneVal ∧ Trie.get db (demoKey 1 6) = none := by
  refine ⟨_, build_eq _ _, ?_, ?_, ?_⟩
  · show lastWrite demoHist (demoKey 1 5) = _
    decide
  · show lastWrite demoHist demoDeep = _
    decide
  · show lastWrite demoHist (demoKey 1 6) = _
    decide

/-! ### C02 -/

/-- **C02.** No sequence of inserts into a fresh trie panics, and neither does reading the root afterwards. -/
theorem C02_insert_never_panics (C : Crypto F G) (l : List (Key × Value)) :
    ∃ db, build C l = .ok db ∧ (∃ x, Trie.rootCommitment db = .ok x) ∧ (∃ y, Trie.rootHash db = .ok y) := by
  refine ⟨_, build_eq C l, ⟨branchComm C (lastWrite l) [], ?_⟩, ⟨C.h (branchComm C (lastWrite l) []), ?_⟩⟩
  all_goals
    have h : HigherDb.getBranchMeta (specDb C (lastWrite l)) [] = .ok (some (branchMeta C (lastWrite l) [])) := by
      show MemoryDb.getBranchMeta _ _ = _
      simp only [MemoryDb.getBranchMeta, specDb, node_branch (Or.inl rfl)]
  · simp only [Trie.rootCommitment, h, bind, Except.bind, unwrap, branchMeta]
  · simp only [Trie.rootHash, h, bind, Except.bind, unwrap, branchMeta]

example : ∃ db, build idealCrypto demoHist = .ok db := ⟨_, build_eq _ _⟩

theorem rootCommitment_spec (C : Crypto F G) (m : KV) :
    Trie.rootCommitment (specDb C m) = .ok (branchComm C m []) := by
  have h : HigherDb.getBranchMeta (specDb C m) [] = .ok (some (branchMeta C m [])) := by
    show MemoryDb.getBranchMeta _ _ = _
    simp only [MemoryDb.getBranchMeta, specDb, node_branch (Or.inl rfl)]
  simp only [Trie.rootCommitment, h, bind, Except.bind, unwrap, branchMeta]

theorem rootHash_spec (C : Crypto F G) (m : KV) :
    Trie.rootHash (specDb C m) = .ok (C.h (branchComm C m [])) := by
  have h : HigherDb.getBranchMeta (specDb C m) [] = .ok (some (branchMeta C m [])) := by
    show MemoryDb.getBranchMeta _ _ = _
    simp only [MemoryDb.getBranchMeta, specDb, node_branch (Or.inl rfl)]
  simp only [Trie.rootHash, h, bind, Except.bind, unwrap, branchMeta]

/-! ### C03 -/

/-- **C03.** Histories with the same final map give the same root commitment and root hash (and the same database). -/
theorem C03_root_history_independent (C : Crypto F G) (l l' : List (Key × Value))
    (h : ∀ k, lastWrite l k = lastWrite l' k) {db db' : MemoryDb F G}
    (hb : build C l = .ok db) (hb' : build C l' = .ok db') :
    Trie.rootCommitment db = Trie.rootCommitment db' ∧ Trie.rootHash db = Trie.rootHash db' ∧ db = db' := by
  have e : lastWrite l = lastWrite l' := funext h
  rw [build_iff] at hb hb'
  subst hb hb'
  rw [e]
  exact ⟨rfl, rfl, rfl⟩

/-- Two different histories with one final map. -/
example : (∀ k, lastWrite demoHist k = lastWrite [(demoKey 2 200, oneVal), (demoKey 1 5, zeroVal), (demoDeep, oneVal)] k)
    ∧ demoHist ≠ [(demoKey 2 200, oneVal), (demoKey 1 5, zeroVal), (demoDeep, oneVal)] := by
  constructor
  · intro k
    simp only [← applyAll_eq]
    have h1 : demoKey 1 5 ≠ demoDeep := by decide
    have h2 : demoKey 1 5 ≠ demoKey 2 200 := by decide
    have h3 : demoDeep ≠ demoKey 2 200 := by decide
    simp only [demoHist, applyAll, Function.update_apply]
    by_cases e1 : k = demoKey 1 5
    · subst e1; simp [h1, h2]
    by_cases e2 : k = demoDeep
    · subst e2; simp [h3, h1.symm]
    by_cases e3 : k = demoKey 2 200
    · subst e3; simp [h2.symm, h3.symm]
    simp [e1, e2, e3]
  · decide

/-! ### C04 -/

/-- **C04.** The root equals the commitment recomputed from the final map alone (`branchComm`, defined by recursion on
the tree of `Verif/Trie/Spec.lean`). -/
theorem C04_root_is_from_scratch (C : Crypto F G) (l : List (Key × Value)) {db : MemoryDb F G}
    (hb : build C l = .ok db) :
    Trie.rootCommitment db = .ok (branchComm C (lastWrite l) [])
    ∧ Trie.rootHash db = .ok (C.h (branchComm C (lastWrite l) [])) := by
  rw [build_iff] at hb
  subst hb
  exact ⟨rootCommitment_spec _ _, rootHash_spec _ _⟩

/-- The specification unfolds as documented: a branch commits to the hashes of its children. -/
theorem C04_spec_branch (C : Crypto F G) (m : KV) (p : Path) (hp : p.length < 32) :
    branchComm C m p = commit C (fun i =>
      if Many m (p ++ [i]) then C.h (branchComm C m (p ++ [i]))
      else if hs : ∃ s, Under m (p ++ [i]) s then C.h (stemComm C m hs.choose) else 0) := by
  rw [branchComm_eq_commit _ _ _ hp]; rfl

/-- The empty trie has the zero root. -/
example (C : Crypto F G) : ∃ db, build C [] = .ok db ∧ Trie.rootCommitment db = .ok 0 := by
  refine ⟨_, build_eq C [], ?_⟩
  rw [rootCommitment_spec]
  have : branchComm C (lastWrite []) [] = 0 := by
    rw [branchComm_eq _ _ _ (by simp)]
    apply Finset.sum_eq_zero
    intro i _
    rw [childHash_none (m := lastWrite []) (fun u => not_under_empty _ u), zero_smul]
  rw [this]

/-- A trie with one key: the root is the hash of the stem commitment times the generator of the first byte. -/
example (C : Crypto F G) : ∃ db, build C [(demoKey 1 5, oneVal)] = .ok db ∧
    Trie.rootCommitment db = .ok (C.h (stemComm C (lastWrite [(demoKey 1 5, oneVal)]) (demoKey 1 5).stem) • C.g 1) := by
  refine ⟨_, build_eq C _, ?_⟩
  rw [rootCommitment_spec]
  set m := lastWrite [(demoKey 1 5, oneVal)] with hm
  have hm' : m = Function.update emptyKV (demoKey 1 5) (some oneVal) := by rw [hm, ← applyAll_eq]; rfl
  have hu : ∀ p u, Under m p u ↔ u = (demoKey 1 5).stem ∧ p <+: u.1 := by
    intro p u
    rw [hm', under_update]
    constructor
    · rintro (h | h)
      · exact absurd h (not_under_empty _ _)
      · exact ⟨h.1, h.1 ▸ h.2⟩
    · rintro ⟨h1, h2⟩; exact Or.inr ⟨h1, h1 ▸ h2⟩
  have hnm : ∀ p, ¬ Many m p := by
    rintro p ⟨a, b, hab, ha, hb⟩
    exact hab (((hu _ _).1 ha).1.trans ((hu _ _).1 hb).1.symm)
  rw [branchComm_only (p := []) (i := 1) C (by simp) ?_, childHash_single (hnm _) ((hu _ _).2 ⟨rfl, ?_⟩)]
  · rfl
  · exact ⟨List.replicate 30 7, by decide⟩
  · intro j hj u hu'
    obtain ⟨h1, h2⟩ := (hu _ _).1 hu'
    subst h1
    exact hj (prefix_snoc_inj (p := []) h2 (j := 1) ⟨List.replicate 30 7, by decide⟩)

/-! ### C05 -/

/-- **C05.** Re-inserting a present pair leaves the database unchanged. -/
theorem C05_reinsert_is_noop (C : Crypto F G) (l : List (Key × Value)) {db : MemoryDb F G} (hb : build C l = .ok db)
    (k : Key) (v : Value) (h : Trie.get db k = some v) : Trie.insert C db [(k, v)] = .ok db := by
  rw [build_iff] at hb
  subst hb
  have hk : lastWrite l k = some v := h
  rw [insert_spec]
  show Except.ok (specDb C (Function.update (lastWrite l) k (some v))) = _
  rw [← hk, Function.update_eq_self]

example : ∃ db, build idealCrypto demoHist = .ok db ∧ Trie.insert idealCrypto db [(demoKey 1 5, zeroVal)] = .ok db := by
  refine ⟨_, build_eq _ _, C05_reinsert_is_noop _ demoHist (build_eq _ _) _ _ ?_⟩
  show lastWrite demoHist (demoKey 1 5) = some zeroVal
  decide

/-! ### C06 -/

/-- **C06.** Inserting the zero value for an absent key makes it present, and changes the vector that the stem's half
commits to; the stored half commitments are the commitments of those vectors.  (The field must distinguish `2^128`
from `0`.) -/
theorem C06_zero_is_not_absent (C : Crypto F G) (h2 : ((2 ^ 128 : ℕ) : F) ≠ 0) (l : List (Key × Value)) (k : Key)
    {db : MemoryDb F G} (hb : build C l = .ok db) (hk : Trie.get db k = none) :
    ∃ db', Trie.insert C db [(k, zeroVal)] = .ok db' ∧ Trie.get db' k = some zeroVal ∧
      ∃ off, (off = 0 ∨ off = 128) ∧
        suffixVec (lastWrite (l ++ [(k, zeroVal)])) k.stem off F ≠ suffixVec (lastWrite l) k.stem off F ∧
        ∃ sm, HigherDb.getStemMeta db' k.stem = some sm ∧
          (if off = 0 then sm.c1 else sm.c2) = commit C (suffixVec (lastWrite (l ++ [(k, zeroVal)])) k.stem off F) := by
  rw [build_iff] at hb
  subst hb
  have hk' : lastWrite l k = none := hk
  refine ⟨_, insert_spec C _ _, by show Function.update (lastWrite l) k (some zeroVal) k = _; simp, ?_⟩
  rw [lastWrite_snoc]
  set m' := Function.update (lastWrite l) k (some zeroVal)
  have hs : HasStem m' k.stem := ⟨k.suffix, by simp [m']⟩
  have hsuf := k.suffix.2
  obtain ⟨off, ho, i, hi, he⟩ : ∃ off, (off = 0 ∨ off = 128) ∧ ∃ i, i < 128 ∧ Fin.ofNat 256 (off + i) = k.suffix := by
    by_cases hlt : k.suffix.val < 128
    · exact ⟨0, Or.inl rfl, k.suffix.val, hlt, Fin.ext (by simp)⟩
    · exact ⟨128, Or.inr rfl, k.suffix.val - 128, by omega, Fin.ext (by
        show (128 + (k.suffix.val - 128)) % 256 = _
        omega)⟩
  refine ⟨off, ho, ?_, stemMeta C m' k.stem, ?_, ?_⟩
  · intro hv
    have h1 := congrFun hv ⟨2 * i, by omega⟩
    have e1 : (2 * i) / 2 = i := by omega
    have e3 : (2 * i) % 2 = 0 := by omega
    simp only [suffixVec, e1, e3, if_true, he, mkKey_stem_suffix, hk'] at h1
    simp only [m', Function.update_self, slot, lowHalf] at h1
    have : leNat (zeroVal.1.take 16) = 0 := by decide
    rw [this, Nat.cast_zero, zero_add] at h1
    exact h2 h1
  · show (specDb C m').stem k.stem = _
    simp [specDb, hs]
  · rw [← suffixComm_eq_commit]
    rcases ho with rfl | rfl <;> simp [stemMeta]

example : ∃ db, build idealCrypto demoHist = .ok db ∧ Trie.get db (demoKey 1 6) = none ∧ ((2 ^ 128 : ℕ) : ℚ) ≠ 0 := by
  refine ⟨_, build_eq _ _, ?_, ?_⟩
  · show lastWrite demoHist (demoKey 1 6) = none
    decide
  · exact Nat.cast_ne_zero.2 (by decide)

/-! ### C07 -/

/-- **C07.** Shape of the tree.  `HasStem`, `Under`, `Many` say which stems were inserted, below which path, and whether
at least two. -/
theorem C07_shape_is_canonical (C : Crypto F G) (l : List (Key × Value)) {db : MemoryDb F G} (hb : build C l = .ok db)
    (p : Path) (i : Byte) :
    ((∃ b, HigherDb.getBranchChild db p i = some (.branch b)) ↔ Many (lastWrite l) (p ++ [i]))
    ∧ (∀ s, HigherDb.getBranchChild db p i = some (.stem s) ↔
        (Under (lastWrite l) (p ++ [i]) s ∧ (∀ t, Under (lastWrite l) (p ++ [i]) t → t = s)
          ∧ (p = [] ∨ Many (lastWrite l) p)))
    ∧ (HigherDb.getBranchChild db p i = none ↔
        (∀ s, ¬ Under (lastWrite l) (p ++ [i]) s) ∨ ¬ (p = [] ∨ Many (lastWrite l) p)) := by
  rw [build_iff] at hb
  subst hb
  set m := lastWrite l
  have hc : HigherDb.getBranchChild (specDb C m) p i = node C m (p ++ [i]) := rfl
  rw [hc]
  have hbr : IsBranch m (p ++ [i]) ↔ Many m (p ++ [i]) := by simp [IsBranch]
  have hdl : (p ++ [i]).dropLast = p := by simp
  refine ⟨⟨?_, ?_⟩, fun s => ⟨?_, ?_⟩, ⟨?_, ?_⟩⟩
  · rintro ⟨b, h⟩; exact hbr.1 (node_eq_branch h).1
  · intro h; exact ⟨_, node_branch (hbr.2 h)⟩
  · intro h
    obtain ⟨h1, h2, h3⟩ := node_eq_stem h
    rw [hdl] at h3
    exact ⟨h2, fun t ht => Under.unique (fun hm => h1 (Or.inr hm)) ht h2, h3⟩
  · rintro ⟨h1, h2, h3⟩
    refine node_stem ?_ h1 (by rw [hdl]; exact h3)
    rw [hbr]
    rintro ⟨a, b, hab, ha, hb⟩
    exact hab ((h2 a ha).trans (h2 b hb).symm)
  · intro h
    by_cases hd : p = [] ∨ Many m p
    · exact Or.inl (node_eq_none h (by rw [hdl]; exact hd)).2
    · exact Or.inr hd
  · intro h
    refine node_none ?_ (by rw [hdl]; exact h)
    rw [hbr]
    intro hm
    rcases h with h | h
    · obtain ⟨s, _, _, hs, _⟩ := hm; exact h s hs
    · exact h (Or.inr (hm.mono (List.prefix_append _ _)))

/-- Two stems sharing 30 bytes: the chain of branches is there. -/
example : Many (lastWrite demoHist) (1 :: List.replicate 29 7) := by
  refine ⟨(demoKey 1 5).stem, demoDeep.stem, by decide, ⟨⟨5, ?_⟩, ?_⟩, ⟨⟨5, ?_⟩, ?_⟩⟩
  · decide
  · exact ⟨[7], by decide⟩
  · decide
  · exact ⟨[8], by decide⟩

/-! ### C08 -/

/-- **C08.** Every stored record is consistent with the records and leaves below it. -/
theorem C08_stored_nodes_consistent (C : Crypto F G) (l : List (Key × Value)) {db : MemoryDb F G}
    (hb : build C l = .ok db) :
    (∀ p b, HigherDb.getBranchMeta db p = .ok (some b) →
      b.hash = C.h b.comm ∧
      b.comm = commit C (fun i => match HigherDb.getBranchChild db p i with
        | some (.branch c) => c.hash
        | some (.stem s) => match HigherDb.getStemMeta db s with
          | some sm => sm.hashStem
          | none => 0
        | none => 0))
    ∧ (∀ p i s, HigherDb.getBranchChild db p i = some (.stem s) → HigherDb.getStemMeta db s ≠ none)
    ∧ (∀ s sm, HigherDb.getStemMeta db s = some sm →
      sm.c1 = commit C (suffixVec (fun k => Trie.get db k) s 0 F) ∧ sm.c2 = commit C (suffixVec (fun k => Trie.get db k) s 128 F)
      ∧ sm.hashC1 = C.h sm.c1 ∧ sm.hashC2 = C.h sm.c2
      ∧ sm.stemComm = (1 : F) • C.g 0 + (leNat s.1 : F) • C.g 1 + sm.hashC1 • C.g 2 + sm.hashC2 • C.g 3
      ∧ sm.hashStem = C.h sm.stemComm)
    ∧ (∀ k, Trie.get db k ≠ none → HigherDb.getStemMeta db k.stem ≠ none) := by
  rw [build_iff] at hb
  subst hb
  set m := lastWrite l
  have hsm : ∀ s, HigherDb.getStemMeta (specDb C m) s = if HasStem m s then some (stemMeta C m s) else none := fun _ => rfl
  refine ⟨?_, ?_, ?_, ?_⟩
  · intro p b h
    have hn : node C m p = some (.branch b) := by
      have h' : MemoryDb.getBranchMeta (specDb C m) p = .ok (some b) := h
      simp only [MemoryDb.getBranchMeta, specDb] at h'
      split at h' <;> simp_all
    obtain ⟨hbr, rfl⟩ := node_eq_branch hn
    have hlen : p.length < 32 := by
      rcases hbr with rfl | h
      · simp
      · have := h.length_lt; omega
    refine ⟨rfl, ?_⟩
    show branchComm C m p = _
    rw [branchComm_eq_commit _ _ _ hlen]
    congr 1
    funext i
    show childHash C m (p ++ [i]) = match node C m (p ++ [i]) with
        | some (.branch c) => c.hash
        | some (.stem s) => match HigherDb.getStemMeta (specDb C m) s with
          | some sm => sm.hashStem
          | none => 0
        | none => 0
    cases hc : node C m (p ++ [i]) with
    | none =>
      rw [childHash_none (node_eq_none hc (by simpa using hbr)).2]
    | some c =>
      cases c with
      | branch c =>
        obtain ⟨h1, rfl⟩ := node_eq_branch hc
        rcases h1 with h1 | h1
        · simp at h1
        · rw [childHash_many h1]; rfl
      | stem s =>
        obtain ⟨h1, h2, _⟩ := node_eq_stem hc
        simp only [hsm, if_pos h2.1]
        rw [childHash_single (fun hm => h1 (Or.inr hm)) h2]; rfl
  · intro p i s h
    obtain ⟨_, h2, _⟩ := node_eq_stem (C := C) (m := m) (p := p ++ [i]) h
    rw [hsm, if_pos h2.1]
    simp
  · intro s sm h
    rw [hsm] at h
    split at h
    · simp only [Option.some.injEq] at h
      subst h
      have e : (fun k => Trie.get (specDb C m) k) = m := rfl
      rw [e, ← suffixComm_eq_commit, ← suffixComm_eq_commit]
      exact ⟨rfl, rfl, rfl, rfl, rfl, rfl⟩
    · simp at h
  · intro k hk
    have : HasStem m k.stem := ⟨k.suffix, by rw [mkKey_stem_suffix]; exact hk⟩
    rw [hsm, if_pos this]
    simp

/-- The stem record of the example history exists. -/
example : ∃ db, build idealCrypto demoHist = .ok db ∧ HigherDb.getStemMeta db (demoKey 1 5).stem ≠ none := by
  refine ⟨_, build_eq _ _, ?_⟩
  have := (C08_stored_nodes_consistent idealCrypto demoHist (build_eq _ _)).2.2.2 (demoKey 1 5)
  apply this
  show lastWrite demoHist (demoKey 1 5) ≠ none
  decide

/-! ### C09 -/

/-- **C09.** Equal roots (commitments, or even only root hashes) imply equal maps, unless the nodes of the two tries
exhibit a break: two different vectors with one commitment, two different commitments with one hash, or a node hash
equal to `1`. -/
theorem C09_root_binds_map (hF : BigField F) (C : Crypto F G) (l l' : List (Key × Value)) {db db' : MemoryDb F G}
    (hb : build C l = .ok db) (hb' : build C l' = .ok db')
    (h : Trie.rootCommitment db = Trie.rootCommitment db' ∨ Trie.rootHash db = Trie.rootHash db') :
    (∀ k, Trie.get db k = Trie.get db' k) ∨ Broken C (lastWrite l) (lastWrite l') := by
  rw [build_iff] at hb hb'
  subst hb hb'
  rw [rootCommitment_spec, rootCommitment_spec, rootHash_spec, rootHash_spec] at h
  by_cases hbr : Broken C (lastWrite l) (lastWrite l')
  · exact Or.inr hbr
  left
  intro k
  show lastWrite l k = lastWrite l' k
  rcases h with h | h
  · rw [eq_of_root hF hbr (Except.ok.inj h)]
  · rw [eq_of_rootHash hF hbr (Except.ok.inj h)]

/-- The disjunction is not settled by its second half: there are parameters without any break, and for them different
maps have different roots. -/
example : BigField ℚ ∧ (∀ m m', ¬ Broken idealCrypto m m') ∧
    ∃ db db', build idealCrypto [(demoKey 1 5, zeroVal)] = .ok db ∧ build idealCrypto [(demoKey 1 5, oneVal)] = .ok db' ∧
      Trie.rootCommitment db ≠ Trie.rootCommitment db' := by
  refine ⟨bigField_rat, idealCrypto_not_broken, _, _, build_eq _ _, build_eq _ _, ?_⟩
  intro h
  rcases C09_root_binds_map bigField_rat idealCrypto _ _ (build_eq _ [(demoKey 1 5, zeroVal)])
    (build_eq _ [(demoKey 1 5, oneVal)]) (Or.inl h) with h1 | h1
  · have := h1 (demoKey 1 5)
    revert this
    show lastWrite [(demoKey 1 5, zeroVal)] (demoKey 1 5) = lastWrite [(demoKey 1 5, oneVal)] (demoKey 1 5) → False
    decide
  · exact idealCrypto_not_broken _ _ h1

/-! ### C10 -/

/-- **C10.** An insert changes no other key, no record of another stem and no branch record off the key's path. -/
theorem C10_insert_is_local (C : Crypto F G) (l : List (Key × Value)) {db : MemoryDb F G} (hb : build C l = .ok db)
    (k : Key) (v : Value) :
    ∃ db', Trie.insert C db [(k, v)] = .ok db'
      ∧ (∀ k', k' ≠ k → Trie.get db' k' = Trie.get db k')
      ∧ (∀ s, s ≠ k.stem → HigherDb.getStemMeta db' s = HigherDb.getStemMeta db s)
      ∧ (∀ p, ¬ p <+: k.1 → ∀ b, HigherDb.getBranchMeta db' p = .ok (some b) ↔ HigherDb.getBranchMeta db p = .ok (some b)) := by
  rw [build_iff] at hb
  subst hb
  refine ⟨_, insert_spec C _ _, ?_, ?_, ?_⟩
  · intro k' hk'
    show Function.update (lastWrite l) k (some v) k' = _
    rw [Function.update_of_ne hk']; rfl
  · intro s hs
    show (if HasStem (Function.update (lastWrite l) k (some v)) s then some (stemMeta C (Function.update (lastWrite l) k (some v)) s) else none) =
      if HasStem (lastWrite l) s then some (stemMeta C (lastWrite l) s) else none
    rw [stemMeta_update_ne C hs]
    have : HasStem (Function.update (lastWrite l) k (some v)) s ↔ HasStem (lastWrite l) s := by
      rw [hasStem_update]; simp [hs]
    simp only [this]
  · intro p hp b
    have hp' : ¬ p <+: k.stem.1 := fun h => hp (h.trans (List.take_prefix _ _))
    have key : ∀ mm : KV, HigherDb.getBranchMeta (specDb C mm) p = .ok (some b) ↔ IsBranch mm p ∧ b = branchMeta C mm p := by
      intro mm
      show MemoryDb.getBranchMeta (specDb C mm) p = .ok (some b) ↔ _
      constructor
      · intro h
        have hn : node C mm p = some (.branch b) := by
          simp only [MemoryDb.getBranchMeta, specDb] at h
          split at h <;> simp_all
        exact node_eq_branch hn
      · rintro ⟨h1, rfl⟩
        simp only [MemoryDb.getBranchMeta, specDb, node_branch h1]
    rw [key, key]
    show IsBranch (Function.update (lastWrite l) k (some v)) p ∧ b = branchMeta C (Function.update (lastWrite l) k (some v)) p ↔ _
    rw [isBranch_update_off hp']
    simp only [branchMeta, branchComm_update_off C hp']

/-- An off-path branch record exists in the example: the branch at `[1]` when a key starting with `2` is inserted. -/
example : ∃ db b, build idealCrypto demoHist = .ok db ∧ HigherDb.getBranchMeta db [1] = .ok (some b)
    ∧ ¬ [1] <+: (demoKey 2 9).1 := by
  refine ⟨_, branchMeta idealCrypto (lastWrite demoHist) [1], build_eq _ _, ?_, by decide⟩
  have : Many (lastWrite demoHist) [1] := by
    refine ⟨(demoKey 1 5).stem, demoDeep.stem, by decide, ⟨⟨5, ?_⟩, ?_⟩, ⟨⟨5, ?_⟩, ?_⟩⟩
    · decide
    · exact ⟨(demoKey 1 5).stem.1.drop 1, by decide⟩
    · decide
    · exact ⟨demoDeep.stem.1.drop 1, by decide⟩
  show MemoryDb.getBranchMeta _ _ = _
  simp only [MemoryDb.getBranchMeta, specDb, node_branch (Or.inr this)]

end Verif.Props
