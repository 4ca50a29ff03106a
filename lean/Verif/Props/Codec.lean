import Verif.Db.Codec
import Mathlib.Tactic.NormNum

/-!
# Properties of the node encodings and row keys: C13, C14, C15
-/

set_option autoImplicit false

namespace Verif.Props
open Verif.Db

variable {F G : Type} (K : NodeCodec F G)

/-! ### C13 -/

/-- **C13.** Rows of different items are different. -/
theorem C13_rows_never_collide (a b : Item) (h : a.row = b.row) : a = b := by
  cases a <;> cases b <;> simp [Item.row, leafRow, stemRow, branchRow] at h ⊢
  · exact Subtype.ext h
  · exact Subtype.ext h
  · exact h

/-- Writing the row of one item leaves the row of every other item unchanged. -/
theorem C13_write_touches_one_item (disk : List Byte → Option (List Byte)) (a b : Item) (v : List Byte) (h : a ≠ b) :
    Function.update disk a.row (some v) b.row = disk b.row :=
  Function.update_of_ne (fun e => h (C13_rows_never_collide _ _ e.symm)) _ _

/-- A leaf and a stem pointer with overlapping bytes. -/
example : (Item.leaf ⟨List.replicate 32 2, by simp⟩).row ≠ (Item.branch (List.replicate 32 2)).row := by decide

/-! ### C14 -/

theorem slice_ok {l : List Byte} {a b : ℕ} (h1 : a ≤ b) (h2 : b ≤ l.length) : slice l a b = .ok ((l.take b).drop a) := by
  simp [slice, h1, h2]

theorem slice_append_left {l r : List Byte} {n : ℕ} (h : l.length = n) : slice (l ++ r) 0 n = .ok l := by
  rw [slice_ok (by omega) (by simp; omega)]
  simp [← h]

theorem slice_append_mid {l m r : List Byte} {a b : ℕ} (h : l.length = a) (h2 : a + m.length = b) :
    slice (l ++ m ++ r) a b = .ok m := by
  rw [slice_ok (by omega) (by simp; omega)]
  subst h
  subst h2
  congr 1
  rw [← List.length_append, List.take_left, List.drop_left]

attribute [local instance] NodeCodec.dec in
/-- **C14**, stem records: decoding the stored bytes returns the stored record, provided its three points pass the point
validation of the decoder; if one does not, decoding returns `Err`. -/
theorem C14_stem_round_trip (m : StemMeta F G) :
    stemFromBytes K (stemToBytes K m) =
      .ok (if K.valid m.c1 ∧ K.valid m.c2 ∧ K.valid m.stemComm then some m else none) := by
  have l1 := K.encP_len m.c1
  have l2 := K.encP_len m.c2
  have l3 := K.encP_len m.stemComm
  have l4 := K.encS_len m.hashC1
  have l5 := K.encS_len m.hashC2
  have l6 := K.encS_len m.hashStem
  have hlen : (stemToBytes K m).length = 64 * 3 + 32 * 3 := by
    simp [stemToBytes, l1, l2, l3, l4, l5, l6]
  have e : stemToBytes K m = (K.encP m.c1 ++ K.encP m.c2 ++ K.encP m.stemComm)
      ++ (K.encS m.hashC1 ++ K.encS m.hashC2 ++ K.encS m.hashStem) := by simp [stemToBytes]
  have s1 : slice (stemToBytes K m) 0 (64 * 3) = .ok (K.encP m.c1 ++ K.encP m.c2 ++ K.encP m.stemComm) := by
    rw [e]; exact slice_append_left (by simp [l1, l2, l3])
  have s2 : slice (stemToBytes K m) (64 * 3) (64 * 3 + 32 * 3)
      = .ok (K.encS m.hashC1 ++ K.encS m.hashC2 ++ K.encS m.hashStem) := by
    rw [e]
    have := slice_append_mid (l := K.encP m.c1 ++ K.encP m.c2 ++ K.encP m.stemComm)
      (m := K.encS m.hashC1 ++ K.encS m.hashC2 ++ K.encS m.hashStem) (r := []) (a := 64 * 3) (b := 64 * 3 + 32 * 3)
      (by simp [l1, l2, l3]) (by simp [l4, l5, l6])
    simpa using this
  have p0 : slice (K.encP m.c1 ++ K.encP m.c2 ++ K.encP m.stemComm) 0 64 = .ok (K.encP m.c1) := by
    rw [List.append_assoc]; exact slice_append_left l1
  have p1 : slice (K.encP m.c1 ++ K.encP m.c2 ++ K.encP m.stemComm) 64 128 = .ok (K.encP m.c2) :=
    slice_append_mid l1 (by rw [l2])
  have p2 : slice (K.encP m.c1 ++ K.encP m.c2 ++ K.encP m.stemComm) 128 192 = .ok (K.encP m.stemComm) := by
    have := slice_append_mid (l := K.encP m.c1 ++ K.encP m.c2) (m := K.encP m.stemComm) (r := []) (a := 128) (b := 192)
      (by simp [l1, l2]) (by rw [l3])
    simpa using this
  have q0 : slice (K.encS m.hashC1 ++ K.encS m.hashC2 ++ K.encS m.hashStem) 0 32 = .ok (K.encS m.hashC1) := by
    rw [List.append_assoc]; exact slice_append_left l4
  have q1 : slice (K.encS m.hashC1 ++ K.encS m.hashC2 ++ K.encS m.hashStem) 32 64 = .ok (K.encS m.hashC2) :=
    slice_append_mid l4 (by rw [l5])
  have q2 : slice (K.encS m.hashC1 ++ K.encS m.hashC2 ++ K.encS m.hashStem) 64 96 = .ok (K.encS m.hashStem) := by
    have := slice_append_mid (l := K.encS m.hashC1 ++ K.encS m.hashC2) (m := K.encS m.hashStem) (r := []) (a := 64) (b := 96)
      (by simp [l4, l5]) (by rw [l6])
    simpa using this
  unfold stemFromBytes
  rw [if_neg (by simp [hlen]), hlen]
  simp only [s1, s2, p0, p1, p2, q0, q1, q2, bind, Except.bind, K.dec_encP, K.dec_encS]
  congr 1
  by_cases h1 : K.valid m.c1 <;> by_cases h2 : K.valid m.c2 <;> by_cases h3 : K.valid m.stemComm <;>
    simp [h1, h2, h3]

attribute [local instance] NodeCodec.dec in
/-- **C14**, branch records. -/
theorem C14_branch_round_trip (m : BranchMeta F G) :
    branchFromBytes K (branchToBytes K m) = .ok (if K.valid m.comm then some m else none) := by
  have l1 := K.encP_len m.comm
  have l2 := K.encS_len m.hash
  have hlen : (branchToBytes K m).length = 96 := by simp [branchToBytes, l1, l2]
  have s1 : slice (branchToBytes K m) 0 64 = .ok (K.encP m.comm) := slice_append_left l1
  have s2 : slice (branchToBytes K m) 64 (64 + 32) = .ok (K.encS m.hash) := by
    have := slice_append_mid (l := K.encP m.comm) (m := K.encS m.hash) (r := []) (a := 64) (b := 64 + 32) l1 (by rw [l2])
    simpa [branchToBytes] using this
  unfold branchFromBytes
  rw [if_neg (by rw [hlen]; norm_num)]
  simp only [s1, s2, bind, Except.bind, K.dec_encP, K.dec_encS]
  by_cases h1 : K.valid m.comm <;> simp [h1]

attribute [local instance] NodeCodec.dec in
/-- **C14**, child pointers: a stem pointer decodes to itself, a branch record decodes as a branch; the two kinds are
never confused. -/
theorem C14_child_round_trip :
    (∀ s : Stem, childFromBytes K (childToBytes K (.stem s)) = .ok (some (.stem s)))
    ∧ (∀ m : BranchMeta F G, childFromBytes K (childToBytes K (.branch m)) =
        .ok (if K.valid m.comm then some (.branch m) else none)) := by
  constructor
  · intro s
    simp [childFromBytes, childToBytes, s.2]
  · intro m
    have l1 := K.encP_len m.comm
    have l2 := K.encS_len m.hash
    have hlen : (branchToBytes K m).length = 96 := by simp [branchToBytes, l1, l2]
    have hne : ¬ (branchToBytes K m).length = 31 := by omega
    show childFromBytes K (branchToBytes K m) = _
    unfold childFromBytes
    rw [dif_neg hne, C14_branch_round_trip]
    by_cases h1 : K.valid m.comm <;> simp [h1, bind, Except.bind]

/-- A codec in which every point is valid (numbers written in unary-free fixed width are not needed: a one-point,
two-scalar toy is enough to inhabit the structure). -/
def toyCodec : NodeCodec Byte Byte where
  encP x := x :: List.replicate 63 0
  decP l := l.head?
  valid _ := True
  encS x := x :: List.replicate 31 0
  decS l := l.head?
  encP_len := by simp
  encS_len := by simp
  dec_encP := by simp
  dec_encS := by simp

/-- A codec that, like the real one, refuses some points it can encode. -/
def strictCodec : NodeCodec Byte Byte where
  encP x := x :: List.replicate 63 0
  decP l := l.head?.bind fun x => if x.val < 128 then some x else none
  valid x := x.val < 128
  encS x := x :: List.replicate 31 0
  decS l := l.head?
  encP_len := by simp
  encS_len := by simp
  dec_encP := by intro x; simp
  dec_encS := by simp

example : stemFromBytes toyCodec (stemToBytes toyCodec ⟨1, 2, 3, 4, 5, 6⟩) = .ok (some ⟨1, 2, 3, 4, 5, 6⟩) := by
  rw [C14_stem_round_trip]; simp [toyCodec]

example : branchFromBytes strictCodec (branchToBytes strictCodec ⟨200, 2⟩) = .ok none := by
  rw [C14_branch_round_trip]; simp [strictCodec]

/-! ### C15 -/

/-- **C15** (part that holds): a stem record of a wrong length is an error, decoding a stem record never panics; a branch
record decodes without panic when at least 96 bytes are given. -/
theorem C15_malformed_rejected_partial (bytes : List Byte) :
    (bytes.length ≠ 288 → stemFromBytes K bytes = .ok none)
    ∧ (∃ r, stemFromBytes K bytes = .ok r)
    ∧ (96 ≤ bytes.length → ∃ r, branchFromBytes K bytes = .ok r) := by
  refine ⟨fun h => by simp [stemFromBytes, h], ?_, ?_⟩
  · by_cases h : bytes.length = 288
    · unfold stemFromBytes
      rw [if_neg (by simp [h])]
      have e1 : slice bytes 0 (64 * 3) = .ok (bytes.take 192) := by rw [slice_ok (by omega) (by omega)]; simp
      have e2 : slice bytes (64 * 3) bytes.length = .ok (bytes.drop 192) := by
        rw [slice_ok (by omega) (by omega)]; simp
      have f1 : (bytes.take 192).length = 192 := by simp [h]
      have f2 : (bytes.drop 192).length = 96 := by simp [h]
      simp only [e1, e2, bind, Except.bind]
      rw [slice_ok (by omega) (by omega), slice_ok (by omega) (by omega), slice_ok (by omega) (by omega),
        slice_ok (by omega) (by omega), slice_ok (by omega) (by omega), slice_ok (by omega) (by omega)]
      exact ⟨_, rfl⟩
    · exact ⟨none, by simp [stemFromBytes, h]⟩
  · intro h
    unfold branchFromBytes
    split
    · exact ⟨_, rfl⟩
    · rw [slice_ok (by omega) (by omega), slice_ok (by omega) (by omega)]
      exact ⟨_, rfl⟩

/-- **C15 fails for branch records (1):** every byte string shorter than 96 bytes makes the decoder panic instead of
returning an error, because the guard `!len == 96` complements `len` instead of negating the comparison. -/
theorem C15_short_branch_record_panics (bytes : List Byte) (h : bytes.length < 96) :
    ∃ e, branchFromBytes K bytes = .error e := by
  unfold branchFromBytes
  rw [if_neg (by omega)]
  by_cases h64 : 64 ≤ bytes.length
  · rw [slice_ok (by omega) h64]
    have : slice bytes 64 (64 + 32) = .error "slice index out of range" := by
      unfold slice; rw [if_neg (by omega)]
    simp only [this, bind, Except.bind]
    exact ⟨_, rfl⟩
  · have : slice bytes 0 64 = .error "slice index out of range" := by
      unfold slice; rw [if_neg (by omega)]
    simp only [this, bind, Except.bind]
    exact ⟨_, rfl⟩

/-- **C15 fails for branch records (2):** trailing bytes after a valid record are ignored. -/
theorem C15_long_branch_record_accepted (m : BranchMeta F G) (hv : K.valid m.comm) (extra : List Byte)
    (hx : extra.length < 2 ^ 62) : branchFromBytes K (branchToBytes K m ++ extra) = .ok (some m) := by
  have l1 := K.encP_len m.comm
  have l2 := K.encS_len m.hash
  have s1 : slice (branchToBytes K m ++ extra) 0 64 = .ok (K.encP m.comm) := by
    rw [branchToBytes, List.append_assoc]; exact slice_append_left l1
  have s2 : slice (branchToBytes K m ++ extra) 64 (64 + 32) = .ok (K.encS m.hash) :=
    slice_append_mid l1 (by rw [l2])
  unfold branchFromBytes
  rw [if_neg (by simp [branchToBytes, l1, l2]; omega)]
  simp only [s1, s2, bind, Except.bind, K.dec_encP, K.dec_encS]
  simp [hv]

/-- The negation of C15 as stated. -/
theorem C15_full_claim_false :
    ¬ ∀ bytes : List Byte, bytes.length ≠ 96 → branchFromBytes toyCodec bytes = .ok none := by
  intro h
  obtain ⟨e, he⟩ := C15_short_branch_record_panics toyCodec [] (by simp)
  rw [h [] (by simp)] at he
  simp at he

example : branchFromBytes toyCodec (branchToBytes toyCodec ⟨1, 2⟩ ++ [9, 9]) = .ok (some ⟨1, 2⟩) :=
  C15_long_branch_record_accepted _ _ trivial _ (by simp)

end Verif.Props
