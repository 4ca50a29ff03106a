import Verif.Msm.Lemmas
import Verif.Trie.Binding
import Verif.Props.Db

/-!
# C36, C37: multi-scalar multiplication and the committer
-/

set_option autoImplicit false

namespace Verif.Props
open Msm Wire

section
variable {F G : Type} [Field F] [AddCommGroup G] [Module F G]

/-- `rep` gives for each scalar a number below `2²⁵³` that stands for it. -/
def Canonical (rep : F → ℕ) : Prop := ∀ a, rep a < 2 ^ 253 ∧ (rep a : F) = a

/-- C36 (partial).  For windows of 1 to 24 bits and at most as many scalars as bases the result is the linear combination.  The
last part of the claim, that further scalars are ignored, is false: they make the code panic.  (`C36_large_windows_wrong`: the
bound on the window size is sharp.) -/
theorem C36_exact_partial {rep : F → ℕ} (hrep : Canonical rep) (bases : List G) (scalars : List F) {w : ℕ} (hw : 1 ≤ w)
    (hw' : w ≤ 24) : ∃ T, Signed.new F bases w = .ok T ∧
      (scalars.length ≤ bases.length → T.mul rep scalars = .ok ((scalars.zip bases).map fun x => x.1 • x.2).sum) ∧
      (bases.length < scalars.length → ∃ e, T.mul rep scalars = .error e) := by
  refine ⟨_, new_eq hw (by omega), fun hl => ?_, fun hl => mul_panics hl⟩
  rw [mul_eq (fun a => lt_trans (hrep a).1 (by norm_num)) hw (by omega) hl]
  congr 2
  apply List.map_congr_left
  intro x _
  rw [digitSum, digits_sum hw hw' (hrep x.1).1, Int.cast_natCast, (hrep x.1).2]

/-- C36 is false for more scalars than bases, already for one scalar and no base. -/
theorem C36_full_claim_false (rep : F → ℕ) (a : F) {w : ℕ} (hw : 1 ≤ w) (hw' : w ≤ 24) :
    ∃ T e, Signed.new F ([] : List G) w = .ok T ∧ T.mul rep [a] = .error e := by
  obtain ⟨e, he⟩ := mul_panics (F := F) (G := G) (rep := rep) (bases := []) (scalars := [a]) (w := w) (by simp)
  exact ⟨_, e, new_eq hw (by omega), he⟩

/-- C36: for windows of 25 to 30 bits some powers of two are multiplied wrongly: the result is twice what it should be, or
zero. -/
theorem C36_large_windows_wrong {w : ℕ} (hw : 25 ≤ w) (hw' : w ≤ 30) : ∃ k m : ℕ, k < 252 ∧ (m = 0 ∨ m = 2 ^ (k + 1)) ∧
    ∀ (F G : Type) [Field F] [AddCommGroup G] [Module F G] (rep : F → ℕ) (s : F) (b : G), (∀ a, rep a < 2 ^ 253) → rep s = 2 ^ k →
      ∃ T, Signed.new F [b] w = .ok T ∧ T.mul rep [s] = .ok ((m : F) • b) := by
  have key : ∃ k m : ℕ, k < 252 ∧ (m = 0 ∨ m = 2 ^ (k + 1)) ∧ digitSum w (2 ^ k) = m := by
    obtain rfl | rfl | rfl | rfl | rfl | rfl : w = 25 ∨ w = 26 ∨ w = 27 ∨ w = 28 ∨ w = 29 ∨ w = 30 := by omega
    · exact ⟨224, 2 ^ 225, by norm_num, Or.inr rfl, by decide +kernel⟩
    · exact ⟨128, 0, by norm_num, Or.inl rfl, by decide +kernel⟩
    · exact ⟨80, 2 ^ 81, by norm_num, Or.inr rfl, by decide +kernel⟩
    · exact ⟨80, 0, by norm_num, Or.inl rfl, by decide +kernel⟩
    · exact ⟨56, 0, by norm_num, Or.inl rfl, by decide +kernel⟩
    · exact ⟨56, 0, by norm_num, Or.inl rfl, by decide +kernel⟩
  obtain ⟨k, m, h1, h2, h3⟩ := key
  refine ⟨k, m, h1, h2, ?_⟩
  intro F G _ _ _ rep s b hrep hs
  refine ⟨_, new_eq (by omega) hw', ?_⟩
  rw [mul_eq (fun a => lt_trans (hrep a) (by norm_num)) (by omega) hw' (by simp)]
  simp [hs, h3]

/-- C36: windows of zero bits, or of 31 bits and more, panic as soon as there is something to multiply. -/
theorem C36_other_windows_panic (rep : F → ℕ) (b : G) (bases : List G) (a : F) (scalars : List F) {w : ℕ} (hw : w = 0 ∨ 31 ≤ w) :
    ∃ e, (Signed.new F (b :: bases) w >>= fun T => T.mul rep (a :: scalars)) = .error e := by
  unfold Signed.new
  rcases hw with rfl | hw
  · exact ⟨_, rfl⟩
  · rw [if_neg (by omega)]
    rcases Nat.lt_or_ge w 32 with h | h
    · obtain rfl : w = 31 := by omega
      rw [if_neg (by simp)]
      simp only [bind, Except.bind, Signed.mul]
      have : ∀ (bytes : List Byte) (rest : List (List Byte)) (n : ℕ), ∃ e, ((List.range (n + 1)).mapM fun i => do
          let row ← (bytes :: rest).zipIdx.mapM fun x => (Signed.mk ((b :: bases).map
            (precomputePoints F 31 (modulusBits / 31 + 1))) (modulusBits / 31 + 1) 31).windowPoint i x.2 x.1
          Except.ok row.flatten) = (.error e : Res (List (List G))) := by
        intro bytes rest n
        apply mapM_err (x := 0) (by simp)
        have : ∃ e, ((bytes :: rest).zipIdx.mapM fun x => (Signed.mk ((b :: bases).map
            (precomputePoints F 31 (modulusBits / 31 + 1))) (modulusBits / 31 + 1) 31).windowPoint 0 x.2 x.1) = .error e := by
          apply mapM_err (x := (bytes, 0)) (by simp [List.mem_zipIdx_iff_getElem?])
          exact ⟨"attempt to shift left with overflow", rfl⟩
        obtain ⟨e, he⟩ := this
        exact ⟨e, by simp only [he, bind, Except.bind]⟩
      obtain ⟨e, he⟩ := this (leBytes 32 (rep a)) (scalars.map fun a => leBytes 32 (rep a)) (modulusBits / 31)
      simp only [bind, Except.bind] at he
      exact ⟨e, by rw [List.map_cons (l := scalars), he]⟩
    · rw [if_pos ⟨h, by simp⟩]
      exact ⟨_, rfl⟩

/-- The committer, for any action of scalars by their canonical integers. -/
theorem dispatch_of {F G : Type} [Field F] [AddCommGroup G] [SMul F G] {rep : F → ℕ} (hrep : ∀ a, rep a < 2 ^ 253)
    (hsm : ∀ (a : F) (p : G), a • p = rep a • p) (hz : ∀ p : G, (0 : F) • p = 0) (hsc : Scales F G 16) {points : List G}
    (hp : 5 ≤ points.length) :
    ∃ D, Committer.new F points = .ok D ∧
      (∀ v : List F, D.commitLagrange rep v = .ok ((v.zip points).map fun x => x.1 • x.2).sum) ∧
      (∀ (a : F) i, D.scalarMul rep a i = match points[i]? with
        | some p => .ok (a • p)
        | none => .error "index out of bounds") ∧
      ∀ l : List (F × ℕ), D.commitSparse rep l =
        if ∀ x ∈ l, x.2 < points.length then .ok (l.map fun x => x.1 • points.getD x.2 0).sum else .error "index out of bounds" := by
  have h5 : (points.take 5).length = 5 := by simp; omega
  have hmul : ∀ v : List F, v.length ≤ 5 → (made F (points.take 5) 16).mul rep v = .ok ((v.zip points).map fun x => x.1 • x.2).sum := by
    intro v hv
    rw [mul_eq_int (fun a => lt_trans (hrep a) (by norm_num)) hsc (by norm_num) (by norm_num) (by omega)]
    simp only [hsm, digitSum, digits_sum (w := 16) (by norm_num) (by norm_num) (hrep _), natCast_zsmul]
    congr 3
    apply List.ext_getElem
    · simp only [List.length_zip, List.length_take]
      omega
    · intro i h1 h2
      simp
  have hone : ∀ (a : F) i, (Committer.mk (made F (points.take 5) 16) ⟨points⟩).scalarMul rep a i = match points[i]? with
        | some p => .ok (a • p)
        | none => .error "index out of bounds" := by
    intro a i
    unfold Committer.scalarMul
    split
    · rename_i hi
      rw [hmul _ (by simp), List.getElem?_eq_getElem (by omega)]
      match points, hp with
      | p0 :: p1 :: p2 :: p3 :: p4 :: rest, _ =>
        obtain rfl | rfl | rfl | rfl | rfl : i = 0 ∨ i = 1 ∨ i = 2 ∨ i = 3 ∨ i = 4 := by omega
        all_goals simp [List.replicate, hz]
    · unfold Wnaf.mulIndex
      cases points[i]? <;> rfl
  refine ⟨⟨made F (points.take 5) 16, ⟨points⟩⟩, ?_, fun v => ?_, hone, fun l => ?_⟩
  · unfold Committer.new
    rw [if_neg (by omega), new_eq (by norm_num) (by norm_num)]
    rfl
  · unfold Committer.commitLagrange Committer.commitLagrangeBy
    split
    · rename_i hv
      exact hmul v hv
    · have hw : ∀ (p : F × G → Bool), (∀ x, p x = false → x.1 = 0) → ∀ l : List (F × G),
          ((l.filter p).map fun x => x.1 • x.2).sum = (l.map fun x => x.1 • x.2).sum := by
        intro p hp l
        induction l with
        | nil => rfl
        | cons x l ih =>
          rw [List.filter_cons]
          cases hx : p x with
          | true => simp only [if_true, List.map_cons, List.sum_cons, ih]
          | false => simp only [Bool.false_eq_true, if_false, List.map_cons, List.sum_cons, ih, hp x hx, hz, zero_add]
      simp only [Wnaf.mul, Wnaf.mulPar, Wnaf.sumPar, Wnaf.sumOf, ite_self]
      rw [hw]
      intro x hx
      simpa using hx
  · unfold Committer.commitSparse
    have key : ∀ (l : List (F × ℕ)) (acc : G), l.foldlM (fun result x => do
        Except.ok (result + (← (Committer.mk (made F (points.take 5) 16) ⟨points⟩).scalarMul rep x.1 x.2))) acc =
        if ∀ x ∈ l, x.2 < points.length then .ok (acc + (l.map fun x => x.1 • points.getD x.2 0).sum)
        else (.error "index out of bounds" : Res G) := by
      intro l
      induction l with
      | nil => intro acc; simp; rfl
      | cons x l ih =>
        intro acc
        rw [List.foldlM_cons, hone]
        by_cases hx : x.2 < points.length
        · rw [List.getElem?_eq_getElem hx]
          simp only [bind, Except.bind] at ih ⊢
          rw [ih]
          simp only [List.forall_mem_cons, hx, true_and, List.map_cons, List.sum_cons, add_assoc]
          simp [hx]
        · rw [List.getElem?_eq_none (by omega), if_neg (fun h => hx (h x (by simp)))]
          rfl
    rw [key, zero_add]

/-- C37.  The committer over a list of at least five points, whichever of its strategies is picked: a vector of any length is
combined with the points (entries beyond them have no effect); a single scalar with the point of its index; a sparse list with
the points of its indices.  Indices beyond the points panic. -/
theorem C37_dispatch {rep : F → ℕ} (hrep : Canonical rep) {points : List G} (hp : 5 ≤ points.length) :
    ∃ D, Committer.new F points = .ok D ∧
      (∀ v : List F, D.commitLagrange rep v = .ok ((v.zip points).map fun x => x.1 • x.2).sum) ∧
      (∀ (a : F) i, D.scalarMul rep a i = match points[i]? with
        | some p => .ok (a • p)
        | none => .error "index out of bounds") ∧
      ∀ l : List (F × ℕ), D.commitSparse rep l =
        if ∀ x ∈ l, x.2 < points.length then .ok (l.map fun x => x.1 • points.getD x.2 0).sum else .error "index out of bounds" :=
  dispatch_of (fun a => (hrep a).1) (fun a p => by rw [← Nat.cast_smul_eq_nsmul F, (hrep a).2]) (zero_smul F) (scales (by norm_num)) hp

theorem sumOf_append (a b : List (F × G)) : Wnaf.sumOf (a ++ b) = Wnaf.sumOf a + Wnaf.sumOf b := by
  simp [Wnaf.sumOf]

theorem sumPar_eq (s : Split) : ∀ l : List (F × G), Wnaf.sumPar s l = Wnaf.sumOf l := by
  induction s with
  | one => intro l; rfl
  | cut n a b iha ihb =>
    intro l
    show Wnaf.sumPar a (l.take n) + Wnaf.sumPar b (l.drop n) = _
    rw [iha, ihb, ← sumOf_append, List.take_append_drop]

/-- C37: however the thread pool shares out the sum over a long vector, the committer returns the combination of the entries
with the points; so does the parallel sum on its own, for vectors of any length. -/
theorem C37_parallel {rep : F → ℕ} (hrep : Canonical rep) {points : List G} (hp : 5 ≤ points.length) {D : Committer G}
    (hD : Committer.new F points = .ok D) (s : Split) (v : List F) :
    D.commitLagrangeBy s rep v = .ok ((v.zip points).map fun x => x.1 • x.2).sum ∧
      D.precomp.mulPar s v = ((v.zip points).map fun x => x.1 • x.2).sum := by
  obtain ⟨D', hD', h, -⟩ := C37_dispatch hrep hp
  rw [hD] at hD'
  cases hD'
  have hs : ∀ u : List F, D.precomp.mulPar s u = D.precomp.mul u := fun u => sumPar_eq s _
  have hone : ∀ u : List F, D.precomp.mulPar .one u = D.precomp.mul u := fun u => rfl
  have hby : ∀ u : List F, D.commitLagrangeBy s rep u = D.commitLagrange rep u := by
    intro u
    simp only [Committer.commitLagrange, Committer.commitLagrangeBy, hs, hone]
  refine ⟨(hby v).trans (h v), ?_⟩
  have hpts : D.precomp.tables = points := by
    unfold Committer.new at hD
    rw [if_neg (by omega), new_eq (by norm_num) (by norm_num)] at hD
    cases hD
    rfl
  rw [hs, Wnaf.mul, hpts, Wnaf.sumOf]
  induction v.zip points with
  | nil => rfl
  | cons x l ih =>
    rw [List.filter_cons]
    by_cases hx : x.1 = 0
    · simpa [hx] using ih
    · simpa [hx] using ih

/-- A sharing out of a sum of 70 terms into three pieces, one of them empty: 1·1 + 2·1 + ⋯ + 70·1 = 2485 = 61 modulo 101. -/
example : ∃ D, Committer.new (ZMod 101) (List.replicate 70 (1 : ZMod 101)) = .ok D ∧
    D.commitLagrangeBy (.cut 13 .one (.cut 0 .one .one)) (fun a : ZMod 101 => a.val) ((List.range 70).map fun i => (i + 1 : ZMod 101)) =
      .ok 61 := by
  have hrep : Canonical (fun a : ZMod 101 => a.val) := fun a =>
    ⟨lt_trans (ZMod.val_lt a) (by norm_num), ZMod.natCast_zmod_val a⟩
  obtain ⟨D, hD, -⟩ := C37_dispatch hrep (points := List.replicate 70 (1 : ZMod 101)) (by simp)
  refine ⟨D, hD, ?_⟩
  rw [(C37_parallel hrep (by simp) hD _ _).1]
  decide +kernel

/-- C37: linearity of the combination the committer computes. -/
theorem C37_linear {rep : F → ℕ} (hrep : Canonical rep) {points : List G} (hp : 5 ≤ points.length) {D : Committer G}
    (hD : Committer.new F points = .ok D) {a b : List F} (hl : a.length = b.length) (c : F) :
    ∃ x y, D.commitLagrange rep a = .ok x ∧ D.commitLagrange rep b = .ok y ∧
      D.commitLagrange rep (List.zipWith (· + ·) a b) = .ok (x + y) ∧ D.commitLagrange rep (a.map (c * ·)) = .ok (c • x) := by
  obtain ⟨D', hD', h, -⟩ := C37_dispatch hrep hp
  rw [hD] at hD'
  cases hD'
  refine ⟨_, _, h a, h b, ?_, ?_⟩
  · rw [h]
    congr 1
    clear h hD hp
    induction a generalizing b points with
    | nil => cases b with
      | nil => simp
      | cons _ _ => simp at hl
    | cons s a ih =>
      cases b with
      | nil => simp at hl
      | cons t b =>
        cases points with
        | nil => simp
        | cons p points =>
          simp only [List.zipWith_cons_cons, List.zip_cons_cons, List.map_cons, List.sum_cons]
          rw [ih (by simpa using hl), add_smul]
          abel
  · rw [h]
    congr 1
    clear h hD hp hl
    induction a generalizing points with
    | nil => simp
    | cons s a ih =>
      cases points with
      | nil => simp
      | cons p points =>
        simp only [List.map_cons, List.zip_cons_cons, List.sum_cons, ih, smul_add, mul_smul]

/-- C37: a vector given densely, or as the sparse list of its entries in any order, commits to the same element. -/
theorem C37_sparse_dense {rep : F → ℕ} (hrep : Canonical rep) {points : List G} (hp : 5 ≤ points.length) {D : Committer G}
    (hD : Committer.new F points = .ok D) {v : List F} (hv : v.length ≤ points.length) {l : List (F × ℕ)} (h : l.Perm v.zipIdx) :
    D.commitSparse rep l = D.commitLagrange rep v := by
  obtain ⟨D', hD', h1, _, h2⟩ := C37_dispatch hrep hp
  rw [hD] at hD'
  cases hD'
  rw [h1, h2, if_pos]
  · have := zipIdx_bases points id v 0 (by omega)
    rw [List.drop_zero] at this
    rw [(h.map _).sum_eq]
    exact congrArg Except.ok this
  · intro x hx
    have := h.mem_iff.1 hx
    rw [List.mem_zipIdx_iff_getElem?] at this
    exact lt_of_lt_of_le (List.getElem?_eq_some_iff.1 this).1 hv

/-- C37: the committer over the 256 generators is the one assumed everywhere else in this development. -/
theorem C37_is_the_assumed_committer (C : Crypto F G) {rep : F → ℕ} (hrep : Canonical rep) : ∃ D,
    Committer.new F ((List.range 256).map C.g) = .ok D ∧
    (∀ (a : F) (i : Byte), D.scalarMul rep a i.val = .ok (C.scalarMul a i.val)) ∧
    ∀ v : Byte → F, D.commitLagrange rep ((List.finRange 256).map v) = .ok (Spec.commit C v) := by
  obtain ⟨D, hD, h1, h2, _⟩ := C37_dispatch hrep (points := (List.range 256).map C.g) (by rw [List.length_map, List.length_range]; norm_num)
  refine ⟨D, hD, fun a i => ?_, fun v => ?_⟩
  · rw [h2, List.getElem?_map, List.getElem?_range i.isLt]
    rfl
  · have key : ∀ (n : ℕ) (v : Fin n → F), ((((List.finRange n).map v).zip ((List.range n).map C.g)).map fun x => x.1 • x.2).sum =
        ∑ i : Fin n, v i • C.g i.val := by
      intro n v
      rw [← List.map_coe_finRange_eq_range, List.map_map, List.zip_map', List.map_map, ← List.sum_ofFn, List.ofFn_eq_map]
      rfl
    rw [h1, key 256 v]
    rfl

/-- C37: fewer than five points panic. -/
theorem C37_too_few (points : List G) (h : points.length < 5) : Committer.new F points = .error "mid > len" := if_pos h

end

/-! ### Concrete cases -/

example : Canonical (fun a : ZMod 101 => a.val) := fun a =>
  ⟨lt_trans (ZMod.val_lt a) (by norm_num), ZMod.natCast_zmod_val a⟩

/-- The table method on two bases with windows of three bits. -/
example : (Signed.new (ZMod 101) [(5 : ZMod 101), 7] 3 >>= fun T => T.mul (fun a : ZMod 101 => a.val) [100, 99]) = .ok (82 : ZMod 101) := by
  decide +kernel

/-- The digits of 100 (that is, of `-1` modulo 101) in three-bit windows. -/
example : (List.range 3).map (fun i => digitOf 3 (slice i 3 100)) = [-4, -3, 2] := by decide +kernel

end Verif.Props
