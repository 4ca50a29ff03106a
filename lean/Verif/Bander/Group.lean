import Verif.Bander.Assoc
import Verif.Bander.Lemmas
import Mathlib.GroupTheory.QuotientGroup.Defs
import Mathlib.GroupTheory.Perm.Cycle.Type

/-!
# The group of elements

The points of the curve with `1 - a x²` a square form a group; its quotient by the point `(0, -1)` of order two is the group the
source calls `Element`.
-/

set_option autoImplicit false

namespace Verif.Bander

section
variable {K : Type} [Field K]

/-- Points of the curve which pass the subgroup check. -/
@[ext] structure Pt (a d : K) where
  x : K
  y : K
  on : OnCurve a d x y
  sq : IsSquare (1 - a * x ^ 2)

variable {a d : K} [P : Fact (Good a d)]

theorem addX_frac {N p M m x y : K} (hp : p ≠ 0) (hm : m ≠ 0) :
    addX d (N / p) (M / m) x y = (N * m * y + x * M * p) / (p * m + d * N * M * x * y) := by
  unfold addX
  have h1 : N / p * y + x * (M / m) = (N * m * y + x * M * p) / (p * m) := by field_simp
  have h2 : 1 + d * (N / p) * x * (M / m) * y = (p * m + d * N * M * x * y) / (p * m) := by field_simp
  rw [h1, h2, div_div_div_cancel_right₀ (mul_ne_zero hp hm)]

theorem addY_frac {N p M m x y : K} (hp : p ≠ 0) (hm : m ≠ 0) :
    addY a d (N / p) (M / m) x y = (M * p * y - a * N * m * x) / (p * m - d * N * M * x * y) := by
  unfold addY
  have h1 : M / m * y - a * (N / p) * x = (M * p * y - a * N * m * x) / (p * m) := by field_simp
  have h2 : 1 - d * (N / p) * x * (M / m) * y = (p * m - d * N * M * x * y) / (p * m) := by field_simp
  rw [h1, h2, div_div_div_cancel_right₀ (mul_ne_zero hp hm)]

theorem addX_comm (x1 y1 x2 y2 : K) : addX d x1 y1 x2 y2 = addX d x2 y2 x1 y1 := by
  unfold addX
  congr 1 <;> ring

theorem addY_comm (x1 y1 x2 y2 : K) : addY a d x1 y1 x2 y2 = addY a d x2 y2 x1 y1 := by
  unfold addY
  congr 1 <;> ring

theorem pos_frac {N p M m x y : K} (hp : p ≠ 0) (hm : m ≠ 0) (h : 1 + d * (N / p) * x * (M / m) * y ≠ 0) :
    p * m + d * N * M * x * y ≠ 0 := by
  intro e
  apply h
  have h2 : 1 + d * (N / p) * x * (M / m) * y = (p * m + d * N * M * x * y) / (p * m) := by field_simp
  rw [h2, e, zero_div]

theorem neg_frac {N p M m x y : K} (hp : p ≠ 0) (hm : m ≠ 0) (h : 1 - d * (N / p) * x * (M / m) * y ≠ 0) :
    p * m - d * N * M * x * y ≠ 0 := by
  intro e
  apply h
  have h2 : 1 - d * (N / p) * x * (M / m) * y = (p * m - d * N * M * x * y) / (p * m) := by field_simp
  rw [h2, e, zero_div]

namespace Pt

theorem dp (p p' : Pt a d) : 1 + d * p.x * p'.x * p.y * p'.y ≠ 0 := P.out.denom_plus p.on p'.on p.sq p'.sq

theorem dm (p p' : Pt a d) : 1 - d * p.x * p'.x * p.y * p'.y ≠ 0 := P.out.denom_minus p.on p'.on p.sq p'.sq

instance : Add (Pt a d) := ⟨fun p p' => ⟨addX d p.x p.y p'.x p'.y, addY a d p.x p.y p'.x p'.y,
  P.out.add_on p.on p'.on (dp p p') (dm p p'), P.out.add_square p.on p'.on (dp p p') (p.sq.mul p'.sq)⟩⟩

omit P in
instance : Zero (Pt a d) := ⟨⟨0, 1, by simp [OnCurve], by simp⟩⟩

instance : Neg (Pt a d) := ⟨fun p => ⟨-p.x, p.y, (Good.on_neg p.on).1, by rw [neg_sq]; exact p.sq⟩⟩

theorem add_x (p p' : Pt a d) : (p + p').x = addX d p.x p.y p'.x p'.y := rfl
theorem add_y (p p' : Pt a d) : (p + p').y = addY a d p.x p.y p'.x p'.y := rfl
@[simp] theorem zero_x : (0 : Pt a d).x = 0 := rfl
@[simp] theorem zero_y : (0 : Pt a d).y = 1 := rfl
@[simp] theorem neg_x (p : Pt a d) : (-p).x = -p.x := rfl
@[simp] theorem neg_y (p : Pt a d) : (-p).y = p.y := rfl

protected theorem add_comm (p p' : Pt a d) : p + p' = p' + p :=
  Pt.ext (addX_comm _ _ _ _) (addY_comm _ _ _ _)

protected theorem add_assoc (p1 p2 p3 : Pt a d) : p1 + p2 + p3 = p1 + (p2 + p3) := by
  have hl := dp (p1 + p2) p3
  have hl' := dm (p1 + p2) p3
  have hr := dp (p2 + p3) p1
  have hr' := dm (p2 + p3) p1
  rw [Pt.add_comm p1 (p2 + p3)]
  simp only [add_x, add_y] at hl hl' hr hr'
  unfold addX addY at hl hl' hr hr'
  have h12 := dp p1 p2
  have h12' := dm p1 p2
  have h23 := dp p2 p3
  have h23' := dm p2 p3
  apply Pt.ext
  · simp only [add_x, add_y]
    conv_lhs => arg 2; unfold addX
    conv_lhs => arg 3; unfold addY
    conv_rhs => arg 2; unfold addX
    conv_rhs => arg 3; unfold addY
    rw [addX_frac h12 h12', addX_frac h23 h23', div_eq_div_iff (pos_frac h12 h12' hl) (pos_frac h23 h23' hr)]
    exact assoc_x p1.on p2.on p3.on
  · simp only [add_x, add_y]
    conv_lhs => arg 3; unfold addX
    conv_lhs => arg 4; unfold addY
    conv_rhs => arg 3; unfold addX
    conv_rhs => arg 4; unfold addY
    rw [addY_frac h12 h12', addY_frac h23 h23', div_eq_div_iff (neg_frac h12 h12' hl') (neg_frac h23 h23' hr')]
    exact assoc_y p1.on p2.on p3.on

instance : AddCommGroup (Pt a d) where
  add_assoc := Pt.add_assoc
  add_comm := Pt.add_comm
  zero_add p := by
    apply Pt.ext <;> simp [add_x, add_y, addX, addY]
  add_zero p := by
    apply Pt.ext <;> simp [add_x, add_y, addX, addY]
  neg_add_cancel p := by
    have h := dp p p
    apply Pt.ext
    · simp only [add_x, addX, neg_x, neg_y, zero_x]
      rw [div_eq_zero_iff]
      left
      ring
    · simp only [add_y, addY, neg_x, neg_y, zero_y]
      rw [div_eq_one_iff_eq]
      · have := p.on
        unfold OnCurve at this
        linear_combination this
      · intro e
        apply h
        linear_combination e
  nsmul := nsmulRec
  zsmul := zsmulRec

/-- The point of order two. -/
def T : Pt a d := ⟨0, -1, by simp [OnCurve], by simp⟩

theorem add_T (p : Pt a d) : (p + T).x = -p.x ∧ (p + T).y = -p.y := by
  simp [add_x, add_y, addX, addY, T]

theorem T_add_T : (T + T : Pt a d) = 0 := by
  apply Pt.ext
  · rw [(add_T T).1]; simp [T]
  · rw [(add_T T).2]; simp [T]

theorem mem_T {p : Pt a d} : p ∈ AddSubgroup.zmultiples (T : Pt a d) ↔ p = 0 ∨ p = T := by
  have h2 : (2 : ℤ) • (T : Pt a d) = 0 := by rw [two_zsmul, T_add_T]
  constructor
  · intro h
    obtain ⟨k, rfl⟩ := AddSubgroup.mem_zmultiples_iff.1 h
    rcases Int.even_or_odd k with ⟨m, rfl⟩ | ⟨m, rfl⟩
    · left
      rw [← two_mul, mul_comm, mul_smul, h2, smul_zero]
    · right
      rw [add_smul, mul_comm, mul_smul, h2, smul_zero, zero_add, one_smul]
  · rintro (rfl | rfl)
    · exact zero_mem _
    · exact AddSubgroup.mem_zmultiples _

end Pt

/-- Group elements: classes of two points. -/
abbrev Elem (a d : K) [Fact (Good a d)] : Type := Pt a d ⧸ AddSubgroup.zmultiples (Pt.T : Pt a d)

theorem Elem.eq_iff {p p' : Pt a d} : (p : Elem a d) = (p' : Elem a d) ↔ (p'.x = p.x ∧ p'.y = p.y) ∨ (p'.x = -p.x ∧ p'.y = -p.y) := by
  rw [QuotientAddGroup.eq, Pt.mem_T]
  constructor
  · rintro (h | h)
    · have : p' = p := by rw [neg_add_eq_zero] at h; exact h.symm
      left
      rw [this]
      exact ⟨rfl, rfl⟩
    · have : p' = p + Pt.T := by rw [← h, add_neg_cancel_left]
      right
      rw [this]
      exact Pt.add_T p
  · rintro (⟨h1, h2⟩ | ⟨h1, h2⟩)
    · left
      rw [neg_add_eq_zero]
      exact (Pt.ext h1 h2).symm
    · right
      have : p' = p + Pt.T := Pt.ext (h1.trans (Pt.add_T p).1.symm) (h2.trans (Pt.add_T p).2.symm)
      rw [this, neg_add_cancel_left]

/-- No element has order two. -/
theorem Elem.no_two_torsion {e : Elem a d} (h : e + e = 0) : e = 0 := by
  induction e using QuotientAddGroup.induction_on with
  | _ p =>
    have h' : ((p + p : Pt a d) : Elem a d) = ((0 : Pt a d) : Elem a d) := h
    have hx : (p + p).x = 0 := by
      rcases Elem.eq_iff.1 h' with ⟨h, -⟩ | ⟨h, -⟩
      · simpa using h.symm
      · simpa using h.symm
    have hy := P.out.y_ne p.on
    rw [Pt.add_x, addX, div_eq_zero_iff, or_iff_left (Pt.dp p p)] at hx
    have hx0 : p.x = 0 := by
      have : 2 * p.x * p.y = 0 := by linear_combination hx
      rcases mul_eq_zero.1 this with h | h
      · rcases mul_eq_zero.1 h with h | h
        · exact absurd h P.out.h2
        · exact h
      · exact absurd h hy
    have hy1 : p.y ^ 2 = 1 := by
      have := p.on
      unfold OnCurve at this
      rw [hx0] at this
      linear_combination this
    change (p : Elem a d) = ((0 : Pt a d) : Elem a d)
    rw [Elem.eq_iff]
    rcases sq_eq_sq_iff_eq_or_eq_neg.1 (hy1.trans (one_pow 2).symm) with e | e
    · left; simp [hx0, e]
    · right; simp [hx0, e]

end

end Verif.Bander
