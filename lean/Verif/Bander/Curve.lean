import Mathlib.Algebra.Group.Even
import Mathlib.Algebra.Field.Basic
import Mathlib.Tactic.FieldSimp
import Mathlib.Tactic.Ring
import Mathlib.Tactic.LinearCombination

/-!
# Twisted Edwards curves with two non-square coefficients

Facts about `a x² + y² = 1 + d x² y²` over a field in which `a` and `d` are not squares and `-1` is: the two-to-one classes, and the
set of points with `1 - a x²` square.
-/

set_option autoImplicit false

namespace Verif.Bander

variable {K : Type} [Field K]

/-- The affine curve equation. -/
def OnCurve (a d x y : K) : Prop := a * x ^ 2 + y ^ 2 = 1 + d * x ^ 2 * y ^ 2

/-- What is assumed of the field and the coefficients. -/
structure Good (a d : K) : Prop where
  h2 : (2 : K) ≠ 0
  ha : ¬ IsSquare a
  hd : ¬ IsSquare d
  hm : IsSquare (-1 : K)
  hp : ∀ u v : K, ¬ IsSquare u → ¬ IsSquare v → IsSquare (u * v)

theorem sq_of_mul {a x : K} (h : a * x ^ 2 = 1) : IsSquare a := by
  have hx : x ≠ 0 := by
    rintro rfl
    simp at h
  refine ⟨x⁻¹, ?_⟩
  field_simp
  exact h

theorem isSquare_of_mul_sq {u s x : K} (h : u * s ^ 2 = x ^ 2) (hs : s ≠ 0) : IsSquare u := by
  refine ⟨x / s, ?_⟩
  field_simp
  exact h

/-- Edwards addition. -/
def addX (d x1 y1 x2 y2 : K) : K := (x1 * y2 + x2 * y1) / (1 + d * x1 * x2 * y1 * y2)
def addY (a d x1 y1 x2 y2 : K) : K := (y1 * y2 - a * x1 * x2) / (1 - d * x1 * x2 * y1 * y2)

namespace Good
variable {a d : K} (P : Good a d)
include P

theorem y_ne {x y : K} (h : OnCurve a d x y) : y ≠ 0 := by
  rintro rfl
  exact P.ha (sq_of_mul (x := x) (by unfold OnCurve at h; linear_combination h))

theorem v_ne (x : K) : 1 - d * x ^ 2 ≠ 0 := fun h => P.hd (sq_of_mul (x := x) (by linear_combination -h))

theorem u_ne (x : K) : 1 - a * x ^ 2 ≠ 0 := fun h => P.ha (sq_of_mul (x := x) (by linear_combination -h))

omit P in
theorem u_eq {x y : K} (h : OnCurve a d x y) : 1 - a * x ^ 2 = y ^ 2 * (1 - d * x ^ 2) := by
  unfold OnCurve at h
  linear_combination -h

theorem y_sq {x y : K} (h : OnCurve a d x y) : y ^ 2 = (1 - a * x ^ 2) / (1 - d * x ^ 2) := by
  rw [eq_div_iff (P.v_ne x), ← u_eq h]

/-- Points with the same `x / y` are equal or opposite. -/
theorem same_ratio {x1 y1 x2 y2 : K} (h1 : OnCurve a d x1 y1) (h2 : OnCurve a d x2 y2) :
    x1 * y2 = x2 * y1 ↔ (x2 = x1 ∧ y2 = y1) ∨ (x2 = -x1 ∧ y2 = -y1) := by
  constructor
  · intro h
    have hy1 := P.y_ne h1
    have hmul : (y2 ^ 2 - y1 ^ 2) * (1 - d * (x1 * y2) ^ 2) = 0 := by
      unfold OnCurve at h1 h2
      have e : x1 ^ 2 * y2 ^ 2 = x2 ^ 2 * y1 ^ 2 := by rw [← mul_pow, h, mul_pow]
      linear_combination (-y2 ^ 2) * h1 + y1 ^ 2 * h2 + (a - d * y2 ^ 2) * e
    rcases mul_eq_zero.1 hmul with e | e
    · rcases sq_eq_sq_iff_eq_or_eq_neg.1 (sub_eq_zero.1 e) with e | e
      · left
        rw [e] at h
        exact ⟨(mul_right_cancel₀ hy1 h).symm, e⟩
      · right
        rw [e] at h
        refine ⟨?_, e⟩
        apply mul_right_cancel₀ hy1
        linear_combination -h
    · exact absurd (sq_of_mul (x := x1 * y2) (by linear_combination -e)) P.hd
  · rintro (⟨rfl, rfl⟩ | ⟨rfl, rfl⟩) <;> ring

/-- Points with the same `x` up to the sign of `y`. -/
theorem same_x {x y1 y2 : K} (h1 : OnCurve a d x y1) (h2 : OnCurve a d x y2) : y2 = y1 ∨ y2 = -y1 := by
  apply sq_eq_sq_iff_eq_or_eq_neg.1
  rw [P.y_sq h1, P.y_sq h2]

omit P in
theorem on_neg {x y : K} (h : OnCurve a d x y) : OnCurve a d (-x) y ∧ OnCurve a d x (-y) ∧ OnCurve a d (-x) (-y) := by
  unfold OnCurve at *
  refine ⟨?_, ?_, ?_⟩ <;> linear_combination h

/-- The map `P ↦ 1 - a x²` is multiplicative up to squares. -/
theorem u_mul {x1 y1 x2 y2 : K} (h1 : OnCurve a d x1 y1) (h2 : OnCurve a d x2 y2) :
    ((1 + d * x1 * x2 * y1 * y2) ^ 2 - a * (x1 * y2 + x2 * y1) ^ 2) * ((1 - a * x1 ^ 2) * (1 - a * x2 ^ 2)) =
      ((1 - a * x1 ^ 2) * (1 - a * x2 ^ 2) - (a - d) * (x1 * x2 * y1 * y2)) ^ 2 := by
  have key : ∀ Y1 Y2 : K, Y1 = (1 - a * x1 ^ 2) / (1 - d * x1 ^ 2) → Y2 = (1 - a * x2 ^ 2) / (1 - d * x2 ^ 2) →
      (1 - a * x1 ^ 2) * (1 - a * x2 ^ 2) * (1 + d ^ 2 * x1 ^ 2 * x2 ^ 2 * Y1 * Y2 - a * x1 ^ 2 * Y2 - a * x2 ^ 2 * Y1) =
        ((1 - a * x1 ^ 2) * (1 - a * x2 ^ 2)) ^ 2 + (a - d) ^ 2 * x1 ^ 2 * x2 ^ 2 * Y1 * Y2 := by
    rintro _ _ rfl rfl
    have hv1 : 1 - x1 ^ 2 * d ≠ 0 := by simpa only [mul_comm] using P.v_ne x1
    have hv2 : 1 - x2 ^ 2 * d ≠ 0 := by simpa only [mul_comm] using P.v_ne x2
    field_simp
    ring
  have := key _ _ (P.y_sq h1) (P.y_sq h2)
  linear_combination this

/-- In the class of squares, the denominators of the addition law do not vanish. -/
theorem denom_plus {x1 y1 x2 y2 : K} (h1 : OnCurve a d x1 y1) (h2 : OnCurve a d x2 y2) (s1 : IsSquare (1 - a * x1 ^ 2))
    (s2 : IsSquare (1 - a * x2 ^ 2)) : 1 + d * x1 * x2 * y1 * y2 ≠ 0 := by
  intro h0
  have e := P.u_mul h1 h2
  obtain ⟨r1, e1⟩ := s1
  obtain ⟨r2, e2⟩ := s2
  obtain ⟨i, hi⟩ := P.hm
  have hu1 := P.u_ne x1
  have hu2 := P.u_ne x2
  have hz : x1 * y2 + x2 * y1 = 0 := by
    by_contra hne
    apply P.ha
    have hr : i * (x1 * y2 + x2 * y1) * r1 * r2 ≠ 0 := by
      have hi0 : i ≠ 0 := by rintro rfl; simp at hi
      have hr1 : r1 ≠ 0 := by rintro rfl; simp at e1; exact hu1 e1
      have hr2 : r2 ≠ 0 := by rintro rfl; simp at e2; exact hu2 e2
      exact mul_ne_zero (mul_ne_zero (mul_ne_zero hi0 hne) hr1) hr2
    refine isSquare_of_mul_sq (s := i * (x1 * y2 + x2 * y1) * r1 * r2)
      (x := (1 - a * x1 ^ 2) * (1 - a * x2 ^ 2) - (a - d) * (x1 * x2 * y1 * y2)) ?_ hr
    rw [← e, h0, e1, e2]
    linear_combination (-a * (x1 * y2 + x2 * y1) ^ 2 * r1 ^ 2 * r2 ^ 2) * hi
  apply P.hd
  apply sq_of_mul (x := x2 * y1)
  have : x1 * y2 = -(x2 * y1) := by linear_combination hz
  have h3 : 1 + d * (x1 * y2) * (x2 * y1) = 0 := by linear_combination h0
  rw [this] at h3
  linear_combination -h3

theorem denom_minus {x1 y1 x2 y2 : K} (h1 : OnCurve a d x1 y1) (h2 : OnCurve a d x2 y2) (s1 : IsSquare (1 - a * x1 ^ 2))
    (s2 : IsSquare (1 - a * x2 ^ 2)) : 1 - d * x1 * x2 * y1 * y2 ≠ 0 := by
  have := P.denom_plus (on_neg h1).1 h2 (by rwa [neg_sq]) s2
  intro h
  exact this (by linear_combination h)

omit P in
theorem on_div {N M p m : K} (hp : p ≠ 0) (hm : m ≠ 0) :
    OnCurve a d (N / p) (M / m) ↔ a * N ^ 2 * m ^ 2 + M ^ 2 * p ^ 2 = p ^ 2 * m ^ 2 + d * N ^ 2 * M ^ 2 := by
  unfold OnCurve
  field_simp

/-- The sum is on the curve. -/
theorem add_on {x1 y1 x2 y2 : K} (h1 : OnCurve a d x1 y1) (h2 : OnCurve a d x2 y2) (hp : 1 + d * x1 * x2 * y1 * y2 ≠ 0)
    (hn : 1 - d * x1 * x2 * y1 * y2 ≠ 0) : OnCurve a d (addX d x1 y1 x2 y2) (addY a d x1 y1 x2 y2) := by
  have hv1 : 1 - x1 ^ 2 * d ≠ 0 := by simpa only [mul_comm] using P.v_ne x1
  have hv2 : 1 - x2 ^ 2 * d ≠ 0 := by simpa only [mul_comm] using P.v_ne x2
  have c0 : ∀ Y1 Y2 : K, Y1 = (1 - a * x1 ^ 2) / (1 - d * x1 ^ 2) → Y2 = (1 - a * x2 ^ 2) / (1 - d * x2 ^ 2) →
      a * (x1 ^ 2 * Y2 + x2 ^ 2 * Y1) * (1 + d ^ 2 * x1 ^ 2 * x2 ^ 2 * (Y1 * Y2)) +
        (Y1 * Y2 + a ^ 2 * x1 ^ 2 * x2 ^ 2) * (1 + d ^ 2 * x1 ^ 2 * x2 ^ 2 * (Y1 * Y2)) - 4 * a * d * x1 ^ 2 * x2 ^ 2 * (Y1 * Y2) =
        (1 - d ^ 2 * x1 ^ 2 * x2 ^ 2 * (Y1 * Y2)) ^ 2 + d * (x1 ^ 2 * Y2 + x2 ^ 2 * Y1) * (Y1 * Y2 + a ^ 2 * x1 ^ 2 * x2 ^ 2) := by
    rintro _ _ rfl rfl
    field_simp
    ring
  have e := c0 _ _ (P.y_sq h1) (P.y_sq h2)
  unfold OnCurve addX addY
  apply (on_div hp hn).2
  linear_combination e

/-- The class of squares is closed under addition. -/
theorem add_square {x1 y1 x2 y2 : K} (h1 : OnCurve a d x1 y1) (h2 : OnCurve a d x2 y2)
    (hp : 1 + d * x1 * x2 * y1 * y2 ≠ 0) (hs : IsSquare ((1 - a * x1 ^ 2) * (1 - a * x2 ^ 2))) :
    IsSquare (1 - a * addX d x1 y1 x2 y2 ^ 2) := by
  have e := P.u_mul h1 h2
  obtain ⟨s, hs⟩ := hs
  have hne : s ≠ 0 := by
    rintro rfl
    rw [mul_zero] at hs
    exact mul_ne_zero (P.u_ne x1) (P.u_ne x2) hs
  refine isSquare_of_mul_sq (s := (1 + d * x1 * x2 * y1 * y2) * s)
      (x := (1 - a * x1 ^ 2) * (1 - a * x2 ^ 2) - (a - d) * (x1 * x2 * y1 * y2)) ?_ (mul_ne_zero hp hne)
  rw [← e, hs]
  unfold addX
  have hp' : (1 + d * x1 * x2 * y1 * y2) ^ 2 ≠ 0 := pow_ne_zero 2 hp
  generalize (1 + d * x1 * x2 * y1 * y2) = c at *
  rw [div_pow]
  field_simp

theorem double_denoms (x y : K) : 1 + d * x * x * y * y ≠ 0 ∧ 1 - d * x * x * y * y ≠ 0 := by
  constructor
  · intro h
    obtain ⟨i, hi⟩ := P.hm
    apply P.hd
    apply isSquare_of_mul_sq (s := x * y) (x := i)
    · linear_combination h + hi
    · intro h0
      have : d * (x * y) * (x * y) = -1 := by linear_combination h
      rw [h0] at this
      simp at this
  · intro h
    exact P.hd (sq_of_mul (x := x * y) (by linear_combination -h))

/-- Up to the point `(0, -1)`, the class of squares is the class of doubles. -/
theorem halve {x y : K} (h : OnCurve a d x y) :
    IsSquare (1 - a * x ^ 2) ↔
      ∃ x1 y1, OnCurve a d x1 y1 ∧
        ((addX d x1 y1 x1 y1 = x ∧ addY a d x1 y1 x1 y1 = y) ∨ (addX d x1 y1 x1 y1 = -x ∧ addY a d x1 y1 x1 y1 = -y)) := by
  constructor
  · rintro ⟨s, hs⟩
    by_cases hx : x = 0
    · subst hx
      have hy : y ^ 2 = 1 := by
        unfold OnCurve at h
        linear_combination h
      refine ⟨0, 1, by simp [OnCurve], ?_⟩
      rcases (sq_eq_sq_iff_eq_or_eq_neg.1 (hy.trans (one_pow 2).symm)) with rfl | rfl <;> simp [addX, addY]
    · have ha0 : a ≠ 0 := by
        intro h0
        exact P.ha (h0 ▸ ⟨0, by simp⟩)
      have hd0 : d ≠ 0 := by
        intro h0
        exact P.hd (h0 ▸ ⟨0, by simp⟩)
      have hy := P.y_ne h
      have h1s : 1 + s ≠ 0 := by
        intro h0
        have : a * x ^ 2 = 0 := by linear_combination (1 - s) * h0 - hs
        exact mul_ne_zero ha0 (pow_ne_zero 2 hx) this
      obtain ⟨t, ht⟩ : ∃ t, t = (1 + s) / (a * x) := ⟨_, rfl⟩
      have hax := mul_ne_zero ha0 hx
      have ht0 : t ≠ 0 := by rw [ht]; exact div_ne_zero h1s hax
      have hxt : x * (a * t ^ 2 + 1) = 2 * t := by
        rw [ht]
        field_simp
        linear_combination -hs
      have hc : a * t ^ 2 + 1 ≠ 0 := by
        intro h0
        rw [h0, mul_zero] at hxt
        exact mul_ne_zero P.h2 ht0 hxt.symm
      have key : ∀ e : K, e ^ 2 = 1 → IsSquare ((a * t ^ 2 + 1) * (1 + e * (s / y)) / (2 * d * t ^ 2)) →
          ∃ x1 y1, OnCurve a d x1 y1 ∧
            ((addX d x1 y1 x1 y1 = x ∧ addY a d x1 y1 x1 y1 = y) ∨ (addX d x1 y1 x1 y1 = -x ∧ addY a d x1 y1 x1 y1 = -y)) := by
        rintro e he ⟨η, hη⟩
        have hz : (s / y) ^ 2 = 1 - d * x ^ 2 := by
          rw [div_pow, div_eq_iff (pow_ne_zero 2 hy)]
          linear_combination -hs + u_eq h
        have hdt : 2 * d * t ^ 2 ≠ 0 := mul_ne_zero (mul_ne_zero P.h2 hd0) (pow_ne_zero 2 ht0)
        rw [div_eq_iff hdt] at hη
        have hq : (a * t ^ 2 + 1) * (η * η) = 1 + d * t ^ 2 * (η * η) ^ 2 := by
          have h4 : 2 * (2 * d * t ^ 2) ≠ 0 := mul_ne_zero P.h2 hdt
          apply mul_left_cancel₀ h4
          generalize a * t ^ 2 + 1 = c at *
          generalize s / y = z at *
          have e2 : c ^ 2 * z ^ 2 = c ^ 2 - 4 * d * t ^ 2 := by
            rw [hz]
            linear_combination (-d * (x * c + 2 * t)) * hxt
          linear_combination (2 * d * t ^ 2 * (η * η) + c * (1 + e * z) - 2 * c) * hη - c ^ 2 * z ^ 2 * he - e2
        have hη0 : η * η ≠ 0 := by
          intro h0
          rw [h0] at hq
          simp at hq
        have hon : OnCurve a d (t * η) η := by
          unfold OnCurve
          linear_combination hq
        have hX : addX d (t * η) η (t * η) η = x := by
          unfold addX
          rw [div_eq_iff (P.double_denoms _ _).1]
          linear_combination (-(η * η)) * hxt + x * hq
        have hdn := P.double_denoms (t * η) η
        have hon2 := P.add_on hon hon hdn.1 hdn.2
        rw [hX] at hon2
        rcases P.same_x h hon2 with hY | hY
        · exact ⟨_, _, hon, Or.inl ⟨hX, hY⟩⟩
        · refine ⟨_, _, (on_neg hon).1, Or.inr ⟨?_, ?_⟩⟩
          · rw [← hX]
            unfold addX
            rw [← neg_div]
            congr 1 <;> ring
          · rw [← hY]
            unfold addY
            congr 1 <;> ring
      by_cases hk : IsSquare ((a * t ^ 2 + 1) * (1 + 1 * (s / y)) / (2 * d * t ^ 2))
      · exact key 1 (by ring) hk
      · by_cases hk' : IsSquare ((a * t ^ 2 + 1) * (1 + (-1) * (s / y)) / (2 * d * t ^ 2))
        · exact key (-1) (by ring) hk'
        · exfalso
          obtain ⟨w, hw⟩ := P.hp _ _ hk hk'
          apply P.hd
          have hz : (s / y) ^ 2 = 1 - d * x ^ 2 := by
            rw [div_pow, div_eq_iff (pow_ne_zero 2 hy)]
            linear_combination -hs + u_eq h
          have h2 := P.h2
          generalize s / y = z at *
          have hdt : 2 * d * t ^ 2 ≠ 0 := mul_ne_zero (mul_ne_zero P.h2 hd0) (pow_ne_zero 2 ht0)
          have h4 : 2 * (2 * d * t ^ 2) ≠ 0 := mul_ne_zero P.h2 hdt
          apply sq_of_mul (x := w * t)
          rw [div_mul_div_comm, div_eq_iff (mul_ne_zero hdt hdt)] at hw
          generalize a * t ^ 2 + 1 = c at *
          apply mul_left_cancel₀ h4
          linear_combination -hw + (-c ^ 2) * hz + (d * (x * c + 2 * t)) * hxt
  · rintro ⟨x1, y1, h1, h2⟩
    have := P.add_square h1 h1 (P.double_denoms x1 y1).1 ⟨_, rfl⟩
    rcases h2 with ⟨e, -⟩ | ⟨e, -⟩
    · rwa [e] at this
    · rwa [e, neg_sq] at this

end Good

end Verif.Bander
