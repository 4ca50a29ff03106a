import Verif.Bander.Model
import Verif.Bander.Curve
import Verif.Wire.Lemmas

/-!
# Lemmas on encodings of group elements
-/

set_option autoImplicit false

namespace Verif.Bander
open Wire

section
variable {q : ℕ} [Fact q.Prime] {a d : ZMod q}

/-- A representative of an affine point of the curve. -/
structure Valid (a d : ZMod q) (p : Proj (ZMod q)) : Prop where
  z : p.z ≠ 0
  t : p.t * p.z = p.x * p.y
  on : OnCurve a d (p.x / p.z) (p.y / p.z)

/-- The affine point. -/
def Proj.aff (p : Proj (ZMod q)) : ZMod q × ZMod q := (p.x / p.z, p.y / p.z)

theorem Valid.y_ne {p : Proj (ZMod q)} (P : Good a d) (v : Valid a d p) : p.y ≠ 0 := by
  intro h
  have := P.y_ne v.on
  rw [h, zero_div] at this
  exact this rfl

theorem Valid.toAffine {p : Proj (ZMod q)} (v : Valid a d p) : p.toAffine = .ok p.aff := by
  unfold Proj.toAffine
  split
  · next h =>
    unfold Proj.aff
    rw [h.1, h.2.1, zero_div, div_self v.z]
  · unfold divide
    rw [if_neg v.z, if_neg v.z]
    rfl

theorem isPositive_neg (P : Good a d) {c : ZMod q} (h : c ≠ 0) : isPositive (-c) = !isPositive c := by
  unfold isPositive
  rw [neg_neg]
  have hne : (-c).val ≠ c.val := by
    intro e
    have e := ZMod.val_injective q e
    have : 2 * c = 0 := by linear_combination -e
    exact mul_ne_zero P.h2 h this
  by_cases h1 : (-c).val < c.val
  · have h2 : ¬ c.val < (-c).val := by omega
    simp [h1, h2]
  · have h2 : c.val < (-c).val := by omega
    simp [h1, h2]

theorem serFq_inj (hq : q < 2 ^ 256) {x y : ZMod q} : serFq x = serFq y ↔ x = y := by
  constructor
  · intro h
    have h := congrArg leNat h
    unfold serFq at h
    rw [leNat_leBytes, leNat_leBytes, Nat.mod_eq_of_lt, Nat.mod_eq_of_lt] at h
    · exact ZMod.val_injective q h
    all_goals exact lt_of_lt_of_le (ZMod.val_lt _) (le_trans hq.le (by norm_num))
  · rintro rfl; rfl

omit [Fact q.Prime] in
theorem serFq_length (x : ZMod q) : (serFq x).length = 32 := leBytes_length _ _

theorem deFq_serFq (hq : q < 2 ^ 256) (x : ZMod q) (rest : List Byte) : deFq (q := q) (serFq x ++ rest) = some x := by
  unfold deFq
  rw [readExact_append (serFq_length x)]
  have : leNat (serFq x) = x.val := by
    unfold serFq
    rw [leNat_leBytes, Nat.mod_eq_of_lt]
    exact lt_of_lt_of_le (ZMod.val_lt _) (le_trans hq.le (by norm_num))
  dsimp only
  rw [this, if_pos (ZMod.val_lt x), ZMod.natCast_zmod_val]

theorem deFq_some {bs : List Byte} {x : ZMod q} (h : deFq bs = some x) : ∃ rest, bs = serFq x ++ rest := by
  unfold deFq at h
  split at h
  · cases h
  · next b r hr =>
    obtain ⟨h1, h2⟩ := readExact_iff.1 hr
    split at h
    · next hlt =>
      injection h with h
      refine ⟨r, ?_⟩
      rw [h2, ← h]
      unfold serFq
      rw [ZMod.val_natCast, Nat.mod_eq_of_lt hlt, leBytes_leNat' h1]
    · cases h

/-- The canonical coordinate: `x` of the representative with positive `y`. -/
def canonX (p : ZMod q × ZMod q) : ZMod q := if isPositive p.2 then p.1 else -p.1

theorem canonX_eq_iff (P : Good a d) {p p' : ZMod q × ZMod q} (h : OnCurve a d p.1 p.2) (h' : OnCurve a d p'.1 p'.2) :
    canonX p = canonX p' ↔ p' = p ∨ p' = -p := by
  have key : ∀ {x y y' : ZMod q}, OnCurve a d x y → OnCurve a d x y' → isPositive y = isPositive y' → y' = y := by
    intro x y y' h1 h2 h3
    rcases P.same_x h1 h2 with e | e
    · exact e
    · rw [e, isPositive_neg P (P.y_ne h1)] at h3
      simp at h3
  have key' : ∀ {x y y' : ZMod q}, OnCurve a d x y → OnCurve a d (-x) y' → isPositive y = !isPositive y' → y' = -y := by
    intro x y y' h1 h2 h3
    have := key (Good.on_neg h1).1 h2
    rcases P.same_x (Good.on_neg h1).1 h2 with e | e
    · rw [e] at h3
      simp at h3
    · exact e
  obtain ⟨x, y⟩ := p
  obtain ⟨x', y'⟩ := p'
  simp only at h h'
  unfold canonX
  simp only [Prod.neg_mk, Prod.mk.injEq]
  constructor
  · intro e
    by_cases hp : isPositive y = true <;> by_cases hp' : isPositive y' = true
    · rw [if_pos hp, if_pos hp'] at e
      subst e
      exact Or.inl ⟨rfl, key h h' (hp.trans hp'.symm)⟩
    · rw [if_pos hp, if_neg hp'] at e
      have e : x' = -x := by rw [e, neg_neg]
      subst e
      exact Or.inr ⟨rfl, key' h h' (by simp [hp, hp'])⟩
    · rw [if_neg hp, if_pos hp'] at e
      subst e
      exact Or.inr ⟨rfl, key' h h' (by simp [hp, hp'])⟩
    · rw [if_neg hp, if_neg hp'] at e
      have e := neg_injective e
      subst e
      exact Or.inl ⟨rfl, key h h' (by simp [hp, hp'])⟩
  · rintro (⟨rfl, rfl⟩ | ⟨rfl, rfl⟩)
    · rfl
    · rw [isPositive_neg P (P.y_ne h)]
      by_cases hp : isPositive y = true <;> simp [hp]

theorem toBytes_eq {p : Proj (ZMod q)} (v : Valid a d p) : p.toBytes = .ok (serFq (canonX p.aff)).reverse := by
  unfold Proj.toBytes
  rw [v.toAffine]
  rfl

theorem div_mul_div_eq {x y x' y' : ZMod q} (hy : y ≠ 0) (hy' : y' ≠ 0) : x / y = x' / y' ↔ x * y' = x' * y := by
  rw [div_eq_div_iff hy hy']

theorem eq_iff (P : Good a d) {p p' : Proj (ZMod q)} (v : Valid a d p) (v' : Valid a d p') :
    p.eq p' = true ↔ p.x / p.y = p'.x / p'.y := by
  have hy := v.y_ne P
  have hy' := v'.y_ne P
  unfold Proj.eq
  rw [if_neg (fun h => hy h.2), if_neg (fun h => hy' h.2), decide_eq_true_iff, div_eq_div_iff hy hy']

theorem ratio_iff (P : Good a d) {p p' : Proj (ZMod q)} (v : Valid a d p) (v' : Valid a d p') :
    p.x / p.y = p'.x / p'.y ↔ p'.aff = p.aff ∨ p'.aff = -p.aff := by
  have hz := v.z
  have hz' := v'.z
  have := P.same_ratio v.on v'.on
  unfold Proj.aff
  simp only [Prod.neg_mk, Prod.mk.injEq]
  rw [← this, div_eq_div_iff (v.y_ne P) (v'.y_ne P), div_mul_div_comm, div_mul_div_comm, mul_comm p'.z p.z,
    div_left_inj' (mul_ne_zero hz hz')]

/-- What `get_point_from_x` returns. -/
theorem getPoint_eq (P : Good a d) (S : Sqrt (ZMod q)) (x : ZMod q) :
    (∃ y, getPointFromX a d S x true = .ok (some (x, y)) ∧ OnCurve a d x y ∧ isPositive y = true) ∨
    (getPointFromX a d S x true = .ok none ∧ ∀ y, ¬ OnCurve a d x y) := by
  have hv : d * (x * x) - 1 ≠ 0 := by
    intro h
    exact P.v_ne x (by linear_combination -h)
  have hon : ∀ y : ZMod q, OnCurve a d x y ↔ y * y = (a * (x * x) - 1) / (d * (x * x) - 1) := by
    intro y
    rw [eq_div_iff hv]
    unfold OnCurve
    constructor <;> intro h <;> linear_combination -h
  simp only [getPointFromX, divide]
  rw [if_neg hv]
  simp only [bind, Except.bind]
  cases hf : S.f ((a * (x * x) - 1) / (d * (x * x) - 1)) with
  | none =>
    right
    refine ⟨rfl, fun y hy => ?_⟩
    obtain ⟨b, hb⟩ := S.complete ⟨y, ((hon y).1 hy).symm⟩
    rw [hf] at hb
    cases hb
  | some y =>
    left
    have hy := (hon y).2 (S.sound hf)
    by_cases hp : isPositive y = true
    · exact ⟨y, by simp [hp], hy, hp⟩
    · refine ⟨-y, by simp [hp], (Good.on_neg hy).2.1, ?_⟩
      rw [isPositive_neg P (P.y_ne hy)]
      simpa using hp

theorem legendreCheck_iff (P : Good a d) (x : ZMod q) : legendreCheck a x = true ↔ IsSquare (1 - a * x ^ 2) := by
  unfold legendreCheck
  classical
  rw [decide_eq_true_iff, ← pow_two, and_iff_left (P.u_ne x)]

/-- The outcome of `from_bytes`, for any input. -/
theorem fromBytes_cases (P : Good a d) (S : Sqrt (ZMod q)) (bs : List Byte) :
    (∃ x y, deFq bs.reverse = some x ∧ OnCurve a d x y ∧ isPositive y = true ∧ IsSquare (1 - a * x ^ 2) ∧
      fromBytes a d S bs = .ok (some ⟨x, y, x * y, 1⟩)) ∨
    (fromBytes a d S bs = .ok none ∧ ∀ x y, deFq bs.reverse = some x → OnCurve a d x y → ¬ IsSquare (1 - a * x ^ 2)) := by
  unfold fromBytes
  cases hx : deFq (q := q) bs.reverse with
  | none => exact Or.inr ⟨rfl, by simp⟩
  | some x =>
    rcases getPoint_eq P S x with ⟨y, h1, h2, h3⟩ | ⟨h1, h2⟩
    · simp only [h1, bind, Except.bind]
      by_cases hl : legendreCheck a x = true
      · left
        exact ⟨x, y, rfl, h2, h3, (legendreCheck_iff P x).1 hl, by rw [if_pos hl]⟩
      · right
        refine ⟨by rw [if_neg hl], ?_⟩
        rintro x' y' h -
        injection h with h
        subst h
        rw [← legendreCheck_iff P]
        exact hl
    · right
      simp only [h1, bind, Except.bind]
      refine ⟨trivial, ?_⟩
      rintro x' y' h h'
      injection h with h
      subst h
      exact absurd h' (h2 y')

end

end Verif.Bander
