import Verif.Bander.Group
import Verif.Bander.Params
import Mathlib.Data.ZMod.Aut
import Mathlib.Algebra.Module.ZMod

/-!
# The order of the group of elements

For Bandersnatch the group of elements has exactly `r` elements, `r` the order of the scalar field.  It has an element of order
`r` (computed), no element of order two, and at most `(q + 1) / 2 < 3 r` elements (a rational parametrisation of the conic
`s² = 1 - a x²`).
-/

set_option autoImplicit false

namespace Verif.Bander

section
variable {q : ℕ} [Fact q.Prime] {a d : ZMod q} [P : Fact (Good a d)]

instance : Finite (Pt a d) := Finite.of_injective (fun p : Pt a d => (p.x, p.y)) fun p p' h => by
  simp only [Prod.mk.injEq] at h
  exact Pt.ext h.1 h.2

/-- The canonical coordinate of an element. -/
def Elem.cx (e : Elem a d) : ZMod q :=
  Quotient.liftOn' e (fun p => canonX (p.x, p.y)) fun p p' h => by
    have h := Elem.eq_iff.1 (Quotient.sound' h : (p : Elem a d) = (p' : Elem a d))
    rw [canonX_eq_iff P.out p.on p'.on]
    simpa [Prod.ext_iff] using h

theorem Elem.cx_mk (p : Pt a d) : Elem.cx (p : Elem a d) = canonX (p.x, p.y) := rfl

theorem Elem.cx_inj : Function.Injective (Elem.cx : Elem a d → ZMod q) := by
  intro e e' h
  induction e using QuotientAddGroup.induction_on with
  | _ p =>
    induction e' using QuotientAddGroup.induction_on with
    | _ p' =>
      rw [Elem.cx_mk, Elem.cx_mk, canonX_eq_iff P.out p.on p'.on] at h
      rw [Elem.eq_iff]
      simpa [Prod.ext_iff] using h

theorem Elem.cx_sq (e : Elem a d) : IsSquare (1 - a * e.cx ^ 2) := by
  induction e using QuotientAddGroup.induction_on with
  | _ p =>
    rw [Elem.cx_mk]
    unfold canonX
    split
    · exact p.sq
    · rw [neg_sq]; exact p.sq

theorem Elem.cx_zero : (0 : Elem a d).cx = 0 := by
  change Elem.cx ((0 : Pt a d) : Elem a d) = 0
  rw [Elem.cx_mk]
  simp [canonX]

theorem Elem.cx_ne {e : Elem a d} (h : e ≠ 0) : e.cx ≠ 0 := fun h0 => h (Elem.cx_inj (h0.trans Elem.cx_zero.symm))

/-- The parameter of the point `(x, ± s)` of the conic. -/
noncomputable def Elem.par (b : {e : Elem a d // e ≠ 0} × Bool) : ZMod q :=
  (1 + (if b.2 then 1 else -1) * (Elem.cx_sq b.1.1).choose) / (a * b.1.1.cx)

theorem Elem.par_spec (b : {e : Elem a d // e ≠ 0} × Bool) :
    Elem.par b ≠ 0 ∧ b.1.1.cx * (a * Elem.par b ^ 2 + 1) = 2 * Elem.par b := by
  obtain ⟨⟨e, he⟩, b⟩ := b
  have hx := Elem.cx_ne he
  have ha : a ≠ 0 := fun h0 => P.out.ha (h0 ▸ ⟨0, by simp⟩)
  have hax := mul_ne_zero ha hx
  unfold Elem.par
  dsimp only
  have hs := (Elem.cx_sq e).choose_spec
  generalize (Elem.cx_sq e).choose = s at hs
  obtain ⟨w, hw, hw2⟩ : ∃ w : ZMod q, w = (if b then 1 else -1) * s ∧ w * w = s * s :=
    ⟨_, rfl, by cases b <;> simp⟩
  rw [← hw]
  rw [← hw2] at hs
  generalize e.cx = x at *
  have h1s : 1 + w ≠ 0 := by
    intro h0
    have : a * x ^ 2 = 0 := by linear_combination (1 - w) * h0 - hs
    exact mul_ne_zero ha (pow_ne_zero 2 hx) this
  refine ⟨div_ne_zero h1s hax, ?_⟩
  field_simp
  linear_combination -hs

theorem Elem.par_inj : Function.Injective (Elem.par : {e : Elem a d // e ≠ 0} × Bool → ZMod q) := by
  intro b b' h
  have h1 := Elem.par_spec b
  have h2 := Elem.par_spec b'
  rw [← h] at h2
  have hc : a * Elem.par b ^ 2 + 1 ≠ 0 := by
    intro h0
    rw [h0, mul_zero] at h1
    exact mul_ne_zero P.out.h2 h1.1 h1.2.symm
  have hx : b.1 = b'.1 := Subtype.ext (Elem.cx_inj (mul_right_cancel₀ hc (h1.2.trans h2.2.symm)))
  obtain ⟨e, b⟩ := b
  obtain ⟨e', b'⟩ := b'
  simp only at hx
  subst hx
  congr 1
  have hx := Elem.cx_ne e.2
  have ha : a ≠ 0 := fun h0 => P.out.ha (h0 ▸ ⟨0, by simp⟩)
  unfold Elem.par at h
  simp only [] at h
  rw [div_left_inj' (mul_ne_zero ha hx)] at h
  have hs := (Elem.cx_sq e.1).choose_spec
  generalize (Elem.cx_sq e.1).choose = s at hs h
  have hs0 : s ≠ 0 := by
    rintro rfl
    rw [mul_zero] at hs
    exact P.out.u_ne _ hs
  have h22 : 2 * s ≠ 0 := mul_ne_zero P.out.h2 hs0
  cases b <;> cases b' <;> simp only [Bool.false_eq_true, if_true, if_false] at h ⊢
  · exact absurd (by linear_combination -h) h22
  · exact absurd (by linear_combination h) h22

/-- At most half of the field (and the neutral element). -/
theorem Elem.card_le : 2 * (Nat.card (Elem a d) - 1) ≤ q - 1 := by
  have h1 : Nat.card ({e : Elem a d // e ≠ 0} × Bool) ≤ Nat.card {t : ZMod q // t ≠ 0} :=
    Nat.card_le_card_of_injective (fun b => ⟨Elem.par b, (Elem.par_spec b).1⟩) fun b b' h => Elem.par_inj (congrArg Subtype.val h)
  have hsub : ∀ (α : Type) [Finite α] (z : α), Nat.card {x : α // x ≠ z} = Nat.card α - 1 := by
    intro α _ z
    classical
    have := Fintype.ofFinite α
    rw [Nat.card_eq_fintype_card, Nat.card_eq_fintype_card, Fintype.card_subtype_compl, Fintype.card_subtype_eq]
  rw [Nat.card_prod, hsub, hsub, Nat.card_zmod] at h1
  have hb : Nat.card Bool = 2 := by simp
  rw [hb] at h1
  omega

/-- A multiple of an odd prime, less than three times it, with no element of order two. -/
theorem Elem.card_eq {r : ℕ} (hr : r.Prime) {g : Elem a d} (hg : g ≠ 0) (hrg : r • g = 0) (hq : q + 1 < 6 * r) :
    Nat.card (Elem a d) = r := by
  have : Fact r.Prime := ⟨hr⟩
  have ho : addOrderOf g = r := addOrderOf_eq_prime hrg hg
  have hd : r ∣ Nat.card (Elem a d) := ho ▸ addOrderOf_dvd_natCard g
  have h2 : ¬ 2 ∣ Nat.card (Elem a d) := by
    intro h
    have : Fact (Nat.Prime 2) := ⟨Nat.prime_two⟩
    obtain ⟨e, he⟩ := exists_prime_addOrderOf_dvd_card' 2 h
    have : (2 : ℕ) • e = 0 := he ▸ addOrderOf_nsmul_eq_zero e
    rw [two_nsmul] at this
    have := Elem.no_two_torsion this
    rw [this, addOrderOf_zero] at he
    omega
  have hpos : 0 < Nat.card (Elem a d) := Nat.card_pos
  have hle := Elem.card_le (a := a) (d := d)
  obtain ⟨k, hk⟩ := hd
  have hr0 := hr.pos
  have hk3 : k < 3 := by
    by_contra h
    have : r * 3 ≤ r * k := Nat.mul_le_mul_left r (by omega)
    have hq1 := (Fact.out : q.Prime).pos
    omega
  have : k ≠ 0 := by rintro rfl; omega
  have : k ≠ 2 := by
    rintro rfl
    exact h2 ⟨r, by rw [hk, mul_comm]⟩
  have : k = 1 := by omega
  rw [hk, this, mul_one]

end

/-! ### A multiple of the generator -/

/-- Homogeneous coordinates, as natural numbers: `x = X / Z`, `y = Y / Z`. -/
def Rep (p : Pt coeffA coeffD) (X Y Z : ℕ) : Prop :=
  (Z : ZMod q) ≠ 0 ∧ p.x * Z = X ∧ p.y * Z = Y

instance : Fact (Good coeffA coeffD) := ⟨good⟩

def dN : ℕ := 45022363124591815672509500913686876175488063829319466900776701791074614335719

/-- The sum in homogeneous coordinates; `a = -5`, and `q - e` stands for `-e`. -/
def sumX (X1 Y1 Z1 X2 Y2 Z2 : ℕ) : ℕ :=
  Z1 * Z2 % q * ((Z1 * Z2 % q) * (Z1 * Z2 % q) + (q - dN * (X1 * X2 % q * (Y1 * Y2 % q) % q) % q)) % q * (X1 * Y2 + X2 * Y1) % q

def sumY (X1 Y1 Z1 X2 Y2 Z2 : ℕ) : ℕ :=
  Z1 * Z2 % q * ((Z1 * Z2 % q) * (Z1 * Z2 % q) + dN * (X1 * X2 % q * (Y1 * Y2 % q) % q)) % q * (Y1 * Y2 + 5 * (X1 * X2)) % q

def sumZ (X1 Y1 Z1 X2 Y2 Z2 : ℕ) : ℕ :=
  ((Z1 * Z2 % q) * (Z1 * Z2 % q) + (q - dN * (X1 * X2 % q * (Y1 * Y2 % q) % q) % q)) %  q *
    ((Z1 * Z2 % q) * (Z1 * Z2 % q) + dN * (X1 * X2 % q * (Y1 * Y2 % q) % q)) % q

theorem rep_add {p1 p2 : Pt coeffA coeffD} {X1 Y1 Z1 X2 Y2 Z2 : ℕ} (h1 : Rep p1 X1 Y1 Z1) (h2 : Rep p2 X2 Y2 Z2) :
    Rep (p1 + p2) (sumX X1 Y1 Z1 X2 Y2 Z2) (sumY X1 Y1 Z1 X2 Y2 Z2) (sumZ X1 Y1 Z1 X2 Y2 Z2) := by
  obtain ⟨hz1, hx1, hy1⟩ := h1
  obtain ⟨hz2, hx2, hy2⟩ := h2
  have hd : coeffD = (dN : ZMod q) := rfl
  have hsub : ∀ n : ℕ, ((q - n % q : ℕ) : ZMod q) = -(n : ZMod q) := by
    intro n
    rw [Nat.cast_sub (Nat.mod_lt n q_prime.pos).le, ZMod.natCast_self, ZMod.natCast_mod, zero_sub]
  have hp := Pt.dp p1 p2
  have hm := Pt.dm p1 p2
  have ez : ((sumZ X1 Y1 Z1 X2 Y2 Z2 : ℕ) : ZMod q) =
      (Z1 * Z2 : ZMod q) ^ 4 * ((1 - coeffD * p1.x * p2.x * p1.y * p2.y) * (1 + coeffD * p1.x * p2.x * p1.y * p2.y)) := by
    unfold sumZ
    simp only [ZMod.natCast_mod, Nat.cast_mul, Nat.cast_add, hsub, ← hx1, ← hx2, ← hy1, ← hy2, ← hd]
    ring
  refine ⟨?_, ?_, ?_⟩
  · rw [ez]
    exact mul_ne_zero (pow_ne_zero 4 (mul_ne_zero hz1 hz2)) (mul_ne_zero hm hp)
  · rw [ez, Pt.add_x, addX, div_mul_eq_mul_div, div_eq_iff hp]
    unfold sumX
    simp only [ZMod.natCast_mod, Nat.cast_mul, Nat.cast_add, hsub, ← hx1, ← hx2, ← hy1, ← hy2, ← hd]
    ring
  · rw [ez, Pt.add_y, addY, div_mul_eq_mul_div, div_eq_iff hm]
    unfold sumY
    simp only [ZMod.natCast_mod, Nat.cast_mul, Nat.cast_add, ← hx1, ← hx2, ← hy1, ← hy2, ← hd, coeffA]
    push_cast
    ring

/-- Double and add. -/
def ladder : ℕ → ℕ → ℕ → ℕ → ℕ → ℕ → ℕ → ℕ → ℕ × ℕ × ℕ
  | 0, _, _, _, A, B, C, _ => (A, B, C)
  | n + 1, X, Y, Z, A, B, C, k =>
    if k % 2 = 1 then
      ladder n (sumX X Y Z X Y Z) (sumY X Y Z X Y Z) (sumZ X Y Z X Y Z) (sumX A B C X Y Z) (sumY A B C X Y Z) (sumZ A B C X Y Z) (k / 2)
    else ladder n (sumX X Y Z X Y Z) (sumY X Y Z X Y Z) (sumZ X Y Z X Y Z) A B C (k / 2)

theorem rep_ladder : ∀ (n : ℕ) (p s : Pt coeffA coeffD) (X Y Z A B C k : ℕ), k < 2 ^ n → Rep p X Y Z → Rep s A B C →
    Rep (s + k • p) (ladder n X Y Z A B C k).1 (ladder n X Y Z A B C k).2.1 (ladder n X Y Z A B C k).2.2
  | 0, p, s, X, Y, Z, A, B, C, k, hk, hp, hs => by
    have : k = 0 := by simpa using hk
    rw [this, zero_nsmul, add_zero]
    exact hs
  | n + 1, p, s, X, Y, Z, A, B, C, k, hk, hp, hs => by
    unfold ladder
    have hk' : k / 2 < 2 ^ n := by rw [pow_succ] at hk; omega
    have hdbl : (k / 2) • (p + p) = (2 * (k / 2)) • p := by rw [← two_nsmul, ← mul_nsmul]
    split
    · next h =>
      have := rep_ladder n (p + p) (s + p) _ _ _ _ _ _ (k / 2) hk' (rep_add hp hp) (rep_add hs hp)
      rw [hdbl, add_assoc, ← succ_nsmul'] at this
      have e : 2 * (k / 2) + 1 = k := by omega
      rwa [e] at this
    · next h =>
      have := rep_ladder n (p + p) s _ _ _ A B C (k / 2) hk' (rep_add hp hp) hs
      rw [hdbl] at this
      have e : 2 * (k / 2) = k := by omega
      rwa [e] at this

/-- The generator, as a point which passes the subgroup check. -/
def genPt : Pt coeffA coeffD where
  x := (33549696307925229982445904590536874618633472405590028303463218160177641247209 : ℕ)
  y := (33247207790868406533770098284893268064219217060773724591094549753060500487835 : ℕ)
  on := by
    have h : ((33549696307925229982445904590536874618633472405590028303463218160177641247209 ^ 2 * (q - 5) +
        33247207790868406533770098284893268064219217060773724591094549753060500487835 ^ 2 : ℕ) : ZMod q) =
      ((1 + dN * 33549696307925229982445904590536874618633472405590028303463218160177641247209 ^ 2 *
        33247207790868406533770098284893268064219217060773724591094549753060500487835 ^ 2 : ℕ) : ZMod q) :=
      (ZMod.natCast_eq_natCast_iff' _ _ _).2 (by decide +kernel)
    generalize 33549696307925229982445904590536874618633472405590028303463218160177641247209 = x at *
    generalize 33247207790868406533770098284893268064219217060773724591094549753060500487835 = y at *
    have h5 : 5 ≤ q := by decide +kernel
    have hd : coeffD = (dN : ZMod q) := rfl
    push_cast [Nat.cast_sub h5] at h
    unfold OnCurve
    rw [hd, coeffA]
    rw [ZMod.natCast_self] at h
    linear_combination h
  sq := by
    refine ⟨((10492313172349039683469942431944542861281997749014010607045972223061357375855 : ℕ) : ZMod q), ?_⟩
    rw [coeffA, neg_mul, sub_neg_eq_add]
    have : ((1 + 5 * 33549696307925229982445904590536874618633472405590028303463218160177641247209 ^ 2 : ℕ) : ZMod q) =
      ((10492313172349039683469942431944542861281997749014010607045972223061357375855 *
        10492313172349039683469942431944542861281997749014010607045972223061357375855 : ℕ) : ZMod q) :=
      (ZMod.natCast_eq_natCast_iff' _ _ _).2 (by decide +kernel)
    rw [Nat.cast_add, Nat.cast_mul, Nat.cast_mul, Nat.cast_pow, Nat.cast_one] at this
    exact this

theorem gen_order : r • (genPt : Elem coeffA coeffD) = 0 := by
  have h0 : Rep (0 : Pt coeffA coeffD) 0 1 1 := ⟨by simp, by simp, by simp⟩
  have hg : Rep genPt 33549696307925229982445904590536874618633472405590028303463218160177641247209
      33247207790868406533770098284893268064219217060773724591094549753060500487835 1 :=
    ⟨by simp, by rw [Nat.cast_one, mul_one]; rfl, by rw [Nat.cast_one, mul_one]; rfl⟩
  have h := rep_ladder 253 genPt 0 _ _ _ _ _ _ r (by decide +kernel) hg h0
  rw [zero_add] at h
  have hX : (ladder 253 33549696307925229982445904590536874618633472405590028303463218160177641247209
      33247207790868406533770098284893268064219217060773724591094549753060500487835 1 0 1 1 r).1 = 0 := by decide +kernel
  obtain ⟨hz, hx, -⟩ := h
  rw [hX, Nat.cast_zero] at hx
  have hx0 := (mul_eq_zero.1 hx).resolve_right hz
  have : ((r • genPt : Pt coeffA coeffD) : Elem coeffA coeffD) = 0 := by
    apply Elem.cx_inj
    rw [Elem.cx_zero, Elem.cx_mk, canonX, hx0, neg_zero, ite_self]
  exact this

theorem gen_ne : (genPt : Elem coeffA coeffD) ≠ 0 := by
  intro h
  have h : (genPt : Elem coeffA coeffD) = ((0 : Pt coeffA coeffD) : Elem coeffA coeffD) := h
  have hx : genPt.x = 0 := by
    rcases Elem.eq_iff.1 h with ⟨h, -⟩ | ⟨h, -⟩ <;> simpa using h.symm
  have := congrArg ZMod.val hx
  unfold genPt at this
  dsimp only at this
  rw [ZMod.val_natCast, ZMod.val_zero] at this
  exact absurd this (by decide +kernel)

/-- The group of elements of Bandersnatch has order `r`. -/
theorem card_elem : Nat.card (Elem coeffA coeffD) = r :=
  Elem.card_eq r_prime gen_ne gen_order (by decide +kernel)

/-- It is a vector space over the scalar field. -/
noncomputable instance : Module (ZMod r) (Elem coeffA coeffD) :=
  AddCommGroup.zmodModule fun e => by
    rw [← card_elem]
    exact card_nsmul_eq_zero'

end Verif.Bander
