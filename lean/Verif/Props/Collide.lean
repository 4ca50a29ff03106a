import Verif.Props.Bander

/-!
# C38: how far the map to the scalar field is from being injective

`map_to_scalar_field` reduces `x / y` modulo the order `r` of the scalar field (`/repo/banderwagon/src/element.rs:83-90`).  The trie puts
the result into the parent node, so two elements with the same result are interchangeable as children.  Here: which elements these
are, and how many.
-/

set_option autoImplicit false

namespace Verif.Props
open Bander

/-- The order of the base field of Bandersnatch is more than four times, and less than five times, that of the scalar field. -/
theorem four_r_lt_q : 4 * Bander.r < Bander.q ∧ Bander.q < 5 * Bander.r := by decide +kernel

theorem scalar_of_valid {p : Proj (ZMod Bander.q)} (v : Valid coeffA coeffD p) :
    p.mapToScalarField (ZMod Bander.r) = .ok (((p.x / p.y).val : ℕ) : ZMod Bander.r) := by
  rw [Proj.mapToScalarField, Proj.mapToField, divide, if_neg (v.y_ne good)]
  simp only [bind, Except.bind]
  unfold frLe serFq
  rw [Wire.leNat_leBytes, Nat.mod_eq_of_lt (lt_trans (ZMod.val_lt _) (by decide +kernel))]

/-- **C38** (map to the scalar field, exactly): two elements of Bandersnatch have the same image exactly when the representatives of their
quotients `x / y` are congruent modulo `r`. -/
theorem C38_same_scalar {p p' : Proj (ZMod Bander.q)} (v : Valid coeffA coeffD p) (v' : Valid coeffA coeffD p') :
    p.mapToScalarField (ZMod Bander.r) = p'.mapToScalarField (ZMod Bander.r) ↔
      (p.x / p.y).val % Bander.r = (p'.x / p'.y).val % Bander.r := by
  rw [scalar_of_valid v, scalar_of_valid v', Except.ok.injEq, ZMod.natCast_eq_natCast_iff']

theorem fibre_le {t : ZMod Bander.r} {l : List (Proj (ZMod Bander.q))} (hv : ∀ p ∈ l, Valid coeffA coeffD p)
    (hd : l.Pairwise fun p p' => p.eq p' = false) (ht : ∀ p ∈ l, p.mapToScalarField (ZMod Bander.r) = .ok t) {n : ℕ}
    (hn : ∀ k, k * Bander.r + t.val < Bander.q → k < n) : l.length ≤ n := by
  have hval : ∀ p ∈ l, (p.x / p.y).val % Bander.r = t.val := fun p hp => by
    have := ht p hp
    rw [scalar_of_valid (hv p hp), Except.ok.injEq] at this
    rw [← this, ZMod.val_natCast]
  have hnd : (l.map fun p => (p.x / p.y).val / Bander.r).Nodup := by
    rw [List.nodup_iff_pairwise_ne, List.pairwise_map]
    refine hd.imp_of_mem fun {p p'} hp hp' h he => ?_
    have h1 : (p.x / p.y).val = (p'.x / p'.y).val := by
      rw [← Nat.div_add_mod (p.x / p.y).val Bander.r, ← Nat.div_add_mod (p'.x / p'.y).val Bander.r, he, hval p hp, hval p' hp']
    rw [Bool.eq_false_iff, ne_eq, eq_iff good (hv p hp) (hv p' hp')] at h
    exact h (ZMod.val_injective _ h1)
  have hs : (l.map fun p => (p.x / p.y).val / Bander.r) ⊆ List.range n := by
    intro k hk
    obtain ⟨p, hp, rfl⟩ := List.mem_map.1 hk
    rw [List.mem_range]
    apply hn
    rw [← hval p hp, Nat.div_add_mod']
    exact ZMod.val_lt _
  simpa using (hnd.subperm hs).length_le

/-- **C38** (map to the scalar field, size of the fibres): at most five elements of Bandersnatch have the same image.  Elements are
equal or not as `Element::eq` says. -/
theorem C38_at_most_five (t : ZMod Bander.r) (l : List (Proj (ZMod Bander.q))) (hv : ∀ p ∈ l, Valid coeffA coeffD p)
    (hd : l.Pairwise fun p p' => p.eq p' = false) (ht : ∀ p ∈ l, p.mapToScalarField (ZMod Bander.r) = .ok t) : l.length ≤ 5 :=
  fibre_le hv hd ht fun k hk => by
    by_contra h
    have := Nat.mul_le_mul_right Bander.r (not_lt.1 h)
    have := four_r_lt_q.2
    omega

/-- **C38** (map to the scalar field, size of the fibres): at most four, if the image is not among the first 2¹²⁹ scalars. -/
theorem C38_at_most_four (t : ZMod Bander.r) (h129 : 2 ^ 129 ≤ t.val) (l : List (Proj (ZMod Bander.q))) (hv : ∀ p ∈ l, Valid coeffA coeffD p)
    (hd : l.Pairwise fun p p' => p.eq p' = false) (ht : ∀ p ∈ l, p.mapToScalarField (ZMod Bander.r) = .ok t) : l.length ≤ 4 :=
  fibre_le hv hd ht fun k hk => by
    by_contra h
    have := Nat.mul_le_mul_right Bander.r (not_lt.1 h)
    have : Bander.q ≤ 4 * Bander.r + 2 ^ 129 := by decide +kernel
    omega

/-- The hypotheses of `C38_at_most_five` are met by two elements with image zero. -/
example : (∀ p ∈ [hashZero, neutral], Valid coeffA coeffD p) ∧ [hashZero, neutral].Pairwise (fun p p' => p.eq p' = false) ∧
    ∀ p ∈ [hashZero, neutral], p.mapToScalarField (ZMod Bander.r) = .ok 0 := by
  obtain ⟨h1, h2, -, -, h3, h4, h5⟩ := C38_full_claim_false
  simp [h1, h2, h3, h4, h5]

/-- Those of `C38_at_most_four` are met by the generator and its image. -/
example : ∃ t : ZMod Bander.r, 2 ^ 129 ≤ t.val ∧ Valid coeffA coeffD generator ∧ generator.mapToScalarField (ZMod Bander.r) = .ok t := by
  refine ⟨_, ?_, generator_valid, scalar_of_valid generator_valid⟩
  have h : generator.x / generator.y = ((35344525525156087108999598052255996916703313811221801730268125609774440822675 : ℕ) : ZMod Bander.q) := by
    rw [div_eq_iff (generator_valid.y_ne good)]
    unfold generator
    dsimp only
    rw [← Nat.cast_mul]
    exact (ZMod.natCast_eq_natCast_iff' _ _ _).2 (by decide +kernel)
  rw [h, ZMod.val_natCast, ZMod.val_natCast]
  decide +kernel

end Verif.Props
