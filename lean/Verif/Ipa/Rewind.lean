import Verif.Ipa.Lagrange
import Mathlib.Data.List.GetD
import Mathlib.Tactic.FieldSimp
import Mathlib.Tactic.LinearCombination

/-!
# Rewinding the inner product argument

A tree of accepted conversations with the verifier of the inner product argument: at each round the same `L` and `R` are
answered with four different challenges.  From it `Tree.rep` computes a representation of the commitment in terms of the
generators and `Tree.rels` computes linear relations between the generators.  Everything here is computed: no choice is made.

The computation is carried out in an arbitrary module `M` with a list `e` and an element `q` standing for the generators and
`Q`; later `M` is the free module on the generators, so that its elements are vectors of scalars.
-/

set_option autoImplicit false
set_option linter.unusedSectionVars false

namespace Verif.Ipa
open Proof

/-- Conversations sharing their messages: `k` rounds, four challenges at each. -/
inductive Tree (F G : Type) : ℕ → Type where
  | leaf (a : F) : Tree F G 0
  | node {k : ℕ} (L R : G) (x : Fin 4 → F) (sub : Fin 4 → Tree F G k) : Tree F G (k + 1)

section
variable {F G M : Type} [Field F] [AddCommGroup G] [Module F G] [AddCommGroup M] [Module F M]

/-- The conversations of a tree: the challenges and the proof. -/
def Tree.leaves : {k : ℕ} → Tree F G k → List (List F × IpaProof F G)
  | _, .leaf a => [([], ⟨[], [], a⟩)]
  | _, .node L R x sub => (List.finRange 4).flatMap fun j =>
    (sub j).leaves.map fun p => (x j :: p.1, ⟨L :: p.2.L, R :: p.2.R, p.2.a⟩)

/-- The four challenges of each round differ from each other and from zero. -/
def Tree.Distinct : {k : ℕ} → Tree F G k → Prop
  | _, .leaf _ => True
  | _, .node _ _ x sub => Function.Injective x ∧ (∀ j, x j ≠ 0) ∧ ∀ j, (sub j).Distinct

/-- The combination of three values `x L + P + x⁻¹ R` that gives `P`. -/
def mid (x : Fin 4 → F) (v : Fin 4 → M) : M :=
  (-x 0 * (x 1 + x 2) / ((x 0 - x 1) * (x 0 - x 2))) • v 0 + (-x 1 * (x 0 + x 2) / ((x 1 - x 0) * (x 1 - x 2))) • v 1 +
    (-x 2 * (x 0 + x 1) / ((x 2 - x 0) * (x 2 - x 1))) • v 2

/-- The combination of four values `x L + P + x⁻¹ R` that vanishes. -/
def off (x : Fin 4 → F) (v : Fin 4 → M) : M :=
  (x 0 / ((x 0 - x 1) * (x 0 - x 2) * (x 0 - x 3))) • v 0 + (x 1 / ((x 1 - x 0) * (x 1 - x 2) * (x 1 - x 3))) • v 1 +
    (x 2 / ((x 2 - x 0) * (x 2 - x 1) * (x 2 - x 3))) • v 2 + (x 3 / ((x 3 - x 0) * (x 3 - x 1) * (x 3 - x 2))) • v 3

/-- The representation of the commitment computed from a tree. -/
def Tree.rep (q : M) : {k : ℕ} → Tree F G k → List M → List F → M
  | _, .leaf a, e, b => a • (e.headD 0 + b.headD 0 • q)
  | _, .node _ _ x sub, e, b => mid x fun j => (sub j).rep q (foldG (x j)⁻¹ e) (foldS (x j)⁻¹ b)

/-- The relations computed from a tree. -/
def Tree.rels (q : M) : {k : ℕ} → Tree F G k → List M → List F → List M
  | _, .leaf _, _, _ => []
  | _, .node _ _ x sub, e, b =>
    off x (fun j => (sub j).rep q (foldG (x j)⁻¹ e) (foldS (x j)⁻¹ b)) ::
      (List.finRange 4).flatMap fun j => (sub j).rels q (foldG (x j)⁻¹ e) (foldS (x j)⁻¹ b)

/-- All conversations of the tree are accepted for the commitment `P` (which includes the term for the result). -/
def Tree.Acc (Q : G) : {k : ℕ} → Tree F G k → List G → List F → G → Prop
  | _, .leaf a, g, b, P => a • (g.headD 0 + b.headD 0 • Q) = P
  | _, .node L R x sub, g, b, P =>
    ∀ j, (sub j).Acc Q (foldG (x j)⁻¹ g) (foldS (x j)⁻¹ b) (P + x j • L + (x j)⁻¹ • R)

section
variable {x : Fin 4 → F} (hx : Function.Injective x) (h0 : ∀ j, x j ≠ 0)
include hx h0

theorem ne_of_inj {i j : Fin 4} (h : i ≠ j) : x i - x j ≠ 0 := sub_ne_zero.mpr fun e => h (hx e)

theorem mid_eq (L P R : M) : mid x (fun j => x j • L + P + (x j)⁻¹ • R) = P := by
  have h01 := ne_of_inj hx h0 (show (0 : Fin 4) ≠ 1 by decide)
  have h02 := ne_of_inj hx h0 (show (0 : Fin 4) ≠ 2 by decide)
  have h12 := ne_of_inj hx h0 (show (1 : Fin 4) ≠ 2 by decide)
  have h10 := ne_of_inj hx h0 (show (1 : Fin 4) ≠ 0 by decide)
  have h20 := ne_of_inj hx h0 (show (2 : Fin 4) ≠ 0 by decide)
  have h21 := ne_of_inj hx h0 (show (2 : Fin 4) ≠ 1 by decide)
  have n0 := h0 0
  have n1 := h0 1
  have n2 := h0 2
  unfold mid
  generalize hA : (-x 0 * (x 1 + x 2) / ((x 0 - x 1) * (x 0 - x 2))) = A
  generalize hB : (-x 1 * (x 0 + x 2) / ((x 1 - x 0) * (x 1 - x 2))) = B
  generalize hC : (-x 2 * (x 0 + x 1) / ((x 2 - x 0) * (x 2 - x 1))) = C
  have e1 : A + B + C = 1 := by
    rw [← hA, ← hB, ← hC]
    rw [← neg_sub (x 0) (x 1), ← neg_sub (x 0) (x 2), ← neg_sub (x 1) (x 2)]
    field_simp
    ring
  have e2 : A * x 0 + B * x 1 + C * x 2 = 0 := by
    rw [← hA, ← hB, ← hC]
    rw [← neg_sub (x 0) (x 1), ← neg_sub (x 0) (x 2), ← neg_sub (x 1) (x 2)]
    field_simp
    ring
  have e3 : A * (x 0)⁻¹ + B * (x 1)⁻¹ + C * (x 2)⁻¹ = 0 := by
    rw [← hA, ← hB, ← hC]
    rw [← neg_sub (x 0) (x 1), ← neg_sub (x 0) (x 2), ← neg_sub (x 1) (x 2)]
    field_simp
    ring
  have : A • (x 0 • L + P + (x 0)⁻¹ • R) + B • (x 1 • L + P + (x 1)⁻¹ • R) + C • (x 2 • L + P + (x 2)⁻¹ • R) =
      (A * x 0 + B * x 1 + C * x 2) • L + (A + B + C) • P + (A * (x 0)⁻¹ + B * (x 1)⁻¹ + C * (x 2)⁻¹) • R := by module
  rw [this, e1, e2, e3]
  simp

theorem off_eq (L P R : M) : off x (fun j => x j • L + P + (x j)⁻¹ • R) = 0 := by
  have h01 := ne_of_inj hx h0 (show (0 : Fin 4) ≠ 1 by decide)
  have h02 := ne_of_inj hx h0 (show (0 : Fin 4) ≠ 2 by decide)
  have h03 := ne_of_inj hx h0 (show (0 : Fin 4) ≠ 3 by decide)
  have h12 := ne_of_inj hx h0 (show (1 : Fin 4) ≠ 2 by decide)
  have h13 := ne_of_inj hx h0 (show (1 : Fin 4) ≠ 3 by decide)
  have h23 := ne_of_inj hx h0 (show (2 : Fin 4) ≠ 3 by decide)
  have n0 := h0 0
  have n1 := h0 1
  have n2 := h0 2
  have n3 := h0 3
  unfold off
  rw [← neg_sub (x 0) (x 1), ← neg_sub (x 0) (x 2), ← neg_sub (x 1) (x 2), ← neg_sub (x 0) (x 3), ← neg_sub (x 1) (x 3),
    ← neg_sub (x 2) (x 3)]
  generalize hA : x 0 / _ = A
  generalize hB : x 1 / _ = B
  generalize hC : x 2 / _ = C
  generalize hD : x 3 / _ = D
  have e1 : A + B + C + D = 0 := by
    rw [← hA, ← hB, ← hC, ← hD]
    field_simp
    ring
  have e2 : A * x 0 + B * x 1 + C * x 2 + D * x 3 = 0 := by
    rw [← hA, ← hB, ← hC, ← hD]
    field_simp
    ring
  have e3 : A * (x 0)⁻¹ + B * (x 1)⁻¹ + C * (x 2)⁻¹ + D * (x 3)⁻¹ = 0 := by
    rw [← hA, ← hB, ← hC, ← hD]
    field_simp
    ring
  have : A • (x 0 • L + P + (x 0)⁻¹ • R) + B • (x 1 • L + P + (x 1)⁻¹ • R) + C • (x 2 • L + P + (x 2)⁻¹ • R) +
      D • (x 3 • L + P + (x 3)⁻¹ • R) =
      (A * x 0 + B * x 1 + C * x 2 + D * x 3) • L + (A + B + C + D) • P +
        (A * (x 0)⁻¹ + B * (x 1)⁻¹ + C * (x 2)⁻¹ + D * (x 3)⁻¹) • R := by module
  rw [this, e1, e2, e3]
  simp

/-- Four points on which both the values and the values divided by `x` satisfy the relation lie on a line. -/
theorem on_line {a : Fin 4 → F} (h1 : off x a = 0) (h2 : off x (fun j => (x j)⁻¹ * a j) = 0) :
    ∀ j, a j = (a 0 - (a 0 - a 1) / (x 0 - x 1) * x 0) + x j * ((a 0 - a 1) / (x 0 - x 1)) := by
  have h01 := ne_of_inj hx h0 (show (0 : Fin 4) ≠ 1 by decide)
  have h02 := ne_of_inj hx h0 (show (0 : Fin 4) ≠ 2 by decide)
  have h03 := ne_of_inj hx h0 (show (0 : Fin 4) ≠ 3 by decide)
  have h12 := ne_of_inj hx h0 (show (1 : Fin 4) ≠ 2 by decide)
  have h13 := ne_of_inj hx h0 (show (1 : Fin 4) ≠ 3 by decide)
  have h23 := ne_of_inj hx h0 (show (2 : Fin 4) ≠ 3 by decide)
  have n0 := h0 0
  have n1 := h0 1
  have n2 := h0 2
  have n3 := h0 3
  unfold off at h1 h2
  rw [← neg_sub (x 0) (x 1), ← neg_sub (x 0) (x 2), ← neg_sub (x 1) (x 2), ← neg_sub (x 0) (x 3), ← neg_sub (x 1) (x 3),
    ← neg_sub (x 2) (x 3)] at h1 h2
  simp only [smul_eq_mul] at h1 h2
  have three : ∀ {u v w : F}, u - v ≠ 0 → u - w ≠ 0 → v - w ≠ 0 → ∀ {α β γ : F},
      α / ((u - v) * (u - w)) + β / (-(u - v) * (v - w)) + γ / (-(u - w) * -(v - w)) = 0 →
      γ = (α - (α - β) / (u - v) * u) + w * ((α - β) / (u - v)) := by
    intro u v w h h' h'' α β γ e
    field_simp at e ⊢
    linear_combination e
  have e2 := three h01 h02 h12 (α := a 0) (β := a 1) (γ := a 2) (by
    have : a 0 / ((x 0 - x 1) * (x 0 - x 2)) + a 1 / (-(x 0 - x 1) * (x 1 - x 2)) + a 2 / (-(x 0 - x 2) * -(x 1 - x 2)) =
        (x 0 / ((x 0 - x 1) * (x 0 - x 2) * (x 0 - x 3)) * a 0 + x 1 / (-(x 0 - x 1) * (x 1 - x 2) * (x 1 - x 3)) * a 1 +
            x 2 / (-(x 0 - x 2) * -(x 1 - x 2) * (x 2 - x 3)) * a 2 +
          x 3 / (-(x 0 - x 3) * -(x 1 - x 3) * -(x 2 - x 3)) * a 3) - x 3 *
        (x 0 / ((x 0 - x 1) * (x 0 - x 2) * (x 0 - x 3)) * ((x 0)⁻¹ * a 0) +
              x 1 / (-(x 0 - x 1) * (x 1 - x 2) * (x 1 - x 3)) * ((x 1)⁻¹ * a 1) +
            x 2 / (-(x 0 - x 2) * -(x 1 - x 2) * (x 2 - x 3)) * ((x 2)⁻¹ * a 2) +
          x 3 / (-(x 0 - x 3) * -(x 1 - x 3) * -(x 2 - x 3)) * ((x 3)⁻¹ * a 3)) := by
      field_simp
      ring
    rw [this, h1, h2]
    ring)
  have e3 := three h01 h03 h13 (α := a 0) (β := a 1) (γ := a 3) (by
    have : a 0 / ((x 0 - x 1) * (x 0 - x 3)) + a 1 / (-(x 0 - x 1) * (x 1 - x 3)) + a 3 / (-(x 0 - x 3) * -(x 1 - x 3)) =
        (x 0 / ((x 0 - x 1) * (x 0 - x 2) * (x 0 - x 3)) * a 0 + x 1 / (-(x 0 - x 1) * (x 1 - x 2) * (x 1 - x 3)) * a 1 +
            x 2 / (-(x 0 - x 2) * -(x 1 - x 2) * (x 2 - x 3)) * a 2 +
          x 3 / (-(x 0 - x 3) * -(x 1 - x 3) * -(x 2 - x 3)) * a 3) - x 2 *
        (x 0 / ((x 0 - x 1) * (x 0 - x 2) * (x 0 - x 3)) * ((x 0)⁻¹ * a 0) +
              x 1 / (-(x 0 - x 1) * (x 1 - x 2) * (x 1 - x 3)) * ((x 1)⁻¹ * a 1) +
            x 2 / (-(x 0 - x 2) * -(x 1 - x 2) * (x 2 - x 3)) * ((x 2)⁻¹ * a 2) +
          x 3 / (-(x 0 - x 3) * -(x 1 - x 3) * -(x 2 - x 3)) * ((x 3)⁻¹ * a 3)) := by
      field_simp
      ring
    rw [this, h1, h2]
    ring)
  intro j
  fin_cases j
  · simp only [Fin.zero_eta]
    ring
  · show a 1 = _ + x 1 * _
    field_simp
    ring
  · exact e2
  · exact e3

end

/-! ### What is computed -/

theorem map_foldG (φ : M →ₗ[F] G) (c : F) (v : List M) : (foldG c v).map φ = foldG c (v.map φ) := by
  simp only [foldG, List.length_map, ← List.map_take, ← List.map_drop, List.map_zipWith, List.zipWith_map, map_add, map_smul]

theorem map_headD (φ : M →ₗ[F] G) (v : List M) : φ (v.headD 0) = (v.map φ).headD 0 := by
  cases v <;> simp

theorem map_mid (φ : M →ₗ[F] G) (x : Fin 4 → F) (v : Fin 4 → M) : φ (mid x v) = mid x fun j => φ (v j) := by
  simp [mid]

theorem map_off (φ : M →ₗ[F] G) (x : Fin 4 → F) (v : Fin 4 → M) : φ (off x v) = off x fun j => φ (v j) := by
  simp [off]

/-- What is computed represents the commitment. -/
theorem Tree.rep_spec (φ : M →ₗ[F] G) {q : M} {Q : G} (hq : φ q = Q) : ∀ {k : ℕ} (T : Tree F G k) {e : List M} {g : List G}
    {b : List F} {P : G}, e.map φ = g → T.Distinct → T.Acc Q g b P → φ (T.rep q e b) = P
  | _, .leaf a, e, g, b, P, he, _, h => by
    simp only [Tree.Acc] at h
    rw [← h, ← he, Tree.rep, map_smul, map_add, map_smul, hq, map_headD]
  | _, .node L R x sub, e, g, b, P, he, hd, h => by
    simp only [Tree.Acc] at h
    obtain ⟨d1, d2, d3⟩ := hd
    rw [Tree.rep, map_mid]
    have : (fun j => φ ((sub j).rep q (foldG (x j)⁻¹ e) (foldS (x j)⁻¹ b))) = fun j => x j • L + P + (x j)⁻¹ • R := by
      funext j
      rw [Tree.rep_spec φ hq (sub j) (by rw [map_foldG, he]) (d3 j) (h j)]
      abel
    rw [this, mid_eq d1 d2]

/-- The relations computed are relations. -/
theorem Tree.rels_spec (φ : M →ₗ[F] G) {q : M} {Q : G} (hq : φ q = Q) : ∀ {k : ℕ} (T : Tree F G k) {e : List M} {g : List G}
    {b : List F} {P : G}, e.map φ = g → T.Distinct → T.Acc Q g b P → ∀ ρ ∈ T.rels q e b, φ ρ = 0
  | _, .leaf a, e, g, b, P, he, _, h, ρ, hρ => by
    simp [Tree.rels] at hρ
  | _, .node L R x sub, e, g, b, P, he, hd, h, ρ, hρ => by
    simp only [Tree.Acc] at h
    obtain ⟨d1, d2, d3⟩ := hd
    simp only [Tree.rels, List.mem_cons, List.mem_flatMap] at hρ
    rcases hρ with rfl | ⟨j, _, hj⟩
    · rw [map_off]
      have : (fun j => φ ((sub j).rep q (foldG (x j)⁻¹ e) (foldS (x j)⁻¹ b))) = fun j => x j • L + P + (x j)⁻¹ • R := by
        funext j
        rw [Tree.rep_spec φ hq (sub j) (by rw [map_foldG, he]) (d3 j) (h j)]
        abel
      rw [this, off_eq d1 d2]
    · exact Tree.rels_spec φ hq (sub j) (by rw [map_foldG, he]) (d3 j) (h j) ρ hj

/-- The elements of the list and `q` are linearly independent. -/
def Indep (F : Type) {M : Type} [Field F] [AddCommGroup M] [Module F M] (e : List M) (q : M) : Prop :=
  ∀ (a : List F) (c : F), a.length = e.length → lin a e + c • q = 0 → (∀ x ∈ a, x = 0) ∧ c = 0

theorem lin_foldG {k : ℕ} (c : F) {a : List F} {e : List M} (ha : a.length = 2 ^ k) (he : e.length = 2 ^ (k + 1)) :
    lin a (foldG c e) = lin (a ++ a.map (c * ·)) e := by
  have h2 := half_pow k
  have h3 : 2 ^ (k + 1) = 2 * 2 ^ k := by ring
  rw [foldG, lin_zip_right _ _ (by simp [he]; omega)]
  conv_rhs => rw [← List.take_append_drop (e.length / 2) e]
  rw [lin_append (by simp [ha, he]; omega), lin_map_mul]

theorem Indep.fold {k : ℕ} (c : F) {e : List M} {q : M} (h : Indep F e q) (he : e.length = 2 ^ (k + 1)) :
    Indep F (foldG c e) q := by
  intro a d ha hz
  rw [foldG_length c he] at ha
  rw [lin_foldG c ha he] at hz
  obtain ⟨h1, h2⟩ := h _ d (by simp [ha, he]; ring) hz
  exact ⟨fun x hx => h1 x (by simp [hx]), h2⟩

theorem lin_zero_of {a : List F} (h : ∀ x ∈ a, x = 0) (e : List M) : lin a e = 0 := by
  have : a = List.replicate a.length 0 := List.eq_replicate_iff.mpr ⟨rfl, h⟩
  rw [this]
  induction a.length generalizing e with
  | zero => simp
  | succ n ih => cases e <;> simp [List.replicate_succ, ih]

theorem lin_range_map (f : ℕ → F) : ∀ (m : ℕ) (e : List M), e.length = m →
    lin ((List.range m).map f) e = ∑ i ∈ Finset.range m, f i • e.getD i 0 := by
  intro m
  induction m generalizing f with
  | zero => simp
  | succ m ih =>
    intro e he
    cases e with
    | nil => simp at he
    | cons y e =>
      rw [List.range_succ_eq_map, List.map_cons, lin_cons, List.map_map, Finset.sum_range_succ', ih _ _ (by simpa using he)]
      simp [add_comm]

theorem eq_range_map {a : List F} {m : ℕ} (h : a.length = m) : a = (List.range m).map fun i => a.getD i 0 := by
  apply List.ext_getElem (by simp [h])
  intro i h1 h2
  rw [List.getElem_map, List.getElem_range, List.getD_eq_getElem _ _ h1]

theorem lin_eq_sum {a : List F} {m : ℕ} (ha : a.length = m) {e : List M} (he : e.length = m) :
    lin a e = ∑ i ∈ Finset.range m, a.getD i 0 • e.getD i 0 := by
  conv_lhs => rw [eq_range_map ha]
  rw [lin_range_map _ m e he]

theorem off_sum (x : Fin 4 → F) {m : ℕ} (f : Fin 4 → ℕ → M) :
    off x (fun j => ∑ i ∈ Finset.range m, f j i) = ∑ i ∈ Finset.range m, off x fun j => f j i := by
  simp only [off, Finset.smul_sum, Finset.sum_add_distrib]

theorem off_smul (x : Fin 4 → F) (a : Fin 4 → F) (v : M) : off x (fun j => a j • v) = off x a • v := by
  simp only [off, smul_eq_mul]
  module

theorem off_add (x : Fin 4 → F) (u v : Fin 4 → M) : off x (fun j => u j + v j) = off x u + off x v := by
  simp only [off]
  module

/-- The heart of the matter: if the relations are trivial, the representation is of the right form. -/
theorem Tree.extract {q : M} : ∀ {k : ℕ} (T : Tree F G k) {e : List M} {b : List F}, e.length = 2 ^ k → b.length = 2 ^ k →
    Indep F e q → T.Distinct → (∀ ρ ∈ T.rels q e b, ρ = 0) →
    ∃ a : List F, a.length = 2 ^ k ∧ T.rep q e b = lin a e + lin a b • q
  | _, .leaf a, [e], [b], _, _, _, _, _ => ⟨[a], by simp, by simp [Tree.rep, mul_smul]⟩
  | _, .node (k := k) L R x sub, e, b, he, hb, hi, hd, hr => by
    obtain ⟨d1, d2, d3⟩ := hd
    have hsub : ∀ j, ∃ a : List F, a.length = 2 ^ k ∧ (sub j).rep q (foldG (x j)⁻¹ e) (foldS (x j)⁻¹ b) =
        lin a (foldG (x j)⁻¹ e) + lin a (foldS (x j)⁻¹ b) • q := fun j =>
      Tree.extract (sub j) (foldG_length _ he) (by rw [foldS_eq]; exact foldG_length _ hb) (hi.fold _ he) (d3 j) fun ρ hρ => by
        apply hr
        simp only [Tree.rels, List.mem_cons, List.mem_flatMap]
        exact Or.inr ⟨j, List.mem_finRange j, hρ⟩
    choose a ha hrep using hsub
    have h0 : off x (fun j => (sub j).rep q (foldG (x j)⁻¹ e) (foldS (x j)⁻¹ b)) = 0 := by
      apply hr
      simp [Tree.rels]
    have h2 := half_pow k
    have h3 : 2 ^ (k + 1) = 2 * 2 ^ k := by ring
    -- the coordinates of the four representations
    let c : Fin 4 → List F := fun j => a j ++ (a j).map ((x j)⁻¹ * ·)
    have hc : ∀ j, (c j).length = 2 ^ (k + 1) := fun j => by simp [c, ha]; omega
    have hrep' : ∀ j, (sub j).rep q (foldG (x j)⁻¹ e) (foldS (x j)⁻¹ b) = lin (c j) e + lin (c j) b • q := by
      intro j
      rw [hrep, lin_foldG _ (ha j) he, foldS_eq, lin_foldG _ (ha j) hb]
    have hoff : ∀ i, i < 2 ^ (k + 1) → off x (fun j => (c j).getD i 0) = 0 := by
      have e1 : lin ((List.range (2 ^ (k + 1))).map fun i => off x fun j => (c j).getD i 0) e +
          (off x fun j => lin (c j) b) • q = 0 := by
        refine Eq.trans ?_ h0
        rw [lin_range_map _ _ _ he]
        simp only [hrep', lin_eq_sum (hc _) he]
        rw [off_add, off_sum, off_smul]
        simp only [off_smul]
      obtain ⟨z1, _⟩ := hi _ _ (by simp [he]) e1
      intro i hi
      exact z1 _ (List.mem_map.mpr ⟨i, List.mem_range.mpr hi, rfl⟩)
    have hline : ∀ i, i < 2 ^ k → ∀ j, (a j).getD i 0 =
        ((a 0).getD i 0 - ((a 0).getD i 0 - (a 1).getD i 0) / (x 0 - x 1) * x 0) +
          x j * (((a 0).getD i 0 - (a 1).getD i 0) / (x 0 - x 1)) := by
      intro i hik
      apply on_line d1 d2
      · refine Eq.trans ?_ (hoff i (by omega))
        congr 1
        funext j
        simp only [c]
        rw [List.getD_append _ _ _ _ (by rw [ha]; exact hik)]
      · refine Eq.trans ?_ (hoff (2 ^ k + i) (by omega))
        congr 1
        funext j
        simp only [c]
        rw [List.getD_append_right _ _ _ _ (by rw [ha]; omega), ha, Nat.add_sub_cancel_left]
        rw [List.getD_eq_getElem _ _ (by rw [ha]; exact hik), List.getD_eq_getElem _ _ (by simp [ha]; exact hik)]
        simp
    let u : List F := (List.range (2 ^ k)).map fun i => (a 0).getD i 0 - ((a 0).getD i 0 - (a 1).getD i 0) / (x 0 - x 1) * x 0
    let v : List F := (List.range (2 ^ k)).map fun i => ((a 0).getD i 0 - (a 1).getD i 0) / (x 0 - x 1)
    have hu : u.length = 2 ^ k := by simp [u]
    have hv : v.length = 2 ^ k := by simp [v]
    have haj : ∀ j, a j = List.zipWith (fun l r => l + x j * r) u v := by
      intro j
      rw [eq_range_map (ha j)]
      simp only [u, v, List.zipWith_map, List.zipWith_self]
      apply List.map_congr_left
      intro i hi
      exact hline i (List.mem_range.mp hi) j
    refine ⟨u ++ v, by simp [hu, hv]; omega, ?_⟩
    have hsplit : ∀ {N : Type} [AddCommGroup N] [Module F N] {w : List N}, w.length = 2 ^ (k + 1) → ∀ j,
        lin (c j) w = x j • lin v (w.take (2 ^ k)) + lin (u ++ v) w + (x j)⁻¹ • lin u (w.drop (2 ^ k)) := by
      intro N _ _ w hw j
      conv_lhs => rw [← List.take_append_drop (2 ^ k) w]
      have e3 : lin (u ++ v) w = lin u (w.take (2 ^ k)) + lin v (w.drop (2 ^ k)) := by
        conv_lhs => rw [← List.take_append_drop (2 ^ k) w]
        rw [lin_append (by simp [hu, hw]; omega)]
      simp only [c]
      rw [lin_append (by simp [ha, hw]; omega), lin_map_mul, e3, haj j, lin_zip_left _ _ (by rw [hu, hv]),
        lin_zip_left _ _ (by rw [hu, hv]), smul_add, smul_smul, inv_mul_cancel₀ (d2 j), one_smul]
      abel
    rw [Tree.rep]
    have : (fun j => (sub j).rep q (foldG (x j)⁻¹ e) (foldS (x j)⁻¹ b)) = fun j =>
        x j • (lin v (e.take (2 ^ k)) + lin v (b.take (2 ^ k)) • q) + (lin (u ++ v) e + lin (u ++ v) b • q) +
          (x j)⁻¹ • (lin u (e.drop (2 ^ k)) + lin u (b.drop (2 ^ k)) • q) := by
      funext j
      rw [hrep' j, hsplit he j, hsplit hb j]
      simp only [smul_eq_mul]
      module
    rw [this, mid_eq d1 d2]

end
end Verif.Ipa
