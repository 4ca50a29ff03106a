import Verif.Ipa.Rewind
import Verif.Ipa.Multi
import Mathlib.LinearAlgebra.Matrix.NonsingularInverse
import Mathlib.LinearAlgebra.Vandermonde

/-!
# Rewinding the multipoint argument

The computations that turn representations of `E - D` for many challenges `r` and `t` into representations of the
commitments.
-/

set_option autoImplicit false
set_option linter.unusedSectionVars false

namespace Verif.Ipa
open Proof Polynomial

section
variable {F G M : Type} [Field F] [DecidableEq F] [AddCommGroup G] [Module F G] [AddCommGroup M] [Module F M]

/-! ### Partial fractions -/

/-- The value at `x` of the `j`-th Lagrange polynomial of the points `t`. -/
def lag {m : ℕ} (t : Fin m → F) (j : Fin m) (x : F) : F := ∏ i ∈ Finset.univ.erase j, (x - t i) / (t j - t i)

/-- The numerator at `z` of the partial fraction decomposition given by its values `ρ` at the points `t`. -/
def residue {m : ℕ} (t : Fin m → F) (Z : Finset F) (ρ : Fin m → M) (z : F) : M :=
  ∑ j, (lag t j z * (∏ z' ∈ Z, (t j - z')) / ∏ z' ∈ Z.erase z, (z - z')) • ρ j

theorem lag_eq {m : ℕ} (t : Fin m → F) (j : Fin m) (x : F) : lag t j x = (Lagrange.basis Finset.univ t j).eval x := by
  simp only [lag, Lagrange.basis, Lagrange.basisDivisor, eval_prod, eval_mul, eval_C, eval_sub, eval_X]
  apply Finset.prod_congr rfl
  intro i _
  rw [div_eq_mul_inv, mul_comm]

theorem sum_lag {m : ℕ} {t : Fin m → F} (ht : Function.Injective t) {P : F[X]} (hP : P.degree < m) (x : F) :
    ∑ j, lag t j x * P.eval (t j) = P.eval x := by
  have h := Lagrange.eq_interpolate (s := Finset.univ) (v := t) ht.injOn (by simpa using hP)
  conv_rhs => rw [h, Lagrange.interpolate_apply, eval_finsetSum]
  apply Finset.sum_congr rfl
  intro j _
  rw [lag_eq, eval_mul, eval_C, mul_comm]

theorem nodal_degree (Z : Finset F) : (∏ z ∈ Z, (X - C z)).degree = (Z.card : WithBot ℕ) := by
  rw [degree_prod]
  simp

theorem residue_eq {m : ℕ} {t : Fin m → F} (ht : Function.Injective t) {Z : Finset F} (hZ : Z.card < m)
    (htZ : ∀ j, t j ∉ Z) {S : F → M} {D : M} {ρ : Fin m → M} (hρ : ∀ j, ρ j = ∑ z ∈ Z, (t j - z)⁻¹ • S z - D) {z : F}
    (hz : z ∈ Z) : residue t Z ρ z = S z := by
  have hnz : ∏ z' ∈ Z.erase z, (z - z') ≠ 0 := by
    rw [Finset.prod_ne_zero_iff]
    intro z' hz'
    exact sub_ne_zero.mpr (Finset.ne_of_mem_erase hz').symm
  have h1 : ∑ j, lag t j z * ∏ z' ∈ Z, (t j - z') = 0 := by
    have := sum_lag ht (P := ∏ z ∈ Z, (X - C z)) (by rw [nodal_degree]; exact_mod_cast hZ) z
    simp only [eval_prod, eval_sub, eval_X, eval_C] at this
    rw [this]
    exact Finset.prod_eq_zero hz (sub_self z)
  have h2 : ∀ w ∈ Z, ∑ j, lag t j z * ((∏ z' ∈ Z, (t j - z')) * (t j - w)⁻¹) =
      if w = z then ∏ z' ∈ Z.erase z, (z - z') else 0 := by
    intro w hw
    have := sum_lag ht (P := ∏ z ∈ Z.erase w, (X - C z)) (by
      rw [nodal_degree]
      have := Finset.card_erase_le (s := Z) (a := w)
      exact_mod_cast (by omega : (Z.erase w).card < m)) z
    simp only [eval_prod, eval_sub, eval_X, eval_C] at this
    have e : ∀ j, (∏ z' ∈ Z, (t j - z')) * (t j - w)⁻¹ = ∏ z' ∈ Z.erase w, (t j - z') := by
      intro j
      rw [← Finset.mul_prod_erase _ _ hw]
      have : t j - w ≠ 0 := sub_ne_zero.mpr fun h => htZ j (h ▸ hw)
      field_simp
    simp only [e, this]
    split
    · rename_i h
      rw [h]
    · rename_i h
      exact Finset.prod_eq_zero (Finset.mem_erase.mpr ⟨Ne.symm h, hz⟩) (sub_self z)
  have e : residue t Z ρ z = (∏ z' ∈ Z.erase z, (z - z'))⁻¹ •
      (∑ w ∈ Z, (∑ j, lag t j z * ((∏ z' ∈ Z, (t j - z')) * (t j - w)⁻¹)) • S w - (∑ j, lag t j z * ∏ z' ∈ Z, (t j - z')) • D) := by
    simp only [residue, hρ, Finset.sum_smul, Finset.smul_sum, smul_sub, Finset.sum_sub_distrib, smul_smul]
    rw [Finset.sum_comm]
    congr 1
    · apply Finset.sum_congr rfl
      intro w _
      apply Finset.sum_congr rfl
      intro j _
      congr 1
      ring
    · apply Finset.sum_congr rfl
      intro j _
      congr 1
      ring
  rw [e, h1, Finset.sum_congr rfl fun w hw => by rw [h2 w hw]]
  simp only [ite_smul, zero_smul, Finset.sum_ite_eq', hz, if_true, sub_zero, smul_smul, inv_mul_cancel₀ hnz, one_smul]

theorem map_residue (φ : M →ₗ[F] G) {m : ℕ} (t : Fin m → F) (Z : Finset F) (ρ : Fin m → M) (z : F) :
    φ (residue t Z ρ z) = residue t Z (fun j => φ (ρ j)) z := by
  simp [residue]

/-! ### Coefficients of polynomials given by values -/

/-- The inverse of the Vandermonde matrix of the points `r`, by Cramer's rule. -/
def vinv {n : ℕ} (r : Fin n → F) : Matrix (Fin n) (Fin n) F := (Matrix.vandermonde r).det⁻¹ • (Matrix.vandermonde r).adjugate

/-- The coefficient at `i` of the polynomial with the values `v` at the points `r`. -/
def coefAt {n : ℕ} (r : Fin n → F) (v : Fin n → M) (i : Fin n) : M := ∑ k, vinv r i k • v k

theorem coefAt_eq {n : ℕ} {r : Fin n → F} (hr : Function.Injective r) {c : Fin n → M} {v : Fin n → M}
    (hv : ∀ k, v k = ∑ i : Fin n, r k ^ (i : ℕ) • c i) (i : Fin n) : coefAt r v i = c i := by
  have h : vinv r * Matrix.vandermonde r = 1 := by
    rw [vinv, Matrix.smul_mul, Matrix.adjugate_mul, smul_smul, inv_mul_cancel₀ (Matrix.det_vandermonde_ne_zero_iff.mpr hr),
      one_smul]
  simp only [coefAt, hv, Finset.smul_sum, smul_smul]
  rw [Finset.sum_comm]
  have : ∀ l : Fin n, ∑ k, (vinv r i k * r k ^ (l : ℕ)) • c l = (if i = l then 1 else 0 : F) • c l := by
    intro l
    rw [← Finset.sum_smul]
    congr 1
    have := congrFun (congrFun h i) l
    rw [Matrix.mul_apply, Matrix.one_apply] at this
    exact this
  simp [this]

theorem map_coefAt (φ : M →ₗ[F] G) {n : ℕ} (r : Fin n → F) (v : Fin n → M) (i : Fin n) :
    φ (coefAt r v i) = coefAt r (fun k => φ (v k)) i := by
  simp [coefAt]

/-! ### Vectors over the generators -/

/-- A scalar for each of the `N` generators and one for `Q`. -/
abbrev Vec (F : Type) (N : ℕ) : Type := (Fin N → F) × F

/-- The generators as vectors. -/
def vecE (F : Type) [Field F] (N : ℕ) : List (Vec F N) := (List.finRange N).map fun i => (Pi.single i 1, 0)

/-- `Q` as a vector. -/
def vecQ (F : Type) [Field F] (N : ℕ) : Vec F N := (0, 1)

/-- The point a vector stands for: `Σ vᵢ gᵢ + c Q`. -/
def point (g : ℕ → G) (Q : G) (N : ℕ) : Vec F N →ₗ[F] G where
  toFun v := ∑ i : Fin N, v.1 i • g i + v.2 • Q
  map_add' u v := by
    simp only [Prod.fst_add, Prod.snd_add, Pi.add_apply, add_smul, Finset.sum_add_distrib]
    abel
  map_smul' c v := by
    simp [Finset.smul_sum, mul_smul]

theorem point_apply (g : ℕ → G) (Q : G) {N : ℕ} (v : Vec F N) : point g Q N v = ∑ i : Fin N, v.1 i • g i + v.2 • Q := rfl

theorem point_vecQ (g : ℕ → G) (Q : G) (N : ℕ) : point g Q N (vecQ F N) = Q := by
  simp [point_apply, vecQ]

theorem point_vecE (g : ℕ → G) (Q : G) (N : ℕ) : (vecE F N).map (point g Q N) = (List.range N).map g := by
  rw [vecE, List.map_map, ← List.map_coe_finRange_eq_range, List.map_map]
  apply List.map_congr_left
  intro i _
  simp only [Function.comp, point_apply, zero_smul, add_zero]
  rw [Finset.sum_eq_single i]
  · simp
  · intro j _ h
    simp [h]
  · simp

theorem vecE_length (N : ℕ) : (vecE F N).length = N := by simp [vecE]

theorem lin_vecE {N : ℕ} {a : List F} (ha : a.length = N) : lin a (vecE F N) = ((fun i => a.getD i 0, 0) : Vec F N) := by
  rw [lin_eq_sum ha (vecE_length N)]
  have h : ∀ i : ℕ, i ∈ Finset.range N → a.getD i 0 • (vecE F N).getD i 0 =
      ((fun l : Fin N => if (l : ℕ) = i then a.getD i 0 else 0, 0) : Vec F N) := by
    intro i hi
    rw [Finset.mem_range] at hi
    rw [List.getD_eq_getElem (vecE F N) _ (by rw [vecE_length]; exact hi)]
    simp only [vecE, List.getElem_map, List.getElem_finRange, Prod.smul_mk, smul_zero]
    congr 1
    funext l
    simp only [Pi.smul_apply, smul_eq_mul, Pi.single_apply, Fin.ext_iff]
    simp
  rw [Finset.sum_congr rfl h]
  ext l
  · rw [Prod.fst_sum, Finset.sum_apply]
    simp only
    rw [Finset.sum_ite_eq]
    simp
  · rw [Prod.snd_sum]
    simp

theorem vecE_indep (N : ℕ) {w : F} (hw : w ≠ 0) : Indep F (vecE F N) (w • vecQ F N) := by
  intro a c ha h
  rw [vecE_length] at ha
  rw [lin_vecE ha] at h
  have h1 := congrArg Prod.fst h
  have h2 := congrArg Prod.snd h
  simp only [vecQ, Prod.smul_mk, smul_zero, Prod.mk_add_mk, add_zero, Prod.fst_zero, Prod.snd_zero, smul_eq_mul, mul_one,
    zero_add, mul_eq_zero] at h1 h2
  refine ⟨fun x hx => ?_, h2.resolve_right hw⟩
  obtain ⟨i, hi, rfl⟩ := List.mem_iff_getElem.mp hx
  have := congrFun h1 ⟨i, by omega⟩
  simp only [Pi.zero_apply] at this
  rw [List.getD_eq_getElem _ _ hi] at this
  exact this

/-! ### One opening, with two challenges `w` -/

section
variable {N k : ℕ} (b : List F) (y : F) (w : Fin 2 → F) (T : Fin 2 → Tree F G k)

/-- The vector computed from the trees for one challenge `w`. -/
def halfRep (N : ℕ) (u : Fin 2) : Vec F N := (T u).rep (w u • vecQ F N) (vecE F N) b - (y * w u) • vecQ F N

/-- The vector computed for the commitment. -/
def openRep (N : ℕ) : Vec F N := halfRep b y w T N 0

/-- The relations computed. -/
def openRels (N : ℕ) : List (Vec F N) := (halfRep b y w T N 0 - halfRep b y w T N 1) ::
  ((T 0).rels (w 0 • vecQ F N) (vecE F N) b ++ (T 1).rels (w 1 • vecQ F N) (vecE F N) b)

variable {b y w T}

/-- All the conversations are accepted for `comm`, `b`, `y`. -/
def OpenAcc (g : ℕ → G) (Q : G) (N : ℕ) (b : List F) (y : F) (w : Fin 2 → F) (T : Fin 2 → Tree F G k) (comm : G) : Prop :=
  ∀ u, (T u).Acc (w u • Q) ((List.range N).map g) b (comm + y • w u • Q)

/-- The challenges are fit for extraction. -/
def OpenDistinct (w : Fin 2 → F) (T : Fin 2 → Tree F G k) : Prop :=
  w 0 ≠ w 1 ∧ (∀ u, w u ≠ 0) ∧ ∀ u, (T u).Distinct

theorem halfRep_spec {g : ℕ → G} {Q comm : G} (hd : OpenDistinct w T) (h : OpenAcc g Q N b y w T comm) (u : Fin 2) :
    point g Q N (halfRep b y w T N u) = comm := by
  rw [halfRep, map_sub, Tree.rep_spec (point g Q N) (Q := w u • Q) (by rw [map_smul, point_vecQ]) (T u)
    (point_vecE g Q N) (hd.2.2 u) (h u), map_smul, point_vecQ, mul_smul]
  abel

theorem openRels_spec {g : ℕ → G} {Q comm : G} (hd : OpenDistinct w T) (h : OpenAcc g Q N b y w T comm) :
    ∀ ρ ∈ openRels b y w T N, point g Q N ρ = 0 := by
  have hT : ∀ u, ∀ ρ ∈ (T u).rels (w u • vecQ F N) (vecE F N) b, point g Q N ρ = 0 := fun u =>
    Tree.rels_spec (point g Q N) (Q := w u • Q) (by rw [map_smul, point_vecQ]) (T u) (point_vecE g Q N) (hd.2.2 u) (h u)
  intro ρ hρ
  simp only [openRels, List.mem_cons, List.mem_append] at hρ
  rcases hρ with rfl | h1 | h1
  · rw [map_sub, halfRep_spec hd h, halfRep_spec hd h, sub_self]
  · exact hT 0 ρ h1
  · exact hT 1 ρ h1

theorem open_extract (hN : N = 2 ^ k) (hb : b.length = N) (hd : OpenDistinct w T) (hr : ∀ ρ ∈ openRels b y w T N, ρ = 0) :
    (openRep b y w T N).2 = 0 ∧ ∑ i : Fin N, (openRep b y w T N).1 i * b.getD i 0 = y := by
  have hT : ∀ u, ∃ f : List F, f.length = N ∧ (T u).rep (w u • vecQ F N) (vecE F N) b =
      lin f (vecE F N) + lin f b • w u • vecQ F N := by
    intro u
    rw [hN]
    apply Tree.extract (T u) (vecE_length _) (hN ▸ hb) (vecE_indep _ (hd.2.1 u)) (hd.2.2 u)
    intro ρ hρ
    subst hN
    apply hr
    simp only [openRels, List.mem_cons, List.mem_append]
    match u, hρ with
    | 0, hρ => exact Or.inr (Or.inl hρ)
    | 1, hρ => exact Or.inr (Or.inr hρ)
  choose f hf hrep using hT
  have hh : ∀ u, halfRep b y w T N u = ((fun i => (f u).getD i 0, (lin (f u) b - y) * w u) : Vec F N) := by
    intro u
    rw [halfRep, hrep, lin_vecE (hf u)]
    ext i
    · simp [vecQ]
    · simp only [vecQ, Prod.snd_sub, Prod.snd_add, Prod.smul_snd, smul_eq_mul]
      ring
  have h0 : halfRep b y w T N 0 = halfRep b y w T N 1 := by
    have := hr (halfRep b y w T N 0 - halfRep b y w T N 1) (by simp [openRels])
    exact sub_eq_zero.mp this
  rw [hh, hh] at h0
  have h1 := congrArg Prod.fst h0
  have h2 := congrArg Prod.snd h0
  simp only at h1 h2
  have hff : f 0 = f 1 := by
    rw [eq_range_map (hf 0), eq_range_map (hf 1)]
    apply List.map_congr_left
    intro i hi
    exact congrFun h1 ⟨i, List.mem_range.mp hi⟩
  rw [← hff] at h2
  have hz : lin (f 0) b - y = 0 := by
    have : (lin (f 0) b - y) * (w 0 - w 1) = 0 := by rw [mul_sub, h2, sub_self]
    exact (mul_eq_zero.mp this).resolve_right (sub_ne_zero.mpr hd.1)
  rw [openRep, hh]
  refine ⟨by simp [hz], ?_⟩
  simp only
  rw [← sub_eq_zero.mp hz, lin_eq_sum (hf 0) hb, Finset.sum_range]
  simp

end

/-! ### All openings at once -/

/-- Conversations for `n` openings: `n` challenges `r`, for each of them `m + 1` challenges `t`, for each of them two
challenges `w`, and a tree for each of them. -/
structure MultiTree (F G : Type) (n m k : ℕ) where
  r : Fin n → F
  D : Fin n → G
  t : Fin n → Fin (m + 1) → F
  w : Fin n → Fin (m + 1) → Fin 2 → F
  ipa : Fin n → Fin (m + 1) → Fin 2 → Tree F G k

/-- The Lagrange coefficients at `t`, as computed by the code (`lagrangeCoeffs_ok`). -/
def bAt (N : ℕ) (t : F) : List F :=
  (List.range N).map fun i => (baryWeight F i N * (t - (i : F)))⁻¹ * ∏ k ∈ Finset.range N, (t - (k : F))

section
variable {N n m k : ℕ} (X : MultiTree F G n m k) (q : Fin n → VerifierQuery F G)

/-- The points of the queries. -/
def points (q : Fin n → VerifierQuery F G) : Finset F := Finset.univ.image fun l => (q l).point

/-- The combined result at `t`. -/
def g2At (q : Fin n → VerifierQuery F G) (r t : F) : F := ∑ l : Fin n, (t - (q l).point)⁻¹ * r ^ (l : ℕ) * (q l).result

/-- The combined commitment at `t`. -/
def eAt (q : Fin n → VerifierQuery F G) (r t : F) : G := ∑ l : Fin n, ((t - (q l).point)⁻¹ * r ^ (l : ℕ)) • (q l).commitment

/-- The vector computed for `E - D`. -/
def MultiTree.diff (N : ℕ) (i : Fin n) (j : Fin (m + 1)) : Vec F N :=
  openRep (bAt N (X.t i j)) (g2At q (X.r i) (X.t i j)) (X.w i j) (X.ipa i j) N

/-- The vector computed for the combination of the commitments opened at `z`. -/
def MultiTree.atPoint (N : ℕ) (i : Fin n) (z : F) : Vec F N := residue (X.t i) (points q) (X.diff q N i) z

/-- The vector computed for `D`. -/
def MultiTree.quotient (N : ℕ) (i : Fin n) : Vec F N :=
  ∑ z ∈ points q, (X.t i 0 - z)⁻¹ • X.atPoint q N i z - X.diff q N i 0

/-- The vector computed for the commitment of a query. -/
def MultiTree.vec (N : ℕ) (l : Fin n) : Vec F N := coefAt X.r (fun i => X.atPoint q N i (q l).point) l

/-- The relations computed. -/
def MultiTree.rels [DecidableEq G] (N : ℕ) : List (Vec F N) :=
  ((List.finRange n).flatMap fun i => (List.finRange (m + 1)).flatMap fun j =>
    (X.diff q N i j - (∑ z ∈ points q, (X.t i j - z)⁻¹ • X.atPoint q N i z - X.quotient q N i)) ::
      openRels (bAt N (X.t i j)) (g2At q (X.r i) (X.t i j)) (X.w i j) (X.ipa i j) N) ++
  (List.finRange n).flatMap fun l => (List.finRange n).filterMap fun l' =>
    if (q l).commitment = (q l').commitment then some (X.vec q N l - X.vec q N l') else none

/-- The challenges are fit for extraction: distinct, and outside the domain where they must be. -/
structure MultiTree.Distinct (N : ℕ) : Prop where
  r : Function.Injective X.r
  t : ∀ i, Function.Injective (X.t i)
  outside : ∀ i j p, p < N → X.t i j ≠ (p : F)
  opening : ∀ i j, OpenDistinct (X.w i j) (X.ipa i j)

/-- All the conversations are accepted. -/
def MultiTree.Acc (g : ℕ → G) (Q : G) (N : ℕ) : Prop := ∀ i j, OpenAcc g Q N (bAt N (X.t i j)) (g2At q (X.r i) (X.t i j))
  (X.w i j) (X.ipa i j) (eAt q (X.r i) (X.t i j) - X.D i)

variable {X q}

theorem points_card : (points q).card ≤ n := by
  have := Finset.card_image_le (s := (Finset.univ : Finset (Fin n))) (f := fun l => (q l).point)
  simpa [points] using this

theorem sum_points {M : Type} [AddCommGroup M] [Module F M] (f : F → F) (c : Fin n → M) :
    ∑ z ∈ points q, f z • ∑ l : Fin n, (if (q l).point = z then c l else 0) = ∑ l : Fin n, f (q l).point • c l := by
  simp only [Finset.smul_sum]
  rw [Finset.sum_comm]
  apply Finset.sum_congr rfl
  intro l _
  simp only [smul_ite, smul_zero]
  rw [Finset.sum_ite_eq, if_pos (show (q l).point ∈ points q from Finset.mem_image.mpr ⟨l, Finset.mem_univ _, rfl⟩)]

theorem notin_points (hd : X.Distinct N) (hq : ∀ l, ∃ p, p < N ∧ (q l).point = (p : F)) (i : Fin n) (j : Fin (m + 1)) :
    X.t i j ∉ points q := by
  intro h
  obtain ⟨l, _, hl⟩ := Finset.mem_image.mp h
  obtain ⟨p, hp, e⟩ := hq l
  exact hd.outside i j p hp (by rw [← hl, e])

section
variable {g : ℕ → G} {Q : G} (hd : X.Distinct N) (hq : ∀ l, ∃ p, p < N ∧ (q l).point = (p : F)) (hm : n ≤ m)
  (ha : X.Acc q g Q N)
include hd hq hm ha

theorem atPoint_spec (i : Fin n) {z : F} (hz : z ∈ points q) : point g Q N (X.atPoint q N i z) =
    ∑ l : Fin n, if (q l).point = z then X.r i ^ (l : ℕ) • (q l).commitment else 0 := by
  rw [MultiTree.atPoint, map_residue]
  apply residue_eq (hd.t i) (by have := points_card (q := q); omega) (notin_points hd hq i)
    (S := fun z => ∑ l : Fin n, if (q l).point = z then X.r i ^ (l : ℕ) • (q l).commitment else 0) (D := X.D i) _ hz
  intro j
  rw [MultiTree.diff, openRep, halfRep_spec (hd.opening i j) (ha i j), sum_points fun z => (X.t i j - z)⁻¹]
  simp only [eAt, mul_smul]

/-- The vectors computed represent the commitments. -/
theorem vec_spec (l : Fin n) : point g Q N (X.vec q N l) = (q l).commitment := by
  rw [MultiTree.vec, map_coefAt]
  rw [coefAt_eq hd.r (c := fun l' => if (q l').point = (q l).point then (q l').commitment else 0)]
  · simp
  · intro i
    rw [atPoint_spec hd hq hm ha i (Finset.mem_image.mpr ⟨l, Finset.mem_univ _, rfl⟩)]
    apply Finset.sum_congr rfl
    intro l' _
    split <;> simp

/-- The relations computed are relations. -/
theorem rels_spec [DecidableEq G] : ∀ ρ ∈ X.rels q N, point g Q N ρ = 0 := by
  intro ρ hρ
  have hdiff : ∀ i j, point g Q N (X.diff q N i j) = ∑ z ∈ points q, (X.t i j - z)⁻¹ • point g Q N (X.atPoint q N i z) - X.D i := by
    intro i j
    rw [MultiTree.diff, openRep, halfRep_spec (hd.opening i j) (ha i j)]
    rw [Finset.sum_congr rfl fun z hz => by rw [atPoint_spec hd hq hm ha i hz], sum_points fun z => (X.t i j - z)⁻¹]
    simp only [eAt, mul_smul]
  simp only [MultiTree.rels, List.mem_append, List.mem_flatMap, List.mem_cons, List.mem_filterMap] at hρ
  rcases hρ with ⟨i, _, j, _, h | h⟩ | ⟨l, _, l', _, h⟩
  · subst h
    rw [map_sub, map_sub, MultiTree.quotient, map_sub, hdiff, hdiff, map_sum, map_sum]
    simp only [map_smul]
    abel
  · exact openRels_spec (hd.opening i j) (ha i j) ρ h
  · split at h
    · rename_i e
      simp only [Option.some.injEq] at h
      rw [← h, map_sub, vec_spec hd hq hm ha, vec_spec hd hq hm ha, e, sub_self]
    · simp at h

end

/-- The polynomial with the values `f` on the domain. -/
noncomputable def pol (N : ℕ) : (Fin N → F) →ₗ[F] F[X] := Lagrange.interpolate Finset.univ fun i : Fin N => ((i : ℕ) : F)

theorem cast_inj {N : ℕ} (hF : Verif.Ipa.Distinct F N) : Function.Injective fun i : Fin N => ((i : ℕ) : F) := by
  intro i j h
  exact Fin.ext (hF _ _ i.2 j.2 h)

theorem pol_degree (hF : Verif.Ipa.Distinct F N) (f : Fin N → F) : (pol N f).degree < N := by
  have := Lagrange.degree_interpolate_lt (s := Finset.univ) f (cast_inj hF).injOn
  simpa [pol] using this

theorem pol_eval (hF : Verif.Ipa.Distinct F N) (f : Fin N → F) (i : Fin N) : (pol N f).eval ((i : ℕ) : F) = f i :=
  Lagrange.eval_interpolate_at_node (s := Finset.univ) (v := fun i : Fin N => ((i : ℕ) : F)) f (cast_inj hF).injOn
    (Finset.mem_univ i)

theorem sum_bAt (hF : Verif.Ipa.Distinct F N) (f : Fin N → F) {t : F} (ht : ∀ p, p < N → t ≠ (p : F)) :
    ∑ i : Fin N, f i * (bAt N t).getD i 0 = (pol N f).eval t := by
  have hl : (List.ofFn f).length = N := List.length_ofFn
  have e1 : pol N f = interp (List.ofFn f) := by
    apply interp_unique (by rw [hl]; exact hF) (by rw [hl]; exact pol_degree hF f)
    intro i hi
    have hi' : i < N := by rwa [hl] at hi
    rw [List.getD_eq_getElem _ _ hi, List.getElem_ofFn]
    exact pol_eval hF f ⟨i, hi'⟩
  have e2 : lin (List.ofFn f) (bAt N t) = (interp (List.ofFn f)).eval t := by
    have : bAt N t = (List.range (List.ofFn f).length).map fun i =>
        (baryWeight F i N * (t - (i : F)))⁻¹ * ∏ k ∈ Finset.range N, (t - (k : F)) := by rw [hl]; rfl
    rw [this, lin_range_eq, interp, Lagrange.eval_interpolate_not_at_node _ (fun i hi => ht i (by simpa using hi)),
      Lagrange.eval_nodal, Finset.mul_sum]
    apply Finset.sum_congr rfl
    intro i hi
    rw [hl, ← baryWeight_inv, mul_inv]
    ring
  rw [e1, ← e2, lin_eq_sum hl (by simp [bAt]), Finset.sum_range]
  apply Finset.sum_congr rfl
  intro i _
  rw [List.getD_eq_getElem (List.ofFn f) _ (by rw [hl]; exact i.2), List.getElem_ofFn]
  rfl

/-- If the relations are trivial, the vectors computed for the combinations evaluate to the combined results. -/
theorem atPoint_extract [DecidableEq G] (hF : Verif.Ipa.Distinct F N) (hN : N = 2 ^ k) (hd : X.Distinct N)
    (hq : ∀ l, ∃ p, p < N ∧ (q l).point = (p : F)) (hm : N + n ≤ m + 1) (hr : ∀ ρ ∈ X.rels q N, ρ = 0) (i : Fin n) :
    (∀ z ∈ points q, (X.atPoint q N i z).2 = 0) ∧ ∀ z ∈ points q, (pol N (X.atPoint q N i z).1).eval z =
      ∑ l : Fin n, if (q l).point = z then X.r i ^ (l : ℕ) * (q l).result else 0 := by
  have hopen : ∀ j, (X.diff q N i j).2 = 0 ∧ (pol N (X.diff q N i j).1).eval (X.t i j) = g2At q (X.r i) (X.t i j) := by
    intro j
    rw [← sum_bAt hF _ (hd.outside i j)]
    apply open_extract hN (by simp [bAt]) (hd.opening i j)
    intro ρ hρ
    apply hr
    simp only [MultiTree.rels, List.mem_append, List.mem_flatMap, List.mem_cons]
    exact Or.inl ⟨i, List.mem_finRange _, j, List.mem_finRange _, Or.inr hρ⟩
  have hdiff : ∀ j, X.diff q N i j = ∑ z ∈ points q, (X.t i j - z)⁻¹ • X.atPoint q N i z - X.quotient q N i := by
    intro j
    rw [← sub_eq_zero]
    apply hr
    simp only [MultiTree.rels, List.mem_append, List.mem_flatMap, List.mem_cons]
    exact Or.inl ⟨i, List.mem_finRange _, j, List.mem_finRange _, Or.inl rfl⟩
  refine ⟨fun z _ => ?_, ?_⟩
  · rw [MultiTree.atPoint, residue, Prod.snd_sum]
    apply Finset.sum_eq_zero
    intro j _
    rw [Prod.smul_snd, (hopen j).1, smul_zero]
  -- the polynomial identity
  let Y : F → F := fun z => ∑ l : Fin n, if (q l).point = z then X.r i ^ (l : ℕ) * (q l).result else 0
  let A : F[X] := ∑ z ∈ points q, (pol N (X.atPoint q N i z).1 - C (Y z)) * ∏ z' ∈ (points q).erase z, (Polynomial.X - C z') -
    pol N (X.quotient q N i).1 * ∏ z' ∈ points q, (Polynomial.X - C z')
  have hN0 : 0 < N := hN ▸ Nat.two_pow_pos k
  have hcard := points_card (q := q)
  have hA : A = 0 := by
    by_contra hA
    have hdeg : A.degree < ((N + (points q).card : ℕ) : WithBot ℕ) := by
      apply lt_of_le_of_lt (degree_sub_le _ _)
      apply max_lt
      · apply lt_of_le_of_lt (degree_sum_le _ _)
        rw [Finset.sup_lt_iff (WithBot.bot_lt_coe _)]
        intro z hz
        by_cases h0 : pol N (X.atPoint q N i z).1 - C (Y z) = 0
        · rw [h0, zero_mul, degree_zero]
          exact WithBot.bot_lt_coe _
        rw [degree_mul, nodal_degree, Finset.card_erase_of_mem hz]
        have h1 : (pol N (X.atPoint q N i z).1 - C (Y z)).degree < (N : WithBot ℕ) :=
          lt_of_le_of_lt (degree_sub_le _ _) (max_lt (pol_degree hF _) (lt_of_le_of_lt degree_C_le (by exact_mod_cast hN0)))
        rw [degree_eq_natDegree h0] at h1 ⊢
        have h2 : (pol N (X.atPoint q N i z).1 - C (Y z)).natDegree < N := by exact_mod_cast h1
        exact_mod_cast (by omega : (pol N (X.atPoint q N i z).1 - C (Y z)).natDegree + ((points q).card - 1) < N + (points q).card)
      · by_cases h0 : pol N (X.quotient q N i).1 = 0
        · rw [h0, zero_mul, degree_zero]
          exact WithBot.bot_lt_coe _
        rw [degree_mul, nodal_degree]
        have h1 := pol_degree hF (X.quotient q N i).1
        rw [degree_eq_natDegree h0] at h1 ⊢
        have h2 : (pol N (X.quotient q N i).1).natDegree < N := by exact_mod_cast h1
        exact_mod_cast (by omega : (pol N (X.quotient q N i).1).natDegree + (points q).card < N + (points q).card)
    apply hA
    apply eq_zero_of_natDegree_lt_card_of_eval_eq_zero (f := X.t i) A (hd.t i)
    · intro j
      have hne : ∀ z ∈ points q, X.t i j - z ≠ 0 := fun z hz => sub_ne_zero.mpr fun h => notin_points hd hq i j (h ▸ hz)
      have e1 : ∀ z ∈ points q, (∏ z' ∈ (points q).erase z, (X.t i j - z')) = (X.t i j - z)⁻¹ * ∏ z' ∈ points q, (X.t i j - z') := by
        intro z hz
        rw [← Finset.mul_prod_erase _ _ hz, inv_mul_cancel_left₀ (hne z hz)]
      have e2 := (hopen j).2
      rw [hdiff j] at e2
      simp only [Prod.fst_sub, Prod.fst_sum, Prod.smul_fst, map_sub, map_sum, map_smul, eval_sub, eval_finsetSum, eval_smul,
        smul_eq_mul] at e2
      have e3 : g2At q (X.r i) (X.t i j) = ∑ z ∈ points q, (X.t i j - z)⁻¹ * Y z := by
        have := sum_points (q := q) (fun z => (X.t i j - z)⁻¹) fun l => X.r i ^ (l : ℕ) * (q l).result
        simp only [smul_eq_mul] at this
        rw [this, g2At]
        simp only [mul_assoc]
      simp only [A, eval_sub, eval_finsetSum, eval_mul, eval_prod, eval_C, eval_X]
      rw [Finset.sum_congr rfl fun z hz => by rw [e1 z hz]]
      have e4 : ∑ z ∈ points q, (eval (X.t i j) (pol N (X.atPoint q N i z).1) - Y z) *
          ((X.t i j - z)⁻¹ * ∏ z' ∈ points q, (X.t i j - z')) =
          (∑ z ∈ points q, (X.t i j - z)⁻¹ * eval (X.t i j) (pol N (X.atPoint q N i z).1) -
            ∑ z ∈ points q, (X.t i j - z)⁻¹ * Y z) * ∏ z' ∈ points q, (X.t i j - z') := by
        rw [← Finset.sum_sub_distrib, Finset.sum_mul]
        apply Finset.sum_congr rfl
        intro z _
        ring
      rw [e4, ← e3, ← e2]
      ring
    · rw [Fintype.card_fin]
      rw [degree_eq_natDegree hA] at hdeg
      have : A.natDegree < N + (points q).card := by exact_mod_cast hdeg
      omega
  intro z hz
  have e := congrArg (eval z) hA
  simp only [A, eval_sub, eval_finsetSum, eval_mul, eval_prod, eval_C, eval_X, eval_zero] at e
  rw [Finset.prod_eq_zero hz (sub_self z), mul_zero, sub_zero, Finset.sum_eq_single z] at e
  · rcases mul_eq_zero.mp e with h | h
    · exact sub_eq_zero.mp h
    · exfalso
      rw [Finset.prod_eq_zero_iff] at h
      obtain ⟨z', hz', h⟩ := h
      exact (Finset.ne_of_mem_erase hz') (sub_eq_zero.mp h).symm
  · intro z' hz' hne
    rw [Finset.prod_eq_zero (Finset.mem_erase.mpr ⟨hne.symm, hz⟩) (sub_self z), mul_zero]
  · intro h
    exact absurd hz h

/-- If the relations are trivial, the vector computed for a query does not involve `Q` and has the claimed result at the
point of the query. -/
theorem vec_extract [DecidableEq G] (hF : Verif.Ipa.Distinct F N) (hN : N = 2 ^ k) (hd : X.Distinct N)
    (hq : ∀ l, ∃ p, p < N ∧ (q l).point = (p : F)) (hm : N + n ≤ m + 1) (hr : ∀ ρ ∈ X.rels q N, ρ = 0) (l : Fin n) :
    (X.vec q N l).2 = 0 ∧ ∀ p : Fin N, (q l).point = ((p : ℕ) : F) → (X.vec q N l).1 p = (q l).result := by
  have hz : (q l).point ∈ points q := Finset.mem_image.mpr ⟨l, Finset.mem_univ _, rfl⟩
  constructor
  · rw [MultiTree.vec, coefAt, Prod.snd_sum]
    apply Finset.sum_eq_zero
    intro i _
    rw [Prod.smul_snd, (atPoint_extract hF hN hd hq hm hr i).1 _ hz, smul_zero]
  · intro p hp
    rw [← pol_eval hF (X.vec q N l).1 p, ← hp]
    have : eval (q l).point (pol N (X.vec q N l).1) =
        coefAt X.r (fun i => eval (q l).point (pol N (X.atPoint q N i (q l).point).1)) l := by
      simp only [MultiTree.vec, coefAt, Prod.fst_sum, Prod.smul_fst, map_sum, map_smul, eval_finsetSum, eval_smul]
    rw [this, coefAt_eq hd.r (c := fun l' => if (q l').point = (q l).point then (q l').result else 0)]
    · simp
    · intro i
      rw [(atPoint_extract hF hN hd hq hm hr i).2 _ hz]
      apply Finset.sum_congr rfl
      intro l' _
      split <;> simp

end

end
end Verif.Ipa
