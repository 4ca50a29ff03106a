import Verif.Props.Ipa
import Verif.Ipa.Multi

/-!
# C30, C31, C32, C35: Lagrange basis and multipoint argument; C18, C20 with the real opening argument
-/

set_option autoImplicit false
set_option linter.unusedSectionVars false

namespace Verif.Props
open Ipa Proof Polynomial

section
variable {F G : Type} [Field F] [DecidableEq F] [AddCommGroup G] [DecidableEq G] [Module F G]

theorem divGo_long {W : Weights F} {f : List F} {y : F} {index : ℕ} : ∀ (is : List ℕ) (acc : F),
    (∃ i ∈ is, i ≠ index ∧ (2 ^ 31 ≤ i ∨ 2 ^ 31 ≤ index)) → ∃ e, divGo W f y index is acc = .error e
  | [], _, h => by obtain ⟨i, hi, _⟩ := h; simp at hi
  | i :: is, acc, h => by
    rw [divGo]
    by_cases he : i = index
    · rw [if_pos he]
      obtain ⟨j, hj, h1, h2⟩ := h
      rcases List.mem_cons.mp hj with rfl | hj
      · exact absurd he h1
      · obtain ⟨e, h3⟩ := divGo_long (W := W) (f := f) (y := y) is acc ⟨j, hj, h1, h2⟩
        exact ⟨e, by rw [h3]; rfl⟩
    rw [if_neg he]
    by_cases hl : 2 ^ 31 ≤ i ∨ 2 ^ 31 ≤ index
    · exact ⟨_, by rw [if_pos hl]⟩
    rw [if_neg hl]
    obtain ⟨j, hj, h1, h2⟩ := h
    rcases List.mem_cons.mp hj with rfl | hj
    · exact absurd h2 hl
    cases h3 : W.invElem (if i < index then index - i else i - index) (decide (i < index)) with
    | error e => exact ⟨e, rfl⟩
    | ok d =>
      cases h4 : idx f i with
      | error e => exact ⟨e, rfl⟩
      | ok fi =>
        cases h5 : W.ratio index i with
        | error e => exact ⟨e, rfl⟩
        | ok w =>
          obtain ⟨e, h6⟩ := divGo_long (W := W) (f := f) (y := y) is (acc - w * ((fi - y) * d)) ⟨j, hj, h1, h2⟩
          exact ⟨e, by simp only [bind, Except.bind, h6]⟩

/-- The bound of `C30_division_exact` is exact: a longer vector makes the division panic, whatever the weights and the index are. -/
theorem C30_long_panics (W : Weights F) {f : List F} (h31 : 2 ^ 31 < f.length) (index : ℕ) : ∃ e, divide W f index = .error e := by
  unfold divide
  cases idx f index with
  | error e => exact ⟨e, rfl⟩
  | ok y =>
    obtain ⟨e, h⟩ := divGo_long (W := W) (f := f) (y := y) (index := index) (List.range f.length) 0 (by
      by_cases hi : index = 2 ^ 31
      · exact ⟨0, by simp; omega, by omega, by omega⟩
      · exact ⟨2 ^ 31, by simpa using h31, fun e => hi e.symm, Or.inl le_rfl⟩)
    exact ⟨e, by simp only [bind, Except.bind, h]⟩

/-- There are such vectors. -/
example : 2 ^ 31 < (List.replicate (2 ^ 31 + 1) (0 : F)).length := by rw [List.length_replicate]; omega

/-- C30.  For evaluations `f` on `0 … n-1` and an index in the domain, the computed vector is the evaluation vector of the
quotient of `f - f(index)` by `X - index`, whose degree is below `n - 1`. -/
theorem C30_division_exact {n : ℕ} (hF : Distinct F n) (hn : 0 < n) (h31 : n ≤ 2 ^ 31) :
    ∃ W, Weights.new F n = .ok W ∧ ∀ (f : List F), f.length = n → ∀ index, (hi : index < f.length) →
      ∃ q, divide W f index = .ok q ∧ q.length = n ∧
        (∀ j, (h1 : j < f.length) → (h2 : j < q.length) → q[j] * ((j : F) - (index : F)) = f[j] - f[index]) ∧
        ∀ P : F[X], P.degree < n → (∀ j, (h : j < f.length) → P.eval (j : F) = f[j]) →
          ∃ Q : F[X], P - C f[index] = (X - C (index : F)) * Q ∧ Q.degree < ((n - 1 : ℕ) : WithBot ℕ) ∧
            ∀ j, (h : j < q.length) → q[j] = Q.eval (j : F) := by
  obtain ⟨W, hW, hg⟩ := new_good hF hn
  refine ⟨W, hW, fun f hf index hi => ?_⟩
  obtain ⟨q, Q, h1, h2, h3, h4, h5⟩ := divide_spec hF hg h31 hf (by omega : index < n)
  have hfi : f.getD index 0 = f[index] := by simp [hi]
  have hfj : ∀ j, (h : j < f.length) → f.getD j 0 = f[j] := fun j h => by simp [h]
  have hqj : ∀ j, (h : j < q.length) → q.getD j 0 = q[j] := fun j h => by simp [h]
  rw [hfi] at h3
  refine ⟨q, h1, h2, fun j hj hj2 => ?_, fun P hP he => ⟨Q, ?_, h4, fun j hj => ?_⟩⟩
  · rw [← hqj j hj2, h5 j (by omega), ← hfj j hj, ← interp_eval (by rw [hf]; exact hF) hj]
    have e := congrArg (eval (j : F)) h3
    simp only [eval_sub, eval_C, eval_mul, eval_X] at e
    rw [e]
    ring
  · have : P = interp f := interp_unique (by rw [hf]; exact hF) (by rw [hf]; exact hP) fun i h => by rw [he i h, hfj i h]
    rw [this, h3]
  · rw [← hqj j hj, h5 j (by omega)]

/-- C31.  For a point outside the domain, the inner product of a vector with the computed Lagrange coefficients (and the
result of `evaluate_outside_domain`) is the value there of the polynomial of degree below `n` interpolating the vector. -/
theorem C31_barycentric {n : ℕ} (hF : Distinct F n) (hn : 0 < n) {z : F} (hz : ∀ i, i < n → z ≠ (i : F)) :
    ∃ W b, Weights.new F n = .ok W ∧ lagrangeCoeffs W n z = .ok b ∧ ∀ (f : List F), f.length = n →
      ∀ P : F[X], P.degree < n → (∀ j, (h : j < f.length) → P.eval (j : F) = f[j]) →
        (List.zipWith (· * ·) f b).sum = P.eval z ∧ evalOutside W f z = .ok (P.eval z) := by
  obtain ⟨W, hW, hg⟩ := new_good hF hn
  obtain ⟨b, hb, _, he⟩ := lagrange_eval hF hg hz
  refine ⟨W, b, hW, hb, fun f hf P hP hPe => ?_⟩
  have : P = interp f := interp_unique (by rw [hf]; exact hF) (by rw [hf]; exact hP) fun i h => by
    rw [hPe i h]
    simp [h]
  rw [this, ← he f hf]
  subst hf
  exact ⟨rfl, by rw [evalOutside_ok hg hz, he f rfl]⟩

/-- C31, the complement: at a point of the domain all computed coefficients are zero, whatever the vector. -/
theorem C31_zero_inside_domain {n : ℕ} (hF : Distinct F n) {i : ℕ} (hi : i < n) :
    ∃ W b, Weights.new F n = .ok W ∧ lagrangeCoeffs W n (i : F) = .ok b ∧ ∀ x ∈ b, x = 0 := by
  obtain ⟨W, hW, hg⟩ := new_good hF (by omega)
  refine ⟨W, _, hW, lagrangeCoeffs_ok hg _, fun x hx => ?_⟩
  simp only [List.mem_map] at hx
  obtain ⟨j, _, rfl⟩ := hx
  rw [Finset.prod_eq_zero (Finset.mem_range.mpr hi) (by simp)]
  simp

variable (O : Oracle F G)

/-- The challenge `t` drawn in an opening of `qs` with commitment `D` to the quotient. -/
def challengeT (t : Transcript) (qs : List (VerifierQuery F G)) (D : G) : F :=
  (challenge O (appendPoint O (absorbQueries O t qs).2 (lbl "D") D) (lbl "t")).1

/-- C32.  Completeness of the multipoint argument: a proof created for any non-empty list of true openings is accepted for the
same commitments, points and values in the same order, whatever the order of the hash map of groups, and both sides end with
the same transcript; unless the challenge `t` falls in the domain. -/
theorem C32_completeness {k : ℕ} (hk : k ≤ 31) {crs : CRS G} (hn : crs.n = 2 ^ k) (hg : crs.gens.length = 2 ^ k)
    (hF : Distinct F crs.n) {W : Weights F} (hW : Weights.new F crs.n = .ok W) {qs : List (ProverQuery F G)} (hne : qs ≠ [])
    (ht : ∀ q ∈ qs, TrueOpening crs q) {order : List ℕ} (ho : IsOrder qs order) {t t' : Transcript} {π : MultiProof F G}
    (h : openMulti O crs W t qs order = .ok (π, t'))
    (htt : ∀ i, i < crs.n → challengeT O t (qs.map ProverQuery.toVerifier) π.gx ≠ (i : F)) :
    checkMulti O π crs W (qs.map ProverQuery.toVerifier) t = .ok (true, t') := by
  have hW' : Good W crs.n := by
    obtain ⟨W', h1, h2⟩ := new_good hF (by rw [hn]; exact Nat.two_pow_pos k)
    rw [hW] at h1
    cases h1
    exact h2
  have hlen : qs.length ≠ 0 := by simpa using hne
  unfold openMulti at h
  unfold checkMulti
  unfold challengeT at htt
  generalize absorbQueries O t (qs.map ProverQuery.toVerifier) = rt at *
  obtain ⟨r, t1⟩ := rt
  simp only [List.length_map] at h htt ⊢
  have hrs := powersOf_length r hlen
  generalize powersOf r qs.length = rs at *
  obtain ⟨quots, gx, hm, hgx, hgl, hcore⟩ := multi_core hF hW' (by rw [hn]; exact Nat.pow_le_pow_right (by norm_num) hk) hne ht ho rs
  rw [hm] at h
  simp only [bind, Except.bind, hgx] at h
  have hD : msm gx crs.gens = .ok (lin gx crs.gens) := by rw [msm, if_pos (by omega)]
  rw [hD] at h
  simp only at h
  have hchal : ∀ tt t2, challenge O (appendPoint O t1 (lbl "D") (lin gx crs.gens)) (lbl "t") = (tt, t2) →
      π.gx = lin gx crs.gens → ∀ i, i < crs.n → tt ≠ (i : F) := by
    intro tt t2 e1 e2 i hi
    have := htt i hi
    rw [e2, e1] at this
    exact this
  cases hc : challenge O (appendPoint O t1 (lbl "D") (lin gx crs.gens)) (lbl "t") with
  | mk tt t2 =>
    rw [hc] at h
    simp only at h
    obtain ⟨g1, hg1, hg1l, hE, hL⟩ := hcore tt
    rw [hg1] at h
    have hEm : msm g1 crs.gens = .ok (lin g1 crs.gens) := by rw [msm, if_pos (by omega)]
    rw [hEm] at h
    simp only at h
    cases hlc : lagrangeCoeffs W crs.n tt with
    | error e => rw [hlc] at h; simp at h
    | ok b0 =>
      rw [hlc] at h
      simp only at h
      cases hcr : create O (appendPoint O t2 (lbl "E") (lin g1 crs.gens)) crs (subPoly g1 gx)
        (lin g1 crs.gens - lin gx crs.gens) b0 tt with
      | error e => rw [hcr] at h; simp at h
      | ok p =>
        rw [hcr] at h
        simp only [Except.ok.injEq, Prod.mk.injEq] at h
        obtain ⟨rfl, rfl⟩ := h
        obtain ⟨b, hb, hbl, hy⟩ := hL (hchal tt t2 hc rfl)
        rw [hlc] at hb
        cases hb
        rw [← lin_subPoly _ (by omega)] at hcr
        have hv := C28_completeness O (k := k) (by omega) hn hg (π := p.1) (t' := p.2) hcr
        have hll : p.1.L.length = p.1.R.length := by
          have hcr' := hcr
          unfold create at hcr'
          simp only at hcr'
          split at hcr'
          · simp at hcr'
          rename_i ha
          split at hcr'
          · simp at hcr'
          rename_i hb
          split at hcr'
          · simp at hcr'
          simp only [ne_eq, not_not, hg] at ha hb
          rw [hg, Nat.clog_pow 2 k (by norm_num)] at hcr'
          obtain ⟨h1, h2, _⟩ := createGo_ok O _ k ha hb hg (π := p.1) (t' := p.2) hcr'
          omega
        rw [← (C29_verifiers_agree_partial O (by rw [hg, hn]) p.1 hll _ hbl _ _ _).1] at hv
        simp only [bind, Except.bind]
        rw [hc]
        simp only
        have hhs : List.zipWith (fun r d => d * r) rs (batchInv ((qs.map ProverQuery.toVerifier).map fun q => tt - q.point)) =
            (qs.zip rs).map fun x => (tt - (x.1.point : F))⁻¹ * x.2 := by
          rw [batchInv, List.map_map, List.map_map]
          clear * -
          induction qs generalizing rs with
          | nil => simp
          | cons q qs ih =>
            cases rs with
            | nil => simp
            | cons r rs => simp [ih rs, ProverQuery.toVerifier]
        have hEv : msm ((qs.zip rs).map fun x => (tt - (x.1.point : F))⁻¹ * x.2)
            ((qs.map ProverQuery.toVerifier).map VerifierQuery.commitment) = .ok (lin g1 crs.gens) := by
          rw [msm, if_pos (by simp [hrs]), hE]
          congr 1
          have : qs.length = rs.length := by rw [hrs]
          clear * - this
          induction qs generalizing rs with
          | nil => simp
          | cons q qs ih =>
            cases rs with
            | nil => simp at this
            | cons r rs =>
              have := ih rs (by simpa using this)
              simp only [List.map_cons, List.zip_cons_cons, lin_cons, List.sum_cons, this]
              rfl
        have hg2 : (List.zipWith (fun h (q : VerifierQuery F G) => h * q.result)
            ((qs.zip rs).map fun x => (tt - (x.1.point : F))⁻¹ * x.2) (qs.map ProverQuery.toVerifier)).sum =
            lin (subPoly g1 gx) b0 := by
          rw [hy]
          have : qs.length = rs.length := by rw [hrs]
          clear * - this
          induction qs generalizing rs with
          | nil => simp
          | cons q qs ih =>
            cases rs with
            | nil => simp at this
            | cons r rs =>
              have := ih rs (by simpa using this)
              simp only [List.map_cons, List.zip_cons_cons, List.zipWith_cons_cons, List.sum_cons, this]
              rfl
        rw [hhs, hEv, hg2]
        simp only [hlc]
        rw [← lin_subPoly _ (by omega)]
        exact hv

/-- C32.  The prover returns a proof for every non-empty list of true openings unless the hash gives a zero challenge or a
challenge in the domain. -/
theorem C32_creation_total {k : ℕ} (hk : k ≤ 31) {crs : CRS G} (hn : crs.n = 2 ^ k) (hg : crs.gens.length = 2 ^ k)
    (hF : Distinct F crs.n) {W : Weights F} (hW : Weights.new F crs.n = .ok W) {qs : List (ProverQuery F G)} (hne : qs ≠ [])
    (ht : ∀ q ∈ qs, TrueOpening crs q) {order : List ℕ} (ho : IsOrder qs order) (t : Transcript) (hH : ∀ s, O.H s ≠ 0) :
    ∃ r, openMulti O crs W t qs order = .ok r := by
  have hW' : Good W crs.n := by
    obtain ⟨W', h1, h2⟩ := new_good hF (by rw [hn]; exact Nat.two_pow_pos k)
    rw [hW] at h1
    cases h1
    exact h2
  unfold openMulti
  generalize absorbQueries O t (qs.map ProverQuery.toVerifier) = rt
  obtain ⟨r, t1⟩ := rt
  simp only
  generalize powersOf r qs.length = rs at *
  obtain ⟨quots, gx, hm, hgx, hgl, hcore⟩ := multi_core hF hW' (by rw [hn]; exact Nat.pow_le_pow_right (by norm_num) hk) hne ht ho rs
  rw [hm]
  simp only [bind, Except.bind, hgx]
  have hD : msm gx crs.gens = .ok (lin gx crs.gens) := by rw [msm, if_pos (by omega)]
  rw [hD]
  simp only
  generalize challenge O (appendPoint O t1 (lbl "D") (lin gx crs.gens)) (lbl "t") = c
  obtain ⟨tt, t2⟩ := c
  simp only
  obtain ⟨g1, hg1, hg1l, -, -⟩ := hcore tt
  rw [hg1]
  have hEm : msm g1 crs.gens = .ok (lin g1 crs.gens) := by rw [msm, if_pos (by omega)]
  rw [hEm, lagrangeCoeffs_ok hW']
  simp only
  obtain ⟨p, hp⟩ := C28_creation_total O hg hH (appendPoint O t2 (lbl "E") (lin g1 crs.gens)) (a := subPoly g1 gx)
    (b := (List.range crs.n).map fun i => (baryWeight F i crs.n * (tt - (i : F)))⁻¹ * ∏ k ∈ Finset.range crs.n, (tt - (k : F)))
    (by simp [subPoly, hg1l, hgl, hn]) (by simp [hn]) (lin g1 crs.gens - lin gx crs.gens) tt
  rw [hp]
  exact ⟨_, rfl⟩

/-- C32.  With no openings at all the prover panics. -/
theorem C32_empty_panics {crs : CRS G} (hg : crs.gens ≠ []) (W : Weights F) (t : Transcript) :
    openMulti O crs W t [] [] = .error "number of bases should equal number of scalars" := by
  unfold openMulti
  simp only [List.map_nil, List.mapM_nil, List.foldl_nil]
  have : msm ([] : List F) crs.gens = .error "number of bases should equal number of scalars" := by
    rw [msm, if_neg]
    intro h
    exact hg (List.length_eq_zero_iff.mp h.symm)
  simp only [pure, Except.pure, bind, Except.bind, List.foldl_nil, this]

/-- C32, the aggregation factors: `powers_of` starts with one, every entry is the one before times `x`, and there are `n` of
them, but one for `n = 0`. -/
theorem C32_powers (x : F) (n : ℕ) : (powersOf x n)[0]? = some 1 ∧
    (∀ i y, (powersOf x n)[i + 1]? = some y → (powersOf x n)[i]?.map (· * x) = some y) ∧
    (powersOf x n).length = if n = 0 then 1 else n := by
  refine ⟨by simp [powersOf], fun i y h => ?_, ?_⟩
  · simp only [powersOf, List.getElem?_map, Option.map_eq_some_iff] at h ⊢
    obtain ⟨j, hj, rfl⟩ := h
    obtain ⟨h1, h2⟩ := List.getElem?_eq_some_iff.1 hj
    simp only [List.length_range, List.getElem_range] at h1 h2
    subst h2
    exact ⟨x ^ i, ⟨i, List.getElem?_range (by omega), rfl⟩, (pow_succ x i).symm⟩
  · simp only [powersOf, List.length_map, List.length_range]
    split <;> omega

/-! ### C35 -/

/-- One query on its own: `r` times its evaluations, the missing ones being zero. -/
def scaled (n : ℕ) (x : ProverQuery F G × F) : List F := (List.range n).map fun j => x.2 * x.1.poly.getD j 0

/-- Entry `j` of the quotient of `f - f p` by `X - p` on the domain. -/
def quotAt (n p : ℕ) (f : ℕ → F) (j : ℕ) : F :=
  if j = p then -∑ i ∈ (Finset.range n).erase p, baryWeight F p n * (baryWeight F i n)⁻¹ * ((f i - f p) * ((i : F) - (p : F))⁻¹)
  else (f j - f p) * ((j : F) - (p : F))⁻¹

theorem quotAt_add (n p : ℕ) (f g : ℕ → F) (j : ℕ) : quotAt n p (fun i => f i + g i) j = quotAt n p f j + quotAt n p g j := by
  unfold quotAt
  split
  · rw [← neg_add, ← Finset.sum_add_distrib]
    congr 1
    apply Finset.sum_congr rfl
    intro i _
    ring
  · ring

theorem quotAt_zero (n p j : ℕ) : quotAt n p (fun _ => (0 : F)) j = 0 := by
  unfold quotAt
  simp

theorem quotAt_sum {α : Type} (n p j : ℕ) (φ : α → ℕ → F) : ∀ l : List α,
    quotAt n p (fun i => (l.map fun x => φ x i).sum) j = (l.map fun x => quotAt n p (φ x) j).sum
  | [] => by simpa using quotAt_zero n p j
  | x :: l => by
    simp only [List.map_cons, List.sum_cons]
    rw [quotAt_add, quotAt_sum n p j φ l]

theorem divide_quotAt {W : Weights F} {n : ℕ} (hW : Good W n) (h31 : n ≤ 2 ^ 31) {f : List F} (hf : f.length = n) {p : ℕ}
    (hp : p < n) : ∃ q, divide W f p = .ok q ∧ q.length = n ∧ ∀ j, j < n → q.getD j 0 = quotAt n p (f.getD · 0) j := by
  obtain ⟨q, h1, h2, h3, h4⟩ := divide_ok hW h31 hf hp
  refine ⟨q, h1, h2, fun j hj => ?_⟩
  unfold quotAt
  split
  · rename_i e
    subst e
    exact h4
  · rename_i e
    exact h3 j hj e

theorem list_ext_getD {n : ℕ} {p q : List F} (hp : p.length = n) (hq : q.length = n)
    (h : ∀ j, j < n → p.getD j 0 = q.getD j 0) : p = q := by
  apply List.ext_getElem (by omega)
  intro i h1 h2
  have := h i (by omega)
  simpa [h1, h2] using this

theorem sumPoly_getD {n : ℕ} {ls : List (List F)} (hne : ls ≠ []) (hl : ∀ l ∈ ls, l.length = n) (j : ℕ) :
    (ls.foldl addPoly []).getD j 0 = (ls.map (·.getD j 0)).sum := by
  rw [← lin_unit, (sumPoly hne hl).2]
  simp only [lin_unit]

/-- C35.  Grouping the queries by point, in whatever order the groups come, gives exactly the quotient and exactly the
aggregated polynomial obtained by treating the queries one by one. -/
theorem C35_grouping {n : ℕ} (hF : Distinct F n) (h31 : n ≤ 2 ^ 31) {W : Weights F} (hW : Weights.new F n = .ok W)
    {qs : List (ProverQuery F G)} (hq : ∀ q ∈ qs, q.poly.length ≤ n ∧ q.point < n) {order : List ℕ} (ho : IsOrder qs order)
    {rs : List F} (hrs : rs.length = qs.length) :
    ∃ quots singles,
      (order.map fun p => (p, aggregate n (group qs rs p))).mapM (fun x => divide W x.2 x.1) = .ok quots ∧
      (qs.zip rs).mapM (fun x => divide W (scaled n x) x.1.point) = .ok singles ∧
      quots.foldl addPoly [] = singles.foldl addPoly [] ∧
      ∀ t : F, ((order.map fun p => (p, aggregate n (group qs rs p))).map fun x =>
          x.2.map ((t - (x.1 : F))⁻¹ * ·)).foldl addPoly [] =
        ((qs.zip rs).map fun x => (scaled n x).map ((t - (x.1.point : F))⁻¹ * ·)).foldl addPoly [] := by
  cases hqs : qs with
  | nil =>
    have : order = [] := by
      rw [List.eq_nil_iff_forall_not_mem]
      intro p hp
      obtain ⟨q, h, _⟩ := (ho.2 p).1 hp
      rw [hqs] at h
      simp at h
    subst this
    refine ⟨[], [], ?_⟩
    simp [pure, Except.pure]
  | cons q0 qs0 =>
  have hne : qs ≠ [] := by simp [hqs]
  rw [← hqs]
  clear hqs
  have hpos : 0 < n := lt_of_le_of_lt (Nat.zero_le _) (hq _ (List.head_mem hne)).2
  have hW' : Good W n := by
    obtain ⟨W', h1, h2⟩ := new_good hF hpos
    rw [hW] at h1
    cases h1
    exact h2
  have hone : order ≠ [] := List.ne_nil_of_mem ((ho.2 _).2 ⟨_, List.head_mem hne, rfl⟩)
  have hzne : qs.zip rs ≠ [] := by
    intro h
    have := congrArg List.length h
    simp only [List.length_zip, hrs, min_self, List.length_nil] at this
    exact hne (List.length_eq_zero_iff.mp this)
  have hlt : ∀ p ∈ order, p < n := by
    intro p hp
    obtain ⟨q, h, rfl⟩ := (ho.2 p).mp hp
    exact (hq q h).2
  have hal : ∀ p, (aggregate n (group qs rs p)).length = n :=
    fun p => aggregate_length fun x hx => (hq _ (mem_group hx).1).1
  have hag : ∀ p j, (aggregate n (group qs rs p)).getD j 0 = ((group qs rs p).map fun x => x.2 * x.1.poly.getD j 0).sum := by
    intro p j
    rw [← lin_unit, aggregate_lin fun x hx => (hq _ (mem_group hx).1).1]
    simp only [lin_unit, smul_eq_mul]
  have hsl : ∀ x : ProverQuery F G × F, (scaled n x).length = n := fun x => by simp [scaled]
  have hsg : ∀ (x : ProverQuery F G × F) j, j < n → (scaled n x).getD j 0 = x.2 * x.1.poly.getD j 0 := by
    intro x j hj
    simp [scaled, hj]
  have hzp : ∀ x ∈ qs.zip rs, x.1 ∈ qs := fun x hx => (List.of_mem_zip hx).1
  have h1 : ∀ p : ℕ, ∃ q : List F, p ∈ order → divide W (aggregate n (group qs rs p)) p = .ok q ∧ q.length = n ∧
      ∀ j, j < n → q.getD j 0 = quotAt n p ((aggregate n (group qs rs p)).getD · 0) j := by
    intro p
    by_cases hp : p ∈ order
    · obtain ⟨q, h⟩ := divide_quotAt hW' h31 (hal p) (hlt p hp)
      exact ⟨q, fun _ => h⟩
    · exact ⟨[], fun h => absurd h hp⟩
  choose qf hqf using h1
  have h2 : ∀ x : ProverQuery F G × F, ∃ q : List F, x ∈ qs.zip rs → divide W (scaled n x) x.1.point = .ok q ∧ q.length = n ∧
      ∀ j, j < n → q.getD j 0 = quotAt n x.1.point ((scaled n x).getD · 0) j := by
    intro x
    by_cases hx : x ∈ qs.zip rs
    · obtain ⟨q, h⟩ := divide_quotAt hW' h31 (hsl x) (hq _ (hzp x hx)).2
      exact ⟨q, fun _ => h⟩
    · exact ⟨[], fun h => absurd h hx⟩
  choose sf hsf using h2
  have quotAt_congr : ∀ p j (f g : ℕ → F), p < n → j < n → (∀ i, i < n → f i = g i) → quotAt n p f j = quotAt n p g j := by
    intro p j f g hp hj h
    unfold quotAt
    rw [h p hp, h j hj]
    split
    · congr 1
      apply Finset.sum_congr rfl
      intro i hi
      rw [h i (Finset.mem_range.mp (Finset.mem_of_mem_erase hi))]
    · rfl
  have hql : ∀ l ∈ order.map qf, l.length = n := by
    intro l hl
    obtain ⟨p, hp, rfl⟩ := List.mem_map.1 hl
    exact (hqf p hp).2.1
  have hsl' : ∀ l ∈ (qs.zip rs).map sf, l.length = n := by
    intro l hl
    obtain ⟨p, hp, rfl⟩ := List.mem_map.1 hl
    exact (hsf p hp).2.1
  have hmem : ∀ x ∈ qs.zip rs, x.1.point ∈ order := fun x hx => (ho.2 _).2 ⟨x.1, hzp x hx, rfl⟩
  refine ⟨order.map qf, (qs.zip rs).map sf, ?_, ?_, ?_, ?_⟩
  · rw [Ipa.mapM_ok (g := fun x : ℕ × List F => qf x.1)]
    · simp [Function.comp_def]
    · intro x hx
      obtain ⟨p, hp, rfl⟩ := List.mem_map.1 hx
      exact (hqf p hp).1
  · exact Ipa.mapM_ok fun x hx => (hsf x hx).1
  · apply list_ext_getD (sumPoly (by simpa using hone) hql).1 (sumPoly (by simpa using hzne) hsl').1
    intro j hj
    rw [sumPoly_getD (by simpa using hone) hql, sumPoly_getD (by simpa using hzne) hsl', List.map_map, List.map_map]
    rw [← sum_groups (fun x : ProverQuery F G × F => x.1.point) _ ho.1 _ hmem]
    congr 1
    apply List.map_congr_left
    intro p hp
    simp only [Function.comp_apply]
    rw [(hqf p hp).2.2 j hj, funext (hag p), quotAt_sum]
    change ((group qs rs p).map _).sum = ((group qs rs p).map _).sum
    congr 1
    apply List.map_congr_left
    intro x hx
    have hx' : x ∈ qs.zip rs := (List.mem_filter.1 hx).1
    rw [Function.comp_apply, (hsf x hx').2.2 j hj, (mem_group hx).2]
    exact quotAt_congr p j _ _ (hlt p hp) hj fun i hi => (hsg x i hi).symm
  · intro t
    have hl1 : ∀ l ∈ ((order.map fun p => (p, aggregate n (group qs rs p))).map fun x =>
          x.2.map ((t - (x.1 : F))⁻¹ * ·)), l.length = n := by
      intro l hl
      simp only [List.map_map, List.mem_map, Function.comp_apply] at hl
      obtain ⟨p, _, rfl⟩ := hl
      rw [List.length_map, hal]
    have hl2 : ∀ l ∈ ((qs.zip rs).map fun x => (scaled n x).map ((t - (x.1.point : F))⁻¹ * ·)), l.length = n := by
      intro l hl
      obtain ⟨x, _, rfl⟩ := List.mem_map.1 hl
      rw [List.length_map, hsl]
    have hgm : ∀ (c : F) (l : List F) (j : ℕ), (l.map (c * ·)).getD j 0 = c * l.getD j 0 := by
      intro c l j
      simp only [List.getD_eq_getElem?_getD, List.getElem?_map]
      cases l[j]? <;> simp
    apply list_ext_getD (sumPoly (by simpa using hone) hl1).1 (sumPoly (by simpa using hzne) hl2).1
    intro j hj
    rw [sumPoly_getD (by simpa using hone) hl1, sumPoly_getD (by simpa using hzne) hl2, List.map_map, List.map_map, List.map_map]
    rw [← sum_groups (fun x : ProverQuery F G × F => x.1.point) _ ho.1 _ hmem]
    congr 1
    apply List.map_congr_left
    intro p hp
    simp only [Function.comp_apply]
    rw [hgm, hag, ← List.sum_map_mul_left]
    change ((group qs rs p).map _).sum = ((group qs rs p).map _).sum
    congr 1
    apply List.map_congr_left
    intro x hx
    rw [Function.comp_apply, hgm, hsg x j hj, (mem_group hx).2]

/-- C35.  The proof does not depend on the iteration order of the hash map of groups. -/
theorem C35_order_irrelevant {crs : CRS G} (hF : Distinct F crs.n) (h31 : crs.n ≤ 2 ^ 31) {W : Weights F}
    (hW : Weights.new F crs.n = .ok W) {qs : List (ProverQuery F G)} (hq : ∀ q ∈ qs, q.poly.length ≤ crs.n ∧ q.point < crs.n)
    {order order' : List ℕ} (ho : IsOrder qs order) (ho' : IsOrder qs order') (t : Transcript) :
    openMulti O crs W t qs order = openMulti O crs W t qs order' := by
  by_cases hne : qs = []
  · subst hne
    have : ∀ {o : List ℕ}, IsOrder ([] : List (ProverQuery F G)) o → o = [] := by
      intro o h
      rw [List.eq_nil_iff_forall_not_mem]
      intro p hp
      obtain ⟨q, h, _⟩ := (h.2 p).1 hp
      simp at h
    rw [this ho, this ho']
  unfold openMulti
  generalize absorbQueries O t (qs.map ProverQuery.toVerifier) = rt
  obtain ⟨r, t1⟩ := rt
  simp only
  have hrs := powersOf_length r (n := qs.length) (by simpa using hne)
  generalize powersOf r qs.length = rs at *
  obtain ⟨a1, s1, h1, h2, h3, h4⟩ := C35_grouping hF h31 hW hq ho hrs
  obtain ⟨a2, s2, h1', h2', h3', h4'⟩ := C35_grouping hF h31 hW hq ho' hrs
  rw [h2] at h2'
  cases h2'
  simp only [h1, h1', bind, Except.bind, h3, h3', h4, h4']

/-! ### C18, C20 with the real opening argument -/

omit [DecidableEq F] [DecidableEq G] in
theorem sum_getD_range : ∀ (l : List F) (g : ℕ → G) (n : ℕ), l.length ≤ n →
    (List.zipWith (· • ·) l ((List.range n).map g)).sum = ∑ i ∈ Finset.range n, l.getD i 0 • g i
  | [], g, n, _ => by simp
  | x :: l, g, 0, h => by simp at h
  | x :: l, g, n + 1, h => by
    rw [List.range_succ_eq_map, List.map_cons, List.map_map, List.zipWith_cons_cons, List.sum_cons,
      sum_getD_range l (g ∘ Nat.succ) n (by simpa using h), Finset.sum_range_succ']
    simp [add_comm]

omit [DecidableEq F] [DecidableEq G] in
theorem TrueQuery.opening {C : Crypto F G} {q : ProverQuery F G} (h : TrueQuery C q) (Q : G) : TrueOpening (crsOf C Q) q := by
  refine ⟨h.len, h.point, ?_, h.result⟩
  rw [h.comm]
  simp only [crsOf]
  rw [sum_getD_range _ _ _ h.len, Spec.commit, Finset.sum_range]

/-- C18 with the real opening argument: a proof is returned unless the hash gives a zero challenge. -/
theorem C18_real_opener (C : Crypto F G) (Q : G) {order : List (ProverQuery F G) → List ℕ} (ho : ∀ qs, IsOrder qs (order qs))
    (hF : Distinct F 256) (hH : ∀ s, O.H s ≠ 0) (l : List (Key × Value)) {db : MemoryDb F G} (hb : build C l = .ok db)
    {keys : List Key} (hk : keys ≠ []) : ∃ p, createVerkleProof (multiOpener O C Q order) db keys = .ok (.ok p) := by
  refine (C18_creation_total C (multiOpener O C Q order) l hb fun qs hne ht => ?_).2 keys hk
  obtain ⟨W, hW, _⟩ := new_good hF (by norm_num)
  obtain ⟨r, hr⟩ := C32_creation_total O (k := 8) (by norm_num) (crs := crsOf C Q) rfl (by simp [crsOf]) hF hW hne
    (fun q hq => (ht q hq).opening Q) (ho qs) (newTranscript (lbl "vt")) hH
  refine ⟨r.1, ?_⟩
  simp only [multiOpener, hW, bind, Except.bind, hr]

/-- C20 with the real opening argument, for every hash: a proof that was created, and whose challenge `t` fell outside the
domain, is accepted with the values returned by `get` if the opened nodes are `Separated`, and checking it panics otherwise. -/
theorem C20_real_opener_partial (C : Crypto F G) (Q : G) {order : List (ProverQuery F G) → List ℕ}
    (ho : ∀ qs, IsOrder qs (order qs)) (hF : Distinct F 256) (l : List (Key × Value)) {db : MemoryDb F G}
    (hb : build C l = .ok db) {keys : List Key} (hk : keys ≠ []) {root : G} (hr : Trie.rootCommitment db = .ok root)
    {p : VerkleProof G (MultiProof F G)} (hp : createVerkleProof (multiOpener O C Q order) db keys = .ok (.ok p))
    (htt : ∀ qs hint, createProverQueries db keys = .ok (qs, hint) → ∀ i : ℕ, i < 256 →
      challengeT O (lbl "vt") (qs.map ProverQuery.toVerifier) p.proof.gx ≠ (i : F)) :
    (Separated C (lastWrite l) (· ∈ keys) →
      ∃ uh, check C (multiOpener O C Q order) p keys (keys.map (Trie.get db)) root = .ok (true, some uh)) ∧
    (¬ Separated C (lastWrite l) (· ∈ keys) → check C (multiOpener O C Q order) p keys (keys.map (Trie.get db)) root =
      .error "assert commitments.len() == all_paths.len()") := by
  obtain ⟨q, qs, hint, h1, h2, ht, h3, h4⟩ := honest_run C l hb hk hr
  have htt := htt _ _ h1
  obtain ⟨W, hW, _⟩ := new_good hF (by norm_num)
  simp only [createVerkleProof, if_neg hk, h1, bind, Except.bind, multiOpener, hW] at hp
  cases ho' : openMulti O (crsOf C Q) W (newTranscript (lbl "vt")) (q :: qs) (order (q :: qs)) with
  | error e => rw [ho'] at hp; simp at hp
  | ok r =>
    rw [ho'] at hp
    simp only [Except.ok.injEq] at hp
    subst hp
    have hc := C32_completeness O (k := 8) (by norm_num) (crs := crsOf C Q) rfl (by simp [crsOf]) hF hW (by simp)
      (fun q hq => (ht q hq).opening Q) (ho _) (π := r.1) (t' := r.2) ho' htt
    subst h2
    refine ⟨fun h => ?_, fun h => ?_⟩
    · obtain ⟨uh, h5, _⟩ := h3 h
      refine ⟨uh, ?_⟩
      simp only [check, h5, bind, Except.bind, multiOpener, hW, hc]
    · simp only [check, h4 h, bind, Except.bind]

/-- The opening argument is complete when the hash avoids the domain. -/
theorem multiOpener_complete (C : Crypto F G) (Q : G) {order : List (ProverQuery F G) → List ℕ}
    (ho : ∀ qs, IsOrder qs (order qs)) (hF : Distinct F 256) (hH : ∀ s i, i < 256 → O.H s ≠ ((i : ℕ) : F)) :
    CompleteOpener C (multiOpener O C Q order) := by
  intro qs hne ht
  obtain ⟨W, hW, _⟩ := new_good hF (by norm_num)
  obtain ⟨r, hr⟩ := C32_creation_total O (k := 8) (by norm_num) (crs := crsOf C Q) rfl (by simp [crsOf]) hF hW hne
    (fun q hq => (ht q hq).opening Q) (ho qs) (newTranscript (lbl "vt")) fun s => by simpa using hH s 0 (by norm_num)
  have hc := C32_completeness O (k := 8) (by norm_num) (crs := crsOf C Q) rfl (by simp [crsOf]) hF hW hne
      (fun q hq => (ht q hq).opening Q) (ho _) (π := r.1) (t' := r.2) hr fun i hi => hH _ i hi
  exact ⟨r.1, by simp only [multiOpener, hW, bind, Except.bind, hr], by simp only [multiOpener, hW, bind, Except.bind, hc]⟩

end

/-! ### Concrete cases -/

theorem toy_distinct {n : ℕ} (hn : n ≤ 101) : Distinct (ZMod 101) n := by
  intro i j hi hj h
  have := (ZMod.natCast_eq_natCast_iff' _ _ _).mp h
  rwa [Nat.mod_eq_of_lt (by omega), Nat.mod_eq_of_lt (by omega)] at this

/-- Hypotheses of `C30_division_exact`, `C31_barycentric` and `C31_zero_inside_domain`. -/
example : Distinct (ZMod 101) 4 ∧ (∀ i : ℕ, i < 4 → (50 : ZMod 101) ≠ (i : ZMod 101)) := by
  refine ⟨toy_distinct (by norm_num), ?_⟩
  intro i hi
  interval_cases i <;> decide

/-- Three true openings, two at the same point, one with a short vector. -/
def toyQueries : List (ProverQuery (ZMod 101) (ZMod 101)) :=
  [⟨4 + 18 + 15, [4, 9, 0, 3], 1, 9⟩, ⟨7 + 14, [7, 7], 3, 0⟩, ⟨6 + 10, [0, 3, 0, 2], 1, 3⟩]

theorem toyQueries_true : ∀ q ∈ toyQueries, TrueOpening toyCrs q := by
  intro q hq
  simp only [toyQueries, List.mem_cons, List.not_mem_nil, or_false] at hq
  rcases hq with rfl | rfl | rfl <;> exact ⟨by decide, by decide, by decide, by decide⟩

theorem toyQueries_order : IsOrder toyQueries [3, 1] := by
  refine ⟨by decide, fun p => ?_⟩
  simp only [toyQueries, List.mem_cons, List.not_mem_nil, or_false, exists_eq_or_imp, exists_eq_left]
  omega

/-- Hypotheses of `C32_completeness`, `C32_creation_total`, `C35_grouping` and `C35_order_irrelevant`. -/
example : ∃ W r, Weights.new (ZMod 101) 4 = .ok W ∧ openMulti toyOracle toyCrs W [7] toyQueries [3, 1] = .ok r ∧
    (∀ i : ℕ, i < 4 → challengeT toyOracle [7] (toyQueries.map ProverQuery.toVerifier) r.1.gx ≠ (i : ZMod 101)) ∧
    checkMulti toyOracle r.1 toyCrs W (toyQueries.map ProverQuery.toVerifier) [7] = .ok (true, r.2) := by
  obtain ⟨W, hW, _⟩ := new_good (toy_distinct (n := 4) (by norm_num)) (by norm_num)
  obtain ⟨⟨π, t'⟩, hr⟩ := C32_creation_total toyOracle (k := 2) (by norm_num) (crs := toyCrs) rfl rfl
    (toy_distinct (by decide)) hW (by simp [toyQueries]) toyQueries_true toyQueries_order [7] toyOracle_ne_zero
  have ht : ∀ i : ℕ, i < 4 → challengeT toyOracle [7] (toyQueries.map ProverQuery.toVerifier) π.gx ≠ (i : ZMod 101) :=
    fun i hi => toyOracle_ge _ i (by omega)
  exact ⟨W, (π, t'), hW, hr, ht, C32_completeness toyOracle (k := 2) (by norm_num) rfl rfl (toy_distinct (by decide)) hW
    (by simp [toyQueries]) toyQueries_true toyQueries_order hr ht⟩

instance : Fact (Nat.Prime 521) := ⟨by decide +kernel⟩

/-- A field with room for the domain. -/
def wide : Crypto (ZMod 521) (ZMod 521) where
  g i := ((i + 1 : ℕ) : ZMod 521)
  h x := x
  h_zero := rfl

/-- Little-endian numbers below 521 and a hash avoiding the domain. -/
def wideOracle : Oracle (ZMod 521) (ZMod 521) where
  K :=
    { encE := fun x => Wire.leBytes 32 x.val
      decE := fun bs => if leNat bs < 521 then some (leNat bs : ZMod 521) else none
      encS := fun x => Wire.leBytes 32 x.val
      decS := fun bs => if leNat bs < 521 then some (leNat bs : ZMod 521) else none
      encE_len := fun x => Wire.leBytes_length 32 _
      encS_len := fun x => Wire.leBytes_length 32 _
      dec_encE := fun x => by
        have h : leNat (Wire.leBytes 32 x.val) = x.val := by
          rw [Wire.leNat_leBytes]
          exact Nat.mod_eq_of_lt (lt_of_lt_of_le (ZMod.val_lt x) (by norm_num))
        simp only [h, if_pos (ZMod.val_lt x), ZMod.natCast_val, ZMod.cast_id', id]
      dec_encS := fun x => by
        have h : leNat (Wire.leBytes 32 x.val) = x.val := by
          rw [Wire.leNat_leBytes]
          exact Nat.mod_eq_of_lt (lt_of_lt_of_le (ZMod.val_lt x) (by norm_num))
        simp only [h, if_pos (ZMod.val_lt x), ZMod.natCast_val, ZMod.cast_id', id] }
  H s := ((leNat s % 265 + 256 : ℕ) : ZMod 521)

theorem wide_distinct : Distinct (ZMod 521) 256 := by
  intro i j hi hj h
  have := (ZMod.natCast_eq_natCast_iff' _ _ _).mp h
  rwa [Nat.mod_eq_of_lt (by omega), Nat.mod_eq_of_lt (by omega)] at this

theorem wideOracle_avoids (s : List Byte) (i : ℕ) (hi : i < 256) : wideOracle.H s ≠ (i : ZMod 521) := by
  intro h
  have := (ZMod.natCast_eq_natCast_iff' _ _ _).mp h
  have h1 := Nat.mod_lt (leNat s) (show 0 < 265 by norm_num)
  rw [Nat.mod_eq_of_lt (by omega), Nat.mod_eq_of_lt (by omega)] at this
  omega

/-- The order of first appearance. -/
def anyOrder {F G : Type} (qs : List (ProverQuery F G)) : List ℕ := (qs.map ProverQuery.point).dedup

theorem anyOrder_isOrder {F G : Type} (qs : List (ProverQuery F G)) : IsOrder qs (anyOrder qs) :=
  ⟨List.nodup_dedup _, fun p => by simp [anyOrder]⟩

/-- The verdict of a run with `wide`. -/
def wideRun (l : List (Key × Value)) (ks : List Key) : Option Bool :=
  match (do
    let db ← build wide l
    let root ← Trie.rootCommitment db
    match ← createVerkleProof (yesOpener _ _) db ks with
    | .error _ => .error "no proof"
    | .ok p =>
      let r ← check wide (yesOpener _ _) p ks (ks.map (Trie.get db)) root
      pure r.1 : Res Bool) with
  | .ok r => some r
  | .error _ => none

theorem wideRun_demo : wideRun proofHist proofKeys = some true := by decide +kernel

theorem wide_separated : Separated wide (lastWrite proofHist) (· ∈ proofKeys) := by
  by_contra h
  have hb := build_eq wide proofHist
  have hr := root_of_build (C := wide) (m := lastWrite proofHist)
  obtain ⟨p, h1, _, h3⟩ := C20_honest_proofs_verify_partial wide _ (yesOpener_complete wide) proofHist hb (keys := proofKeys)
    (by simp [proofKeys]) hr
  have h4 := wideRun_demo
  unfold wideRun at h4
  simp only [hb, hr, bind, Except.bind, h1, h3 h] at h4
  simp at h4

/-- Hypotheses of `C18_real_opener`, `C20_real_opener_partial` and `multiOpener_complete`: seven keys of all four kinds are
proved with the real opening argument and the proof is accepted. -/
example : ∃ db root p uh, build wide proofHist = .ok db ∧ Trie.rootCommitment db = .ok root ∧
    createVerkleProof (multiOpener wideOracle wide 3 anyOrder) db proofKeys = .ok (.ok p) ∧
    check wide (multiOpener wideOracle wide 3 anyOrder) p proofKeys (proofKeys.map (Trie.get db)) root = .ok (true, some uh) := by
  have hb := build_eq wide proofHist
  have hr := root_of_build (C := wide) (m := lastWrite proofHist)
  have hk : proofKeys ≠ [] := by simp [proofKeys]
  obtain ⟨p, hp⟩ := C18_real_opener wideOracle wide 3 anyOrder_isOrder wide_distinct
    (fun s => by simpa using wideOracle_avoids s 0 (by norm_num)) proofHist hb hk
  obtain ⟨uh, h⟩ := (C20_real_opener_partial wideOracle wide 3 anyOrder_isOrder wide_distinct proofHist hb hk hr hp
    fun qs hint _ i hi => by unfold challengeT challenge; exact wideOracle_avoids _ i hi).1 wide_separated
  exact ⟨_, _, p, uh, hb, hr, hp, h⟩

end Verif.Props
