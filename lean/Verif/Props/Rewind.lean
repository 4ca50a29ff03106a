import Verif.Props.Multi
import Verif.Ipa.RewindMulti

/-!
# C55, C56: what an accepted opening proves

Soundness of the inner product argument and of the multipoint argument by rewinding: from accepted runs of the verifier that
share their messages and differ in the challenges, the committed vectors are computed, unless a linear relation between the
generators is computed.  The functions that compute them are in `Verif.Ipa.Rewind` and `Verif.Ipa.RewindMulti`.
-/

set_option autoImplicit false
set_option linter.unusedSectionVars false

namespace Verif.Props
open Ipa Proof

section
variable {F G : Type} [Field F] [DecidableEq F] [AddCommGroup G] [DecidableEq G] [Module F G]

/-- The challenges `w` and `x₁ …` drawn by a verifier of the inner product argument. -/
def drawnIpa (O : Oracle F G) (t : Transcript) (π : IpaProof F G) (comm : G) (z y : F) : F × List F :=
  let (w, t) := absorb O t comm z y
  (w, (genChallenges O π.L π.R t).1)

/-- The challenges `r`, `t`, `w` and `x₁ …` drawn by the verifier of the multipoint argument: `r` after the queries, `t` after
`D`, then those of the inner product argument for `E - D` at `t`. -/
def drawn (O : Oracle F G) (t : Transcript) (π : MultiProof F G) (qs : List (VerifierQuery F G)) : F × F × F × List F :=
  let (r, t) := absorbQueries O t qs
  let (tt, t) := challenge O (appendPoint O t (lbl "D") π.gx) (lbl "t")
  let E := ∑ l : Fin qs.length, ((tt - (qs.get l).point)⁻¹ * r ^ (l : ℕ)) • (qs.get l).commitment
  let y := ∑ l : Fin qs.length, (tt - (qs.get l).point)⁻¹ * r ^ (l : ℕ) * (qs.get l).result
  (r, tt, drawnIpa O (appendPoint O t (lbl "E") E) π.openProof (E - π.gx) tt y)

/-- The equation checked by the verifiers of the inner product argument. -/
def IpaEq (g : List G) (Q : G) (b : List F) (P : G) (xs : List F) (π : IpaProof F G) : Prop :=
  π.a • lin (coef (batchInv xs)) g + (π.a * lin (coef (batchInv xs)) b) • Q = P + lin xs π.L + lin (batchInv xs) π.R

theorem leaves_length : ∀ {k : ℕ} (T : Tree F G k) {p : List F × IpaProof F G}, p ∈ T.leaves →
    p.1.length = k ∧ p.2.L.length = k ∧ p.2.R.length = k
  | _, .leaf a, p, h => by
    simp only [Tree.leaves, List.mem_singleton] at h
    subst h
    simp
  | _, .node L R x sub, p, h => by
    simp only [Tree.leaves, List.mem_flatMap, List.mem_map] at h
    obtain ⟨j, _, p', h', rfl⟩ := h
    obtain ⟨h1, h2, h3⟩ := leaves_length (sub j) h'
    simp [h1, h2, h3]

theorem acc_of_leaves {Q : G} : ∀ {k : ℕ} (T : Tree F G k) {g : List G} {b : List F} {P : G}, g.length = 2 ^ k → b.length = 2 ^ k →
    (∀ p ∈ T.leaves, IpaEq g Q b P p.1 p.2) → T.Acc Q g b P
  | _, .leaf a, [g], [b], P, _, _, h => by
    have := h ([], ⟨[], [], a⟩) (by simp [Tree.leaves])
    simp only [IpaEq, batchInv, List.map_nil, coef, lin_cons, one_smul, lin_nil_left, add_zero] at this
    simp only [Tree.Acc, List.headD_cons]
    rw [← this, smul_add, smul_smul]
  | _, .node (k := k) L R x sub, g, b, P, hg, hb, h => by
    intro j
    apply acc_of_leaves (sub j) (foldG_length _ hg) (by rw [foldS_eq]; exact foldG_length _ hb)
    intro p hp
    have := h (x j :: p.1, ⟨L :: p.2.L, R :: p.2.R, p.2.a⟩) (by
      simp only [Tree.leaves, List.mem_flatMap, List.mem_map]
      exact ⟨j, List.mem_finRange j, p, hp, rfl⟩)
    have hl : (batchInv p.1).length = k := by simp [batchInv, (leaves_length _ hp).1]
    simp only [IpaEq, batchInv, List.map_cons, lin_cons] at this
    simp only [IpaEq, foldS_eq]
    rw [lin_fold _ _ hl hg, lin_fold _ _ hl hb]
    simp only [batchInv]
    rw [this]
    abel

/-- Acceptance is the equation. -/
theorem verify_iff {O : Oracle F G} {k : ℕ} (hk : k < 64) {crs : CRS G} (hn : crs.n = 2 ^ k) (hg : crs.gens.length = 2 ^ k)
    {π : IpaProof F G} (hL : π.L.length = k) (hR : π.R.length = k) (t : Transcript) {b : List F} (hb : b.length = 2 ^ k)
    (comm : G) (z y : F) : (∃ t', verify O π t crs b comm z y = .ok (true, t')) ↔
      IpaEq crs.gens ((drawnIpa O t π comm z y).1 • crs.Q) b (comm + y • (drawnIpa O t π comm z y).1 • crs.Q)
        (drawnIpa O t π comm z y).2 π := by
  unfold verify
  rw [if_neg (by omega), if_neg (by rw [hn, hL]; simp)]
  unfold drawnIpa IpaEq
  generalize absorb O t comm z y = wt
  obtain ⟨w, t1⟩ := wt
  simp only
  have hlen := genChallenges_length O π.L π.R t1
  rw [hL, hR, min_self] at hlen
  generalize genChallenges O π.L π.R t1 = xt at hlen
  obtain ⟨xs, t2⟩ := xt
  simp only at hlen ⊢
  have hi : (batchInv xs).length = k := by simp [batchInv, hlen]
  rw [accumulate_ok _ (by omega) (by omega), foldAll_eq _ (by rw [hi, hg]) (by rw [hi, hb])]
  simp [bind, Except.bind]

theorem verify_eq {O : Oracle F G} {k : ℕ} {crs : CRS G} (hn : crs.n = 2 ^ k) (hg : crs.gens.length = 2 ^ k)
    {π : IpaProof F G} (hL : π.L.length = k) (hR : π.R.length = k) {t t' : Transcript} {b : List F} (hb : b.length = 2 ^ k)
    {comm : G} {z y : F} (h : verify O π t crs b comm z y = .ok (true, t')) :
    IpaEq crs.gens ((drawnIpa O t π comm z y).1 • crs.Q) b (comm + y • (drawnIpa O t π comm z y).1 • crs.Q)
      (drawnIpa O t π comm z y).2 π := by
  by_cases hk : k < 64
  · exact (verify_iff hk hn hg hL hR t hb comm z y).1 ⟨t', h⟩
  · unfold verify at h
    rw [if_pos (by omega)] at h
    simp at h

/-- C55.  Suppose that for a commitment, a vector `b` and a claimed result `y` the verifier of the inner product argument has
accepted all the runs of two trees, whose root challenges `w` differ and whose four challenges at each round differ, none
being zero.  Then either one of the relations computed from the trees is a non-trivial linear relation between the
generators and `Q`, or the vector computed opens the commitment and its inner product with `b` is `y`.  Each run may be made
by any of the three verifiers, with a hash of its own. -/
theorem C55_ipa_sound {k : ℕ} {crs : CRS G} (hn : crs.n = 2 ^ k) (hg : crs.gens.length = 2 ^ k) {b : List F}
    (hb : b.length = 2 ^ k) (comm : G) (z y : F) (w : Fin 2 → F) (T : Fin 2 → Tree F G k)
    (hw : w 0 ≠ w 1) (hw0 : ∀ u, w u ≠ 0) (hT : ∀ u, (T u).Distinct)
    (hacc : ∀ u, ∀ p ∈ (T u).leaves, ∃ (O : Oracle F G) (t t' : Transcript), drawnIpa O t p.2 comm z y = (w u, p.1) ∧
      (verify O p.2 t crs b comm z y = .ok (true, t') ∨ verifyMultiexp O p.2 t crs b comm z y = .ok (true, t') ∨
        verifySemi O p.2 t crs b comm z y = .ok (true, t'))) :
    (∃ ρ ∈ openRels b y w T (2 ^ k), ρ ≠ 0 ∧ ∑ i : Fin (2 ^ k), ρ.1 i • crs.gens.getD i 0 + ρ.2 • crs.Q = 0) ∨
    ∃ v : Fin (2 ^ k) → F, openRep b y w T (2 ^ k) = (v, 0) ∧ ∑ i : Fin (2 ^ k), v i • crs.gens.getD i 0 = comm ∧
      ∑ i : Fin (2 ^ k), v i * b.getD i 0 = y := by
  have hgens : (List.range (2 ^ k)).map (fun i => crs.gens.getD i 0) = crs.gens := by
    apply List.ext_getElem (by simp [hg])
    intro i h1 h2
    rw [List.getElem_map, List.getElem_range, List.getD_eq_getElem _ _ h2]
  have hA : OpenAcc (fun i => crs.gens.getD i 0) crs.Q (2 ^ k) b y w T comm := by
    intro u
    rw [hgens]
    apply acc_of_leaves (T u) hg hb
    intro p hp
    obtain ⟨O, t, t', h1, h2⟩ := hacc u p hp
    obtain ⟨_, l2, l3⟩ := leaves_length (T u) hp
    have hv := C29_verifiers_agree_partial O (crs := crs) (by rw [hg, hn]) p.2 (by rw [l2, l3]) t (b := b) (by rw [hb, hn]) comm z y
    have h2 : verify O p.2 t crs b comm z y = .ok (true, t') := by
      rcases h2 with h | h | h
      · exact h
      · rw [← hv.1, h]
      · rw [← hv.2, h]
    have := verify_eq hn hg l2 l3 hb h2
    rw [h1] at this
    exact this
  have hD : OpenDistinct w T := ⟨hw, hw0, hT⟩
  by_cases hr : ∃ ρ ∈ openRels b y w T (2 ^ k), ρ ≠ 0
  · obtain ⟨ρ, h1, h2⟩ := hr
    exact Or.inl ⟨ρ, h1, h2, openRels_spec hD hA ρ h1⟩
  · right
    push Not at hr
    obtain ⟨h1, h2⟩ := open_extract rfl hb hD hr
    refine ⟨_, Prod.ext rfl h1, ?_, h2⟩
    have := halfRep_spec hD hA 0
    rw [point_apply] at this
    rw [show halfRep b y w T (2 ^ k) 0 = openRep b y w T (2 ^ k) from rfl, h1, zero_smul, add_zero] at this
    exact this

/-- A multipoint proof is checked by the inner product argument for `E - D`. -/
theorem checkMulti_verify {O : Oracle F G} {k : ℕ} {crs : CRS G} (hn : crs.n = 2 ^ k) (hg : crs.gens.length = 2 ^ k) {W : Weights F}
    (hW : Good W crs.n) {π : MultiProof F G} (hL : π.openProof.L.length = k) (hR : π.openProof.R.length = k)
    {qs : List (VerifierQuery F G)} {t : Transcript} {r tt w : F} {xs : List F} (hd : drawn O t π qs = (r, tt, w, xs)) :
    ∃ t2, checkMulti O π crs W qs t = verify O π.openProof t2 crs (bAt crs.n tt) (eAt qs.get r tt - π.gx) tt (g2At qs.get r tt) ∧
      drawnIpa O t2 π.openProof (eAt qs.get r tt - π.gx) tt (g2At qs.get r tt) = (w, xs) := by
  unfold checkMulti
  unfold drawn at hd
  generalize absorbQueries O t qs = rt at hd
  obtain ⟨r', t1⟩ := rt
  simp only at hd ⊢
  generalize challenge O (appendPoint O t1 (lbl "D") π.gx) (lbl "t") = ct at hd
  obtain ⟨tt', t2⟩ := ct
  simp only [Prod.mk.injEq] at hd ⊢
  obtain ⟨rfl, rfl, hd⟩ := hd
  have hhs : List.zipWith (fun r d => d * r) (powersOf r' qs.length) (batchInv (qs.map fun q => tt' - q.point)) =
      List.ofFn fun l : Fin qs.length => (tt' - (qs.get l).point)⁻¹ * r' ^ (l : ℕ) := by
    apply List.ext_getElem (by simp [powersOf, batchInv])
    intro i h1 h2
    simp [batchInv, powersOf]
  rw [hhs]
  have hE : lin (List.ofFn fun l : Fin qs.length => (tt' - (qs.get l).point)⁻¹ * r' ^ (l : ℕ)) (qs.map VerifierQuery.commitment) =
      eAt qs.get r' tt' := by
    rw [lin, eAt, ← List.sum_ofFn]
    congr 1
    apply List.ext_getElem (by simp)
    intro i h1 h2
    simp
  have hy : (List.zipWith (fun h (q : VerifierQuery F G) => h * q.result)
      (List.ofFn fun l : Fin qs.length => (tt' - (qs.get l).point)⁻¹ * r' ^ (l : ℕ)) qs).sum = g2At qs.get r' tt' := by
    rw [g2At, ← List.sum_ofFn]
    congr 1
    apply List.ext_getElem (by simp)
    intro i h1 h2
    simp
  rw [msm, if_pos (by simp), hE, hy, lagrangeCoeffs_ok hW]
  simp only [bind, Except.bind]
  have hbl : (bAt crs.n tt').length = crs.n := by simp [bAt]
  refine ⟨appendPoint O t2 (lbl "E") (eAt qs.get r' tt'), ?_, hd⟩
  rw [← (C29_verifiers_agree_partial O (crs := crs) (by rw [hg, hn]) π.openProof (by rw [hL, hR]) _ hbl _ _ _).1]
  rfl

/-- The runs of a family of conversations are accepted by the code: each run has a hash of its own, which draws the challenges
of the family. -/
def Accepted {m k : ℕ} (crs : CRS G) (W : Weights F) (qs : List (VerifierQuery F G)) (X : MultiTree F G qs.length m k) : Prop :=
  ∀ i j u, ∀ p ∈ (X.ipa i j u).leaves, ∃ (O : Oracle F G) (t t' : Transcript),
    drawn O t ⟨p.2, X.D i⟩ qs = (X.r i, X.t i j, X.w i j u, p.1) ∧ checkMulti O ⟨p.2, X.D i⟩ crs W qs t = .ok (true, t')

/-- C56.  Suppose that for a list of queries at points of the domain the verifier of the multipoint argument has accepted a
family of runs: as many challenges `r` as there are queries, for each the same `D` with `n` more challenges `t` than there
are queries (all outside the domain), for each two non-zero challenges `w`, for each a tree with four non-zero challenges
at each round, all distinct.  Then either one of the relations computed from the family is a non-trivial linear relation
between the generators and `Q`, or the vectors computed open the commitments and have the claimed results at the points, and
the same vector is computed for equal commitments. -/
theorem C56_multipoint_sound {k m : ℕ} {crs : CRS G} (hn : crs.n = 2 ^ k) (hg : crs.gens.length = 2 ^ k) (hF : Distinct F crs.n)
    {W : Weights F} (hW : Weights.new F crs.n = .ok W) {qs : List (VerifierQuery F G)}
    (hq : ∀ q ∈ qs, ∃ p, p < crs.n ∧ q.point = (p : F)) (hm : crs.n + qs.length ≤ m + 1) (X : MultiTree F G qs.length m k)
    (hX : X.Distinct crs.n) (hacc : Accepted crs W qs X) :
    (∃ ρ ∈ X.rels qs.get crs.n, ρ ≠ 0 ∧ ∑ i : Fin crs.n, ρ.1 i • crs.gens.getD i 0 + ρ.2 • crs.Q = 0) ∨
    ∃ v : Fin qs.length → Fin crs.n → F, (∀ l, X.vec qs.get crs.n l = (v l, 0)) ∧
      (∀ l, ∑ i : Fin crs.n, v l i • crs.gens.getD i 0 = (qs.get l).commitment) ∧
      (∀ l (p : Fin crs.n), (qs.get l).point = ((p : ℕ) : F) → v l p = (qs.get l).result) ∧
      ∀ l l', (qs.get l).commitment = (qs.get l').commitment → v l = v l' := by
  have hW' : Good W crs.n := by
    obtain ⟨W', h1, h2⟩ := new_good hF (by rw [hn]; exact Nat.two_pow_pos k)
    rw [hW] at h1
    cases h1
    exact h2
  have hgens : (List.range crs.n).map (fun i => crs.gens.getD i 0) = crs.gens := by
    apply List.ext_getElem (by simp [hg, hn])
    intro i h1 h2
    rw [List.getElem_map, List.getElem_range, List.getD_eq_getElem _ _ h2]
  have hA : X.Acc qs.get (fun i => crs.gens.getD i 0) crs.Q crs.n := by
    intro i j u
    rw [hgens]
    apply acc_of_leaves _ hg (by simp [bAt, hn])
    intro p hp
    obtain ⟨O, t, t', h1, h2⟩ := hacc i j u p hp
    obtain ⟨_, l2, l3⟩ := leaves_length _ hp
    obtain ⟨t2, h3, h4⟩ := checkMulti_verify hn hg hW' (π := ⟨p.2, X.D i⟩) l2 l3 h1
    rw [h2] at h3
    have := verify_eq hn hg l2 l3 (by simp [bAt, hn]) h3.symm
    rw [h4] at this
    exact this
  have hq' : ∀ l, ∃ p, p < crs.n ∧ (qs.get l).point = (p : F) := fun l => hq _ (List.get_mem _ _)
  have hpos : 0 < crs.n := hn ▸ Nat.two_pow_pos k
  by_cases hr : ∃ ρ ∈ X.rels qs.get crs.n, ρ ≠ 0
  · obtain ⟨ρ, h1, h2⟩ := hr
    exact Or.inl ⟨ρ, h1, h2, rels_spec hX hq' (by omega) hA ρ h1⟩
  · right
    push Not at hr
    have hv := fun l => vec_extract hF hn hX hq' hm hr l
    refine ⟨fun l => (X.vec qs.get crs.n l).1, fun l => Prod.ext rfl (hv l).1, fun l => ?_, fun l => (hv l).2, fun l l' h => ?_⟩
    · have := vec_spec hX hq' (by omega) hA l
      rw [point_apply, (hv l).1, zero_smul, add_zero] at this
      exact this
    · have : X.vec qs.get crs.n l - X.vec qs.get crs.n l' = 0 := by
        apply hr
        simp only [MultiTree.rels, List.mem_append, List.mem_flatMap, List.mem_filterMap]
        exact Or.inr ⟨l, List.mem_finRange l, l', List.mem_finRange l', by rw [if_pos h]⟩
      simp only [sub_eq_zero.mp this]

/-! ### Such families exist -/

/-- The entry after `x`. -/
def nextIn : List F → F → F
  | a :: b :: l, x => if a = x then b else nextIn (b :: l) x
  | _, _ => 0

theorem nextIn_append : ∀ (pre : List F) (x y : F) (rest : List F), (pre ++ x :: y :: rest).Nodup →
    nextIn (pre ++ x :: y :: rest) x = y
  | [], x, y, rest, _ => by simp [nextIn]
  | [a], x, y, rest, h => by
    have : a ≠ x := by
      rintro rfl
      simp at h
    simp [nextIn, this]
  | a :: b :: pre, x, y, rest, h => by
    have hne : a ≠ x := by
      rintro rfl
      simp at h
    have ih := nextIn_append (b :: pre) x y rest (List.nodup_cons.mp h).2
    simp only [List.cons_append] at ih ⊢
    rw [nextIn, if_neg hne, ih]

/-- A hash that draws the given challenges: it looks at the label and at the previous challenge. -/
def scripted (K : WireCodec F G) (r t w : F) (xs : List F) : Oracle F G where
  K := K
  H s :=
    if s.getLast? = (lbl "r").getLast? then r
    else if s.getLast? = (lbl "t").getLast? then t
    else if s.getLast? = (lbl "w").getLast? then w
    else if s.head? = (lbl "w").head? then xs.headD 0
    else match K.decS ((s.drop 1).take 32) with
      | some x => nextIn xs x
      | none => 0

section
variable (K : WireCodec F G) (r t w : F) (xs : List F)

theorem scripted_r (s : Transcript) : (challenge (scripted K r t w xs) s (lbl "r")).1 = r := by
  simp only [challenge, scripted, domainSep]
  rw [if_pos]
  rw [List.getLast?_append]
  rfl

theorem scripted_t (s : Transcript) : (challenge (scripted K r t w xs) s (lbl "t")).1 = t := by
  simp only [challenge, scripted, domainSep]
  have : (s ++ lbl "t").getLast? = (lbl "t").getLast? := by
    rw [List.getLast?_append]
    rfl
  rw [this, if_neg (by decide), if_pos rfl]

theorem scripted_w (s : Transcript) : challenge (scripted K r t w xs) s (lbl "w") = (w, lbl "w" ++ K.encS w) := by
  have e : (s ++ lbl "w").getLast? = (lbl "w").getLast? := by
    rw [List.getLast?_append]
    rfl
  have h1 : (challenge (scripted K r t w xs) s (lbl "w")).1 = w := by
    simp only [challenge, scripted, domainSep]
    rw [e, if_neg (by decide), if_neg (by decide), if_pos rfl]
  refine Prod.ext h1 ?_
  show [] ++ lbl "w" ++ K.encS (challenge (scripted K r t w xs) s (lbl "w")).1 = _
  rw [h1]
  simp

theorem scripted_x (s : Transcript) {y : F} (h : (if (s ++ lbl "x").head? = (lbl "w").head? then xs.headD 0
    else match K.decS (((s ++ lbl "x").drop 1).take 32) with
      | some x => nextIn xs x
      | none => 0) = y) : challenge (scripted K r t w xs) s (lbl "x") = (y, lbl "x" ++ K.encS y) := by
  have e : (s ++ lbl "x").getLast? = (lbl "x").getLast? := by
    rw [List.getLast?_append]
    rfl
  have h1 : (challenge (scripted K r t w xs) s (lbl "x")).1 = y := by
    simp only [challenge, scripted, domainSep]
    rw [e, if_neg (by decide), if_neg (by decide), if_neg (by decide), h]
  refine Prod.ext h1 ?_
  show [] ++ lbl "x" ++ K.encS (challenge (scripted K r t w xs) s (lbl "x")).1 = _
  rw [h1]
  simp

theorem scripted_rounds : ∀ (L R : List G) (pre : List F) (x : F) (rest : List F), xs = pre ++ x :: rest → xs.Nodup →
    L.length = rest.length → R.length = rest.length → (genChallenges (scripted K r t w xs) L R (lbl "x" ++ K.encS x)).1 = rest
  | [], _, _, _, rest, _, _, h, _ => by
    simp only [genChallenges]
    exact (List.length_eq_zero_iff.mp h.symm).symm
  | L :: Ls, R :: Rs, pre, x, y :: rest, hx, hnd, h1, h2 => by
    simp only [genChallenges]
    have hc := scripted_x K r t w xs (appendPoint (scripted K r t w xs) (appendPoint (scripted K r t w xs) (lbl "x" ++ K.encS x)
      (lbl "L") L) (lbl "R") R) (y := y) (by
        have hl : lbl "x" = [120] := rfl
        have ha : appendPoint (scripted K r t w xs) (appendPoint (scripted K r t w xs) (lbl "x" ++ K.encS x) (lbl "L") L)
            (lbl "R") R = lbl "x" ++ K.encS x ++ lbl "L" ++ K.encE L ++ lbl "R" ++ K.encE R := rfl
        rw [ha]
        rw [if_neg (by rw [hl]; simp [lbl]; decide)]
        have : ((lbl "x" ++ K.encS x ++ lbl "L" ++ K.encE L ++ lbl "R" ++ K.encE R ++ lbl "x").drop 1).take 32 = K.encS x := by
          rw [hl]
          simp only [List.cons_append, List.nil_append, List.append_assoc, List.drop_succ_cons, List.drop_zero]
          rw [List.take_append_of_le_length (by rw [K.encS_len]), List.take_of_length_le (by rw [K.encS_len])]
        rw [this, K.dec_encS]
        simp only
        rw [hx] at hnd ⊢
        exact nextIn_append pre x y rest hnd)
    rw [hc]
    simp only
    rw [scripted_rounds Ls Rs (pre ++ [x]) y rest (by rw [hx]; simp) hnd (by simpa using h1) (by simpa using h2)]
  | _ :: _, _, _, _, [], _, _, h, _ => by simp at h
  | _ :: _, [], _, _, _ :: _, _, _, _, h => by simp at h

/-- The hash draws the given challenges. -/
theorem scripted_drawnIpa (hnd : xs.Nodup) {π : IpaProof F G} (hL : π.L.length = xs.length) (hR : π.R.length = xs.length)
    (s : Transcript) (comm : G) (z y : F) : drawnIpa (scripted K r t w xs) s π comm z y = (w, xs) := by
  unfold drawnIpa absorb
  simp only
  rw [scripted_w]
  simp only [Prod.mk.injEq, true_and]
  obtain ⟨L, R, a⟩ := π
  simp only at hL hR ⊢
  match xs, L, R, hL, hR with
  | [], [], [], _, _ => rfl
  | x :: rest, L :: Ls, R :: Rs, hL, hR =>
    simp only [genChallenges]
    have hc := scripted_x K r t w (x :: rest) (appendPoint (scripted K r t w (x :: rest)) (appendPoint (scripted K r t w (x :: rest))
      (lbl "w" ++ K.encS w) (lbl "L") L) (lbl "R") R) (y := x) (by
        have ha : appendPoint (scripted K r t w (x :: rest)) (appendPoint (scripted K r t w (x :: rest)) (lbl "w" ++ K.encS w)
            (lbl "L") L) (lbl "R") R = lbl "w" ++ K.encS w ++ lbl "L" ++ K.encE L ++ lbl "R" ++ K.encE R := rfl
        rw [ha, if_pos (by simp [lbl])]
        rfl)
    rw [hc]
    simp only
    rw [scripted_rounds K r t w (x :: rest) Ls Rs [] x rest rfl hnd (by simpa using hL) (by simpa using hR)]

theorem scripted_drawn (hnd : xs.Nodup) {π : MultiProof F G} (hL : π.openProof.L.length = xs.length)
    (hR : π.openProof.R.length = xs.length) (s : Transcript) (qs : List (VerifierQuery F G)) :
    drawn (scripted K r t w xs) s π qs = (r, t, w, xs) := by
  unfold drawn absorbQueries
  have h1 := fun s => scripted_r K r t w xs s
  have h2 := fun s => scripted_t K r t w xs s
  simp only [h1, h2, scripted_drawnIpa K r t w xs hnd hL hR]

end

/-- The tree of an honest prover answering to all the challenges. -/
def honest (Q : G) : (xss : List (Fin 4 → F)) → List F → List F → List G → Tree F G xss.length
  | [], a, _, _ => .leaf (a.headD 0)
  | x :: xss, a, b, g =>
    .node (lin (a.drop (a.length / 2)) (g.take (g.length / 2)) + lin (a.drop (a.length / 2)) (b.take (b.length / 2)) • Q)
      (lin (a.take (a.length / 2)) (g.drop (g.length / 2)) + lin (a.take (a.length / 2)) (b.drop (b.length / 2)) • Q) x
      fun j => honest Q xss (foldS (x j) a) (foldS (x j)⁻¹ b) (foldG (x j)⁻¹ g)

theorem honest_distinct (Q : G) : ∀ (xss : List (Fin 4 → F)) (a b : List F) (g : List G),
    (∀ x ∈ xss, Function.Injective x ∧ ∀ j, x j ≠ 0) → (honest Q xss a b g).Distinct
  | [], _, _, _, _ => trivial
  | x :: xss, a, b, g, h => by
    refine ⟨(h x (by simp)).1, (h x (by simp)).2, fun j => ?_⟩
    exact honest_distinct Q xss _ _ _ fun y hy => h y (List.mem_cons_of_mem _ hy)

theorem honest_acc (Q : G) : ∀ (xss : List (Fin 4 → F)) {a b : List F} {g : List G}, a.length = 2 ^ xss.length →
    b.length = 2 ^ xss.length → g.length = 2 ^ xss.length → (∀ x ∈ xss, ∀ j, x j ≠ 0) →
    ∀ p ∈ (honest Q xss a b g).leaves, IpaEq g Q b (lin a g + lin a b • Q) p.1 p.2
  | [], [a], [b], [g], _, _, _, _, p, hp => by
    simp only [honest, Tree.leaves, List.mem_singleton] at hp
    subst hp
    simp [IpaEq, batchInv, coef]
  | x :: xss, a, b, g, ha, hb, hg, h0, p, hp => by
    simp only [honest, Tree.leaves, List.mem_flatMap, List.mem_map] at hp
    obtain ⟨j, _, p', hp', rfl⟩ := hp
    have ih := honest_acc Q xss (a := foldS (x j) a) (b := foldS (x j)⁻¹ b) (g := foldG (x j)⁻¹ g)
      (foldG_length (x j) ha) (foldG_length (x j)⁻¹ hb) (foldG_length _ hg)
      (fun y hy => h0 y (List.mem_cons_of_mem _ hy)) p' hp'
    have hl : (batchInv p'.1).length = xss.length := by simp [batchInv, (leaves_length _ hp').1]
    have hr := round_identity ha hb hg Q (h0 x (by simp) j)
    simp only [IpaEq, foldS_eq] at ih hr ⊢
    rw [lin_fold _ _ hl hg, lin_fold _ _ hl hb, hr] at ih
    simp only [batchInv, List.map_cons, lin_cons] at ih ⊢
    rw [ih]
    abel

theorem honest_nodup (Q : G) : ∀ (xss : List (Fin 4 → F)) (a b : List F) (g : List G), (xss.flatMap List.ofFn).Nodup →
    ∀ p ∈ (honest Q xss a b g).leaves, p.1.Nodup ∧ ∀ y ∈ p.1, y ∈ xss.flatMap List.ofFn
  | [], _, _, _, _, p, hp => by
    simp only [honest, Tree.leaves, List.mem_singleton] at hp
    subst hp
    simp
  | x :: xss, a, b, g, hnd, p, hp => by
    simp only [honest, Tree.leaves, List.mem_flatMap, List.mem_map] at hp
    obtain ⟨j, _, p', hp', rfl⟩ := hp
    rw [List.flatMap_cons, List.nodup_append] at hnd
    obtain ⟨h1, h2⟩ := honest_nodup Q xss _ _ _ hnd.2.1 p' hp'
    have hj : x j ∈ List.ofFn x := List.mem_ofFn.mpr ⟨j, rfl⟩
    refine ⟨List.nodup_cons.mpr ⟨fun h => hnd.2.2 _ hj _ (h2 _ h) rfl, h1⟩, ?_⟩
    intro y hy
    rw [List.flatMap_cons, List.mem_append]
    rcases List.mem_cons.mp hy with rfl | hy
    · exact Or.inl hj
    · exact Or.inr (h2 y hy)

/-- From the honest tree the prover's vector is computed, and no relation. -/
theorem honest_rep {M : Type} [AddCommGroup M] [Module F M] (q : M) (Q : G) : ∀ (xss : List (Fin 4 → F)) {a b : List F} {e : List M}
    (g : List G), a.length = 2 ^ xss.length → b.length = 2 ^ xss.length → e.length = 2 ^ xss.length →
    (∀ x ∈ xss, Function.Injective x ∧ ∀ j, x j ≠ 0) →
    (honest Q xss a b g).rep q e b = lin a e + lin a b • q ∧ ∀ ρ ∈ (honest Q xss a b g).rels q e b, ρ = 0
  | [], [a], [b], [e], _, _, _, _, _ => by
    simp [honest, Tree.rep, Tree.rels, mul_smul, smul_add]
  | x :: xss, a, b, e, g, ha, hb, he, h => by
    have ih := fun j => honest_rep q Q xss (a := foldS (x j) a) (b := foldS (x j)⁻¹ b) (e := foldG (x j)⁻¹ e) (foldG (x j)⁻¹ g)
      (foldG_length (x j) ha) (foldG_length (x j)⁻¹ hb) (foldG_length _ he) fun y hy => h y (List.mem_cons_of_mem _ hy)
    obtain ⟨h1, h0⟩ := h x (by simp)
    have hr : (fun j => (honest Q xss (foldS (x j) a) (foldS (x j)⁻¹ b) (foldG (x j)⁻¹ g)).rep q (foldG (x j)⁻¹ e) (foldS (x j)⁻¹ b)) =
        fun j => x j • (lin (a.drop (a.length / 2)) (e.take (e.length / 2)) + lin (a.drop (a.length / 2)) (b.take (b.length / 2)) • q) +
          (lin a e + lin a b • q) +
          (x j)⁻¹ • (lin (a.take (a.length / 2)) (e.drop (e.length / 2)) + lin (a.take (a.length / 2)) (b.drop (b.length / 2)) • q) := by
      funext j
      rw [(ih j).1, round_identity ha hb he q (h0 j)]
      abel
    constructor
    · simp only [honest, Tree.rep]
      rw [hr, mid_eq h1 h0]
    · intro ρ hρ
      simp only [honest, Tree.rels, List.mem_cons, List.mem_flatMap] at hρ
      rcases hρ with rfl | ⟨j, _, hj⟩
      · rw [hr, off_eq h1 h0]
      · exact (ih j).2 ρ hj

/-- The hypotheses of `C55_ipa_sound` hold for all vectors and all challenges: the honest prover's answers form such trees, and
then the vector computed is the prover's and all the relations computed are trivial. -/
theorem C55_families_exist {crs : CRS G} {xss : List (Fin 4 → F)} (hk : xss.length < 64) (hn : crs.n = 2 ^ xss.length)
    (hg : crs.gens.length = 2 ^ xss.length) {a b : List F} (ha : a.length = 2 ^ xss.length) (hb : b.length = 2 ^ xss.length) (z : F)
    (w : Fin 2 → F) (hx : (xss.flatMap List.ofFn).Nodup) (hx0 : ∀ x ∈ xss, ∀ j, x j ≠ 0) (K : WireCodec F G) :
    ∃ T : Fin 2 → Tree F G xss.length, (∀ u, (T u).Distinct) ∧
      openRep b (lin a b) w T (2 ^ xss.length) = ((fun i => a.getD i 0, 0) : Vec F (2 ^ xss.length)) ∧ (∀ ρ ∈ openRels b (lin a b) w T (2 ^ xss.length), ρ = 0) ∧
      ∀ u, ∀ p ∈ (T u).leaves, ∃ (O : Oracle F G) (t t' : Transcript), O.K = K ∧
      drawnIpa O t p.2 (lin a crs.gens) z (lin a b) = (w u, p.1) ∧
      verify O p.2 t crs b (lin a crs.gens) z (lin a b) = .ok (true, t') := by
  have hx' : ∀ x ∈ xss, Function.Injective x ∧ ∀ j, x j ≠ 0 := fun x hxm =>
    ⟨List.nodup_ofFn.mp ((List.nodup_flatMap.mp hx).1 x hxm), hx0 x hxm⟩
  have hrep := fun u => honest_rep (w u • vecQ F (2 ^ xss.length)) (w u • crs.Q) xss crs.gens ha hb
    (vecE_length (F := F) (2 ^ xss.length)) hx'
  have hhalf : ∀ u, halfRep b (lin a b) w (fun u => honest (w u • crs.Q) xss a b crs.gens) (2 ^ xss.length) u =
      ((fun i => a.getD i 0, 0) : Vec F (2 ^ xss.length)) := by
    intro u
    rw [halfRep, (hrep u).1, lin_vecE ha, smul_smul, add_sub_cancel_right]
  refine ⟨fun u => honest (w u • crs.Q) xss a b crs.gens, fun u => honest_distinct _ _ _ _ _ hx', hhalf 0, ?_, fun u p hp => ?_⟩
  · intro ρ hρ
    simp only [openRels, List.mem_cons, List.mem_append] at hρ
    rcases hρ with rfl | h | h
    · rw [hhalf 0, hhalf 1, sub_self]
    · exact (hrep 0).2 ρ h
    · exact (hrep 1).2 ρ h
  · obtain ⟨l1, l2, l3⟩ := leaves_length _ hp
    have hnd := (honest_nodup _ xss _ _ _ hx p hp).1
    have hd := scripted_drawnIpa K 0 0 (w u) p.1 hnd (π := p.2) (by rw [l1]; exact l2) (by rw [l1]; exact l3) [] (lin a crs.gens) z (lin a b)
    have hacc := honest_acc (w u • crs.Q) xss ha hb hg hx0 p hp
    have hv := (verify_iff (O := scripted K 0 0 (w u) p.1) hk hn hg l2 l3 [] hb (lin a crs.gens) z (lin a b)).2 (by rw [hd]; exact hacc)
    obtain ⟨t', hv⟩ := hv
    exact ⟨_, [], t', rfl, hd, hv⟩

/-- The hypotheses of `C56_multipoint_sound` hold for all true openings and all challenges: the honest prover's answers form
such a family, for every codec and every initial transcript. -/
theorem C56_families_exist {m : ℕ} {crs : CRS G} {xss : List (Fin 4 → F)} (hk : xss.length ≤ 31) (hn : crs.n = 2 ^ xss.length)
    (hg : crs.gens.length = 2 ^ xss.length) (hF : Distinct F crs.n) {W : Weights F} (hW : Weights.new F crs.n = .ok W)
    {qs : List (ProverQuery F G)} (hne : qs ≠ []) (ht : ∀ q ∈ qs, TrueOpening crs q)
    (r : Fin (qs.map ProverQuery.toVerifier).length → F) (hr : Function.Injective r) (tt : Fin (m + 1) → F)
    (htt : Function.Injective tt) (hout : ∀ j p, p < crs.n → tt j ≠ (p : F)) (w : Fin 2 → F) (hw : w 0 ≠ w 1) (hw0 : ∀ u, w u ≠ 0)
    (hx : (xss.flatMap List.ofFn).Nodup) (hx0 : ∀ x ∈ xss, ∀ j, x j ≠ 0) (K : WireCodec F G) (t : Transcript) :
    ∃ X : MultiTree F G (qs.map ProverQuery.toVerifier).length m xss.length, X.Distinct crs.n ∧
      (∀ i j u, X.r i = r i ∧ X.t i j = tt j ∧ X.w i j u = w u) ∧
      ∀ i j u, ∀ p ∈ (X.ipa i j u).leaves, ∃ (O : Oracle F G) (t' : Transcript), O.K = K ∧
        drawn O t ⟨p.2, X.D i⟩ (qs.map ProverQuery.toVerifier) = (X.r i, X.t i j, X.w i j u, p.1) ∧
        checkMulti O ⟨p.2, X.D i⟩ crs W (qs.map ProverQuery.toVerifier) t = .ok (true, t') := by
  have hW' : Good W crs.n := by
    obtain ⟨W', h1, h2⟩ := new_good hF (by rw [hn]; exact Nat.two_pow_pos _)
    rw [hW] at h1
    cases h1
    exact h2
  have hlen : qs.length ≠ 0 := by simpa using hne
  have ho : IsOrder qs ((qs.map ProverQuery.point).dedup) := ⟨List.nodup_dedup _, fun p => by simp⟩
  have hcore := fun i => multi_core hF hW' (by rw [hn]; exact Nat.pow_le_pow_right (by norm_num) hk) hne ht ho
    (powersOf (r i) qs.length)
  choose quots gx _ _ hgl hcore using hcore
  choose g1 _ hg1l hE hL using hcore
  have hlens : (qs.map ProverQuery.toVerifier).length = qs.length := List.length_map ..
  let X : MultiTree F G (qs.map ProverQuery.toVerifier).length m xss.length :=
    { r := r
      D := fun i => lin (gx i) crs.gens
      t := fun _ => tt
      w := fun _ _ => w
      ipa := fun i j u => honest (w u • crs.Q) xss (subPoly (g1 i (tt j)) (gx i)) (bAt crs.n (tt j)) crs.gens }
  refine ⟨X, ⟨hr, fun _ => htt, fun _ => hout, fun i j => ⟨hw, hw0, fun u => ?_⟩⟩, fun _ _ _ => ⟨rfl, rfl, rfl⟩, ?_⟩
  · apply honest_distinct
    intro x hxm
    refine ⟨?_, hx0 x hxm⟩
    have := (List.nodup_flatMap.mp hx).1 x hxm
    exact List.nodup_ofFn.mp this
  · intro i j u p hp
    obtain ⟨l1, l2, l3⟩ := leaves_length _ hp
    have hnd := (honest_nodup _ xss _ _ _ hx p hp).1
    have hd := scripted_drawn K (r i) (tt j) (w u) p.1 hnd (π := ⟨p.2, X.D i⟩) (by rw [l1]; exact l2) (by rw [l1]; exact l3) t
      (qs.map ProverQuery.toVerifier)
    refine ⟨scripted K (r i) (tt j) (w u) p.1, ?_⟩
    obtain ⟨t2, h3, h4⟩ := checkMulti_verify hn hg hW' (π := ⟨p.2, X.D i⟩) l2 l3 hd
    have hsl : (subPoly (g1 i (tt j)) (gx i)).length = 2 ^ xss.length := by
      simp [subPoly, hg1l, hgl, hn]
    have hbl : (bAt crs.n (tt j)).length = 2 ^ xss.length := by simp [bAt, hn]
    have hacc := honest_acc (w u • crs.Q) xss hsl hbl hg hx0 p hp
    have hz : ∀ {M : Type} [AddCommMonoid M] (f : ProverQuery F G → F → M),
        ((qs.zip (powersOf (r i) qs.length)).map fun x => f x.1 x.2).sum =
        ∑ l : Fin (qs.map ProverQuery.toVerifier).length, f (qs.get (l.cast hlens)) (r i ^ (l : ℕ)) := by
      intro M _ f
      rw [← List.sum_ofFn]
      congr 1
      apply List.ext_getElem (by simp [powersOf])
      intro l h1 h2
      simp [powersOf]
    have e1 : lin (g1 i (tt j)) crs.gens = eAt (qs.map ProverQuery.toVerifier).get (r i) (tt j) := by
      rw [hE i (tt j), hz fun q s => ((tt j - (q.point : F))⁻¹ * s) • q.commitment, eAt]
      apply Finset.sum_congr rfl
      intro l _
      simp [ProverQuery.toVerifier]
    have e2 : lin (subPoly (g1 i (tt j)) (gx i)) (bAt crs.n (tt j)) = g2At (qs.map ProverQuery.toVerifier).get (r i) (tt j) := by
      obtain ⟨b, hb1, hb2, hb3⟩ := hL i (tt j) (hout j)
      rw [lagrangeCoeffs_ok hW'] at hb1
      have hb : bAt crs.n (tt j) = b := by simpa [bAt] using hb1
      rw [hb, hb3, hz fun q s => (tt j - (q.point : F))⁻¹ * s * q.result, g2At]
      apply Finset.sum_congr rfl
      intro l _
      simp [ProverQuery.toVerifier]
    rw [lin_subPoly crs.gens (by rw [hg1l, hgl]), e1, e2] at hacc
    have hv := (verify_iff (O := scripted K (r i) (tt j) (w u) p.1) (by omega) hn hg l2 l3 t2 hbl
      (eAt (qs.map ProverQuery.toVerifier).get (r i) (tt j) - X.D i) (tt j)
      (g2At (qs.map ProverQuery.toVerifier).get (r i) (tt j))).2 (by rw [h4]; exact hacc)
    obtain ⟨t', hv⟩ := hv
    exact ⟨t', rfl, hd, by rw [h3, hv]⟩

end

section
theorem cast_injective {k : ℕ} (c : ℕ) (h : k + c ≤ 101) : Function.Injective fun j : Fin k => ((j + c : ℕ) : ZMod 101) := by
  intro j j' hj
  have := toy_distinct le_rfl (j + c) (j' + c) (by omega) (by omega) hj
  exact Fin.ext (by omega)

/-- Challenges for two rounds. -/
def toyRounds : List (Fin 4 → ZMod 101) := [fun j => ((j + 5 : ℕ) : ZMod 101), fun j => ((j + 97 : ℕ) : ZMod 101)]

theorem toyRounds_nodup : (toyRounds.flatMap List.ofFn).Nodup := by
  have : toyRounds.flatMap List.ofFn = [5, 6, 7, 8, 97, 98, 99, 100].map fun i : ℕ => (i : ZMod 101) := rfl
  rw [this]
  apply List.Nodup.map_on _ (by decide)
  intro i hi j hj h
  exact toy_distinct le_rfl i j (by simp at hi; omega) (by simp at hj; omega) h

theorem toyRounds_ne : ∀ x ∈ toyRounds, ∀ j, x j ≠ 0 := by
  intro x hx j h
  simp only [toyRounds, List.mem_cons, List.not_mem_nil, or_false] at hx
  rcases hx with rfl | rfl
  · have := toy_distinct le_rfl (j + 5) 0 (by omega) (by omega) (by simpa using h)
    omega
  · have := toy_distinct le_rfl (j + 97) 0 (by omega) (by omega) (by simpa using h)
    omega

/-- The hypotheses of `C55_ipa_sound` are met in a field of 101 elements, for the vector `4, 9, 0, 3`. -/
example : ∃ T : Fin 2 → Tree (ZMod 101) (ZMod 101) 2, (∀ u, (T u).Distinct) ∧
    openRep [1, 8, 64, 7] (lin ([4, 9, 0, 3] : List (ZMod 101)) [1, 8, 64, 7]) (fun u => ((u : ℕ) : ZMod 101) + 3) T 4 =
      ((fun i => [4, 9, 0, 3].getD i 0, 0) : Vec (ZMod 101) 4) ∧
    (∀ ρ ∈ openRels [1, 8, 64, 7] (lin ([4, 9, 0, 3] : List (ZMod 101)) [1, 8, 64, 7]) (fun u => ((u : ℕ) : ZMod 101) + 3) T 4, ρ = 0) ∧
    ∀ u, ∀ p ∈ (T u).leaves,
    ∃ (O : Oracle (ZMod 101) (ZMod 101)) (t t' : Transcript), O.K = toyWire ∧
      drawnIpa O t p.2 (lin ([4, 9, 0, 3] : List (ZMod 101)) toyCrs.gens) 8 (lin ([4, 9, 0, 3] : List (ZMod 101)) [1, 8, 64, 7]) = (((u : ℕ) : ZMod 101) + 3, p.1) ∧
      verify O p.2 t toyCrs [1, 8, 64, 7] (lin ([4, 9, 0, 3] : List (ZMod 101)) toyCrs.gens) 8 (lin ([4, 9, 0, 3] : List (ZMod 101)) [1, 8, 64, 7]) = .ok (true, t') :=
  C55_families_exist (crs := toyCrs) (xss := toyRounds) (by decide) rfl rfl (a := [4, 9, 0, 3]) (b := [1, 8, 64, 7]) rfl rfl 8 (fun u => ((u : ℕ) : ZMod 101) + 3) toyRounds_nodup toyRounds_ne toyWire

/-- The hypotheses of `C56_multipoint_sound` are met for the queries `toyQueries`. -/
example : ∃ (W : Weights (ZMod 101)) (X : MultiTree (ZMod 101) (ZMod 101) (toyQueries.map ProverQuery.toVerifier).length 9 2),
    Weights.new (ZMod 101) toyCrs.n = .ok W ∧ toyCrs.n + (toyQueries.map ProverQuery.toVerifier).length ≤ 9 + 1 ∧
    (∀ q ∈ toyQueries.map ProverQuery.toVerifier, ∃ p, p < toyCrs.n ∧ q.point = (p : ZMod 101)) ∧
    X.Distinct toyCrs.n ∧ Accepted toyCrs W (toyQueries.map ProverQuery.toVerifier) X := by
  have hn : toyCrs.n = 4 := rfl
  have hl : (toyQueries.map ProverQuery.toVerifier).length = 3 := rfl
  have hd := toy_distinct (n := 101) le_rfl
  obtain ⟨W, hW, _⟩ := new_good (toy_distinct (n := 4) (by norm_num)) (by norm_num)
  obtain ⟨X, h1, _, h2⟩ := C56_families_exist (m := 9) (crs := toyCrs) (xss := toyRounds) (by simp [toyRounds]) rfl rfl
    (toy_distinct (by rw [hn]; norm_num)) hW (qs := toyQueries) (by simp [toyQueries]) toyQueries_true
    (fun i => ((i + 0 : ℕ) : ZMod 101)) (cast_injective 0 (by rw [hl]; norm_num)) (fun j => ((j + 20 : ℕ) : ZMod 101))
    (cast_injective 20 (by norm_num)) (fun j p hp h => by
      have := hd (j + 20) p (by omega) (by omega) h
      omega) (fun u => ((u + 3 : ℕ) : ZMod 101))
    (fun h => absurd (hd _ _ (by simp) (by simp) h) (by simp)) (fun u h => absurd (hd (u + 3) 0 (by omega) (by omega) (by simpa using h)) (by omega))
    toyRounds_nodup toyRounds_ne toyWire [7]
  refine ⟨W, X, hW, by rw [hn, hl]; norm_num, fun q hq => ?_, h1, ?_⟩
  · obtain ⟨q', hq', rfl⟩ := List.mem_map.mp hq
    exact ⟨q'.point, (toyQueries_true q' hq').point, rfl⟩
  intro i j u p hp
  obtain ⟨O, t', _, h3, h4⟩ := h2 i j u p hp
  exact ⟨O, [7], t', h3, h4⟩

end
end Verif.Props
