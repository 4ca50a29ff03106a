import Verif.Ipa.Count
import Verif.Props.RewindTrie
import Mathlib.Data.Fintype.CardEmbedding

/-!
# C65: convincing on more than a small part of the challenges

The families of accepted runs of C55, C56 and C21 are shown to exist as soon as a prover, that is a function from the challenges
received so far to the next message, convinces the verifier on more than a small part of all challenges.
-/

set_option autoImplicit false
set_option linter.unusedSectionVars false

namespace Verif.Props
open Verif Verif.Spec Verif.Trie Verif.Proof Verif.Ipa
open scoped Classical

section
variable {F G : Type} [Field F] [DecidableEq F] [AddCommGroup G] [DecidableEq G] [Module F G]

/-- The prover of the inner product argument convinces one of the three verifiers on the challenges `c`, that is for a hash
that draws them. -/
def ConvincesIpa {k : ℕ} (crs : CRS G) (b : List F) (comm : G) (z y : F) (S : F → Strat F G k) (c : F × (Fin k → F)) : Prop :=
  ∃ (O : Oracle F G) (t t' : Transcript), drawnIpa O t ((S c.1).run c.2) comm z y = (c.1, List.ofFn c.2) ∧
    (verify O ((S c.1).run c.2) t crs b comm z y = .ok (true, t') ∨
      verifyMultiexp O ((S c.1).run c.2) t crs b comm z y = .ok (true, t') ∨
      verifySemi O ((S c.1).run c.2) t crs b comm z y = .ok (true, t'))

/-- The prover of the multipoint argument convinces the verifier on the challenges `c`. -/
def Convinces {k : ℕ} (crs : CRS G) (W : Weights F) (qs : List (VerifierQuery F G)) (S : MultiStrat F G k)
    (c : F × F × F × (Fin k → F)) : Prop :=
  ∃ (O : Oracle F G) (t t' : Transcript), drawn O t (S.run c) qs = (c.1, c.2.1, c.2.2.1, List.ofFn c.2.2.2) ∧
    checkMulti O (S.run c) crs W qs t = .ok (true, t')

/-- C65 for the inner product argument.  A prover that convinces on more than `(4 k + 2) |F| ^ k` of the `|F| ^ (k + 1)`
challenges has runs from which a non-trivial relation between the generators and `Q` or an opening of the commitment with the
claimed inner product is computed. -/
theorem C65_ipa_convincing [Fintype F] {k : ℕ} {crs : CRS G} (hn : crs.n = 2 ^ k) (hg : crs.gens.length = 2 ^ k) {b : List F}
    (hb : b.length = 2 ^ k) (comm : G) (z y : F) (S : F → Strat F G k)
    (h : (4 * k + 2) * Fintype.card F ^ k < Fintype.card {c : F × (Fin k → F) // ConvincesIpa crs b comm z y S c}) :
    ∃ (w : Fin 2 → F) (T : Fin 2 → Tree F G k), OpenDistinct w T ∧
      (∀ u, ∀ p ∈ (T u).leaves, ∃ x, p = (List.ofFn x, (S (w u)).run x) ∧ ConvincesIpa crs b comm z y S (w u, x)) ∧
      ((∃ ρ ∈ openRels b y w T (2 ^ k), ρ ≠ 0 ∧ ∑ i : Fin (2 ^ k), ρ.1 i • crs.gens.getD i 0 + ρ.2 • crs.Q = 0) ∨
      ∃ v : Fin (2 ^ k) → F, openRep b y w T (2 ^ k) = (v, 0) ∧ ∑ i : Fin (2 ^ k), v i • crs.gens.getD i 0 = comm ∧
        ∑ i : Fin (2 ^ k), v i * b.getD i 0 = y) := by
  obtain ⟨w, T, hd, hT⟩ := Strat.open_tree S (fun w x => ConvincesIpa crs b comm z y S (w, x)) (by
    rw [bound_eq, ← add_mul]
    convert h using 2
    ring)
  refine ⟨w, T, hd, hT, ?_⟩
  apply C55_ipa_sound hn hg hb comm z y w T hd.1 hd.2.1 hd.2.2
  intro u p hp
  obtain ⟨x, rfl, O, t, t', h1, h2⟩ := hT u p hp
  exact ⟨O, t, t', h1, h2⟩

/-- C65.  A prover of the multipoint argument for `q` queries at points of the domain that convinces on more than
`(2 n + 2 q + 4 k) |F| ^ (k + 2)` of the `|F| ^ (k + 3)` challenges has runs from which a non-trivial relation between the
generators and `Q`, or vectors that open the commitments and have the claimed results, are computed. -/
theorem C65_multipoint_convincing [Fintype F] {k : ℕ} {crs : CRS G} (hn : crs.n = 2 ^ k) (hg : crs.gens.length = 2 ^ k)
    (hF : Distinct F crs.n) {W : Weights F} (hW : Weights.new F crs.n = .ok W) {qs : List (VerifierQuery F G)} (hne : qs ≠ [])
    (hq : ∀ q ∈ qs, ∃ p, p < crs.n ∧ q.point = (p : F)) (S : MultiStrat F G k)
    (h : (2 * crs.n + 2 * qs.length + 4 * k) * Fintype.card F ^ (k + 2) <
      Fintype.card {c : F × F × F × (Fin k → F) // Convinces crs W qs S c}) :
    ∃ X : MultiTree F G qs.length (crs.n + qs.length - 1) k, X.Distinct crs.n ∧
      (∀ i j u, ∀ p ∈ (X.ipa i j u).leaves, ∃ x, p.1 = List.ofFn x ∧ S.run (X.r i, X.t i j, X.w i j u, x) = ⟨p.2, X.D i⟩ ∧
        Convinces crs W qs S (X.r i, X.t i j, X.w i j u, x)) ∧
      ((∃ ρ ∈ X.rels qs.get crs.n, ρ ≠ 0 ∧ ∑ i : Fin crs.n, ρ.1 i • crs.gens.getD i 0 + ρ.2 • crs.Q = 0) ∨
      ∃ v : Fin qs.length → Fin crs.n → F, (∀ l, X.vec qs.get crs.n l = (v l, 0)) ∧
        (∀ l, ∑ i : Fin crs.n, v l i • crs.gens.getD i 0 = (qs.get l).commitment) ∧
        (∀ l (p : Fin crs.n), (qs.get l).point = ((p : ℕ) : F) → v l p = (qs.get l).result) ∧
        ∀ l l', (qs.get l).commitment = (qs.get l').commitment → v l = v l') := by
  have hl : qs.length ≠ 0 := by simpa using hne
  obtain ⟨X, hX, hX'⟩ := S.family (n := crs.n) (q := qs.length) (m := crs.n + qs.length - 1) hl (by omega)
    (Convinces crs W qs S) h
  refine ⟨X, hX, hX', C56_multipoint_sound hn hg hF hW hq (by omega) X hX ?_⟩
  intro i j u p hp
  obtain ⟨x, h1, h2, O, t, t', h3, h4⟩ := hX' i j u p hp
  rw [h2] at h3 h4
  rw [← h1] at h3
  exact ⟨O, t, t', h3, h4⟩

/-- C65 for tries (partial as `C21_rewound_claims_true_partial`).  Suppose that with a hint and commitments fixed a prover of
the multipoint argument convinces `check`, against the root of a trie built from a history, on more than
`(544 + 2 q) |F| ^ 10` of the `|F| ^ 11` challenges, `q` being the number of queries.  Then from its runs a non-trivial relation
between the generators and `Q` or vectors breaking the commitments of the trie are computed, or every undisputed claim is true
except possibly claims of absence below the path of a stem. -/
theorem C65_trie_convincing_partial [Fintype F] (hF : BigField F) (C : Crypto F G) (Q : G)
    (order : List (ProverQuery F G) → List ℕ) (l : List (Key × Value)) {db : MemoryDb F G} (hb : build C l = .ok db) {root : G}
    (hr : Trie.rootCommitment db = .ok root) (hint : VerificationHint) (comms : List G) (keys : List Key)
    (values : List (Option Value)) (hlen : keys.length = values.length)
    {qs : List (VerifierQuery F G)} {uh : UpdateHint G}
    (hq : createVerifierQueries C hint comms keys values root = .ok (some (qs, uh))) (hne : qs ≠ []) (S : MultiStrat F G 8)
    (h : (544 + 2 * qs.length) * Fintype.card F ^ 10 < Fintype.card {c : F × F × F × (Fin 8 → F) //
      ∃ (O : Oracle F G) (uh' : Option (UpdateHint G)),
        drawn O (newTranscript (lbl "vt")) (S.run c) qs = (c.1, c.2.1, c.2.2.1, List.ofFn c.2.2.2) ∧
        check C (multiOpener O C Q order) ⟨hint, comms, S.run c⟩ keys values root = .ok (true, uh')}) :
    ∃ X : MultiTree F G qs.length (255 + qs.length) 8, X.Distinct 256 ∧
      (∀ i j u, ∀ p ∈ (X.ipa i j u).leaves, ∃ x, p.1 = List.ofFn x ∧ S.run (X.r i, X.t i j, X.w i j u, x) = ⟨p.2, X.D i⟩) ∧
      ((∃ ρ ∈ X.rels qs.get 256, ρ ≠ 0 ∧ ∑ i : Fin 256, ρ.1 i • C.g i + ρ.2 • Q = 0) ∨
      ProofBreak C (lastWrite l) (vecOf qs X) qs ∨
      ∀ k v, (k, v) ∈ keys.zip values → Undisputed hint keys values k v →
        (∀ w, v = some w → Trie.get db k = some w) ∧
        (v = none → Trie.get db k = none ∨ ∃ d, HintEntry hint keys k.stem .none d ∧
          ∃ j, 0 < j ∧ j < d ∧ ∃ s, Under (lastWrite l) (k.stem.1.take j) s ∧ ∀ t, Under (lastWrite l) (k.stem.1.take j) t → t = s)) := by
  have hl : qs.length ≠ 0 := by simpa using hne
  obtain ⟨X, hX, hX'⟩ := S.family (n := 256) (q := qs.length) (m := 255 + qs.length) hl (by omega) _
    (by convert h using 2; ring)
  refine ⟨X, hX, fun i j u p hp => ?_, ?_⟩
  · obtain ⟨x, h1, h2, _⟩ := hX' i j u p hp
    exact ⟨x, h1, h2⟩
  apply C21_rewound_claims_true_partial hF C Q order l hb hr hint comms keys values hlen hq (by omega) X hX
  intro i j u p hp
  obtain ⟨x, h1, h2, O, uh', h3, h4⟩ := hX' i j u p hp
  rw [h2] at h3 h4
  rw [← h1] at h3
  exact ⟨O, uh', h3, h4⟩

/-! ### The honest prover convinces -/

/-- The honest prover of the inner product argument. -/
def honestStrat (Q : G) : (k : ℕ) → List F → List F → List G → Strat F G k
  | 0, a, _, _ => .last (a.headD 0)
  | k + 1, a, b, g =>
    .round (lin (a.drop (a.length / 2)) (g.take (g.length / 2)) + lin (a.drop (a.length / 2)) (b.take (b.length / 2)) • Q)
      (lin (a.take (a.length / 2)) (g.drop (g.length / 2)) + lin (a.take (a.length / 2)) (b.drop (b.length / 2)) • Q)
      fun x => honestStrat Q k (foldS x a) (foldS x⁻¹ b) (foldG x⁻¹ g)

/-- The honest prover's answers are those of the trees of `Verif.Props.Rewind`. -/
theorem honestStrat_leaf (Q : G) : ∀ {k : ℕ} (x : Fin k → F) (a b : List F) (g : List G),
    (List.ofFn x, (honestStrat Q k a b g).run x) ∈ (honest Q ((List.ofFn x).map fun c _ => c) a b g).leaves
  | 0, x, a, b, g => by
    rw [show List.ofFn x = [] from List.ofFn_zero]
    exact List.mem_singleton.mpr rfl
  | k + 1, x, a, b, g => by
    have ih := honestStrat_leaf Q (fun i => x i.succ) (foldS (x 0) a) (foldS (x 0)⁻¹ b) (foldG (x 0)⁻¹ g)
    have e : (List.ofFn x).map (fun c (_ : Fin 4) => c) = (fun _ => x 0) :: (List.ofFn fun i => x i.succ).map fun c _ => c := by
      rw [List.ofFn_succ, List.map_cons]
    rw [e]
    simp only [honest, Tree.leaves, List.mem_flatMap, List.mem_map]
    refine ⟨0, by simp, _, ih, ?_⟩
    simp [Strat.run, honestStrat, List.ofFn_succ]

/-- The honest prover of the multipoint argument is accepted whenever the challenges drawn are those it has received, `t` is
outside the domain and `x₁ …` are not zero. -/
theorem honest_accepted {k : ℕ} {crs : CRS G} (hk : k ≤ 31) (hn : crs.n = 2 ^ k) (hg : crs.gens.length = 2 ^ k)
    (hF : Distinct F crs.n) {W : Weights F} (hW : Weights.new F crs.n = .ok W) {qs : List (ProverQuery F G)} (hne : qs ≠ [])
    (ht : ∀ q ∈ qs, TrueOpening crs q) :
    ∃ S : MultiStrat F G k, ∀ (c : F × F × F × (Fin k → F)) (O : Oracle F G) (s : Transcript),
      (∀ p, p < crs.n → c.2.1 ≠ (p : F)) → (∀ j, c.2.2.2 j ≠ 0) →
      drawn O s (S.run c) (qs.map ProverQuery.toVerifier) = (c.1, c.2.1, c.2.2.1, List.ofFn c.2.2.2) →
      ∃ t', checkMulti O (S.run c) crs W (qs.map ProverQuery.toVerifier) s = .ok (true, t') := by
  have hW' : Good W crs.n := by
    obtain ⟨W', h1, h2⟩ := new_good hF (by rw [hn]; exact Nat.two_pow_pos _)
    rw [hW] at h1
    cases h1
    exact h2
  have hlen : qs.length ≠ 0 := by simpa using hne
  have ho : IsOrder qs ((qs.map ProverQuery.point).dedup) := ⟨List.nodup_dedup _, fun p => by simp⟩
  have hcore := fun r => multi_core hF hW' (by rw [hn]; exact Nat.pow_le_pow_right (by norm_num) hk) hne ht ho
    (powersOf r qs.length)
  choose quots gx _ _ hgl hcore using hcore
  choose g1 _ hg1l hE hL using hcore
  have hlens : (qs.map ProverQuery.toVerifier).length = qs.length := List.length_map ..
  refine ⟨⟨fun r => lin (gx r) crs.gens, fun r t w => honestStrat (w • crs.Q) k (subPoly (g1 r t) (gx r)) (bAt crs.n t) crs.gens⟩,
    ?_⟩
  rintro ⟨r, tt, w, x⟩ O s hout hx0 hd
  simp only at hout hx0 hd
  have hxs : ((List.ofFn x).map fun c (_ : Fin 4) => c).length = k := by simp
  have hp := honestStrat_leaf (w • crs.Q) x (subPoly (g1 r tt) (gx r)) (bAt crs.n tt) crs.gens
  simp only [MultiStrat.run] at hd ⊢
  generalize (honestStrat (w • crs.Q) k (subPoly (g1 r tt) (gx r)) (bAt crs.n tt) crs.gens).run x = π at hp hd
  obtain ⟨l1, l2, l3⟩ := leaves_length _ hp
  simp only at l1 l2 l3
  rw [hxs] at l2 l3
  obtain ⟨t2, h3, h4⟩ := checkMulti_verify hn hg hW' (π := ⟨π, lin (gx r) crs.gens⟩) l2 l3 hd
  have hsl : (subPoly (g1 r tt) (gx r)).length = 2 ^ k := by simp [subPoly, hg1l, hgl, hn]
  have hbl : (bAt crs.n tt).length = 2 ^ k := by simp [bAt, hn]
  have hacc := honest_acc (w • crs.Q) ((List.ofFn x).map fun c _ => c) (by rw [hsl, hxs]) (by rw [hbl, hxs]) (by rw [hg, hxs])
    (by
      intro y hy j
      obtain ⟨c, hc, rfl⟩ := List.mem_map.mp hy
      obtain ⟨i, rfl⟩ := List.mem_ofFn.mp hc
      exact hx0 i) _ hp
  have hz : ∀ {M : Type} [AddCommMonoid M] (f : ProverQuery F G → F → M),
      ((qs.zip (powersOf r qs.length)).map fun x => f x.1 x.2).sum =
      ∑ l : Fin (qs.map ProverQuery.toVerifier).length, f (qs.get (l.cast hlens)) (r ^ (l : ℕ)) := by
    intro M _ f
    rw [← List.sum_ofFn]
    congr 1
    apply List.ext_getElem (by simp [powersOf])
    intro l h1 h2
    simp [powersOf]
  have e1 : lin (g1 r tt) crs.gens = eAt (qs.map ProverQuery.toVerifier).get r tt := by
    rw [hE r tt, hz fun q s => ((tt - (q.point : F))⁻¹ * s) • q.commitment, eAt]
    apply Finset.sum_congr rfl
    intro l _
    simp [ProverQuery.toVerifier]
  have e2 : lin (subPoly (g1 r tt) (gx r)) (bAt crs.n tt) = g2At (qs.map ProverQuery.toVerifier).get r tt := by
    obtain ⟨b, hb1, hb2, hb3⟩ := hL r tt hout
    rw [lagrangeCoeffs_ok hW'] at hb1
    have hb : bAt crs.n tt = b := by simpa [bAt] using hb1
    rw [hb, hb3, hz fun q s => (tt - (q.point : F))⁻¹ * s * q.result, g2At]
    apply Finset.sum_congr rfl
    intro l _
    simp [ProverQuery.toVerifier]
  rw [lin_subPoly crs.gens (by rw [hg1l, hgl]), e1, e2] at hacc
  have hv := (verify_iff (O := O) (by omega) hn hg l2 l3 t2 hbl
    (eAt (qs.map ProverQuery.toVerifier).get r tt - lin (gx r) crs.gens) tt
    (g2At (qs.map ProverQuery.toVerifier).get r tt)).2 (by rw [h4]; exact hacc)
  obtain ⟨t', hv⟩ := hv
  exact ⟨t', by rw [h3, hv]⟩

theorem Strat.run_length : ∀ {k : ℕ} (S : Strat F G k) (x : Fin k → F), (S.run x).L.length = k ∧ (S.run x).R.length = k
  | _, .last _, _ => ⟨rfl, rfl⟩
  | _, .round _ _ next, x => by
    have := Strat.run_length (next (x 0)) (fun i => x i.succ)
    simp [Strat.run, this]

/-- The honest prover of the multipoint argument convinces on all challenges with `t` outside the domain and distinct non-zero
`x₁ …`, for every codec and every initial transcript. -/
theorem honest_convinces {k : ℕ} {crs : CRS G} (hk : k ≤ 31) (hn : crs.n = 2 ^ k) (hg : crs.gens.length = 2 ^ k)
    (hF : Distinct F crs.n) {W : Weights F} (hW : Weights.new F crs.n = .ok W) {qs : List (ProverQuery F G)} (hne : qs ≠ [])
    (ht : ∀ q ∈ qs, TrueOpening crs q) (K : WireCodec F G) (s : Transcript) :
    ∃ S : MultiStrat F G k, ∀ c : F × F × F × (Fin k → F), (∀ p, p < crs.n → c.2.1 ≠ (p : F)) →
      Function.Injective c.2.2.2 → (∀ j, c.2.2.2 j ≠ 0) → ∃ (O : Oracle F G) (t' : Transcript), O.K = K ∧
        drawn O s (S.run c) (qs.map ProverQuery.toVerifier) = (c.1, c.2.1, c.2.2.1, List.ofFn c.2.2.2) ∧
        checkMulti O (S.run c) crs W (qs.map ProverQuery.toVerifier) s = .ok (true, t') := by
  obtain ⟨S, hS⟩ := honest_accepted hk hn hg hF hW hne ht
  refine ⟨S, fun c hout hx hx0 => ?_⟩
  obtain ⟨l1, l2⟩ := Strat.run_length (S.ipa c.1 c.2.1 c.2.2.1) c.2.2.2
  have hd := scripted_drawn K c.1 c.2.1 c.2.2.1 (List.ofFn c.2.2.2) (List.nodup_ofFn.mpr hx) (π := S.run c)
    (by simpa [MultiStrat.run] using l1) (by simpa [MultiStrat.run] using l2) s (qs.map ProverQuery.toVerifier)
  obtain ⟨t', h⟩ := hS c _ s hout hx0 hd
  exact ⟨_, t', rfl, hd, h⟩

/-- The number of challenges on which the honest prover convinces. -/
theorem card_good [Fintype F] (n k : ℕ) (P : F × F × F × (Fin k → F) → Prop)
    (h : ∀ c : F × F × F × (Fin k → F), (∀ p, p < n → c.2.1 ≠ (p : F)) → Function.Injective c.2.2.2 →
      (∀ j, c.2.2.2 j ≠ 0) → P c) :
    Fintype.card F * ((Fintype.card F - n) * (Fintype.card F * (Fintype.card F - 1).descFactorial k)) ≤ Fintype.card {c // P c} := by
  let B : Finset F := (Finset.range n).image fun p : ℕ => (p : F)
  have hB : B.card ≤ n := Finset.card_image_le.trans (by simp)
  let f : F × {t : F // t ∉ B} × F × (Fin k ↪ {x : F // x ≠ 0}) → {c // P c} := fun c =>
    ⟨(c.1, c.2.1.1, c.2.2.1, fun j => (c.2.2.2 j).1), h _
      (fun p hp e => c.2.1.2 (Finset.mem_image.mpr ⟨p, by simpa using hp, e.symm⟩))
      (fun i j e => c.2.2.2.injective (Subtype.ext e)) fun j => (c.2.2.2 j).2⟩
  have hf : Function.Injective f := by
    rintro ⟨r, t, w, x⟩ ⟨r', t', w', x'⟩ e
    simp only [f, Subtype.mk.injEq, Prod.mk.injEq] at e
    obtain ⟨e1, e2, e3, e4⟩ := e
    refine Prod.ext e1 (Prod.ext (Subtype.ext e2) (Prod.ext e3 ?_))
    ext j
    exact congrFun e4 j
  refine le_trans ?_ (Fintype.card_le_of_injective f hf)
  have e1 : Fintype.card {x : F // x ≠ 0} = Fintype.card F - 1 := by
    rw [Fintype.card_subtype_compl, Fintype.card_subtype_eq]
  have e2 : Fintype.card {t : F // t ∉ B} = Fintype.card F - B.card := by
    rw [Fintype.card_subtype_compl, Fintype.card_coe]
  rw [Fintype.card_prod, Fintype.card_prod, Fintype.card_prod, Fintype.card_embedding_eq, e1, e2, Fintype.card_fin]
  gcongr

/-- The hypotheses of `C65_multipoint_convincing` hold for true openings as soon as the field is large enough. -/
theorem C65_honest_convincing [Fintype F] {k : ℕ} {crs : CRS G} (hk : k ≤ 31) (hn : crs.n = 2 ^ k) (hg : crs.gens.length = 2 ^ k)
    (hF : Distinct F crs.n) {W : Weights F} (hW : Weights.new F crs.n = .ok W) {qs : List (ProverQuery F G)} (hne : qs ≠ [])
    (ht : ∀ q ∈ qs, TrueOpening crs q) (K : WireCodec F G) :
    ∃ S : MultiStrat F G k,
      Fintype.card F * ((Fintype.card F - crs.n) * (Fintype.card F * (Fintype.card F - 1).descFactorial k)) ≤
        Fintype.card {c : F × F × F × (Fin k → F) // Convinces crs W (qs.map ProverQuery.toVerifier) S c} := by
  obtain ⟨S, hS⟩ := honest_convinces hk hn hg hF hW hne ht K []
  refine ⟨S, card_good crs.n k _ fun c h1 h2 h3 => ?_⟩
  obtain ⟨O, t', _, h4, h5⟩ := hS c h1 h2 h3
  exact ⟨O, [], t', h4, h5⟩

theorem honest_convincesIpa {k : ℕ} {crs : CRS G} (hk : k < 64) (hn : crs.n = 2 ^ k)
    (hg : crs.gens.length = 2 ^ k) {a b : List F} (ha : a.length = 2 ^ k) (hb : b.length = 2 ^ k) (z : F) (K : WireCodec F G)
    (c : F × (Fin k → F)) (hx : Function.Injective c.2) (hx0 : ∀ j, c.2 j ≠ 0) :
    ConvincesIpa crs b (lin a crs.gens) z (lin a b) (fun w => honestStrat (w • crs.Q) k a b crs.gens) c := by
  obtain ⟨w, x⟩ := c
  simp only at hx hx0
  have hxs : ((List.ofFn x).map fun c (_ : Fin 4) => c).length = k := by simp
  have hp := honestStrat_leaf (w • crs.Q) x a b crs.gens
  simp only [ConvincesIpa]
  generalize (honestStrat (w • crs.Q) k a b crs.gens).run x = π at hp
  obtain ⟨l1, l2, l3⟩ := leaves_length _ hp
  simp only at l1 l2 l3
  rw [hxs] at l2 l3
  have hd := scripted_drawnIpa K 0 0 w (List.ofFn x) (List.nodup_ofFn.mpr hx) (π := π) (by simpa using l2) (by simpa using l3) []
    (lin a crs.gens) z (lin a b)
  have hacc := honest_acc (w • crs.Q) ((List.ofFn x).map fun c _ => c) (by rw [ha, hxs]) (by rw [hb, hxs]) (by rw [hg, hxs])
    (by
      intro y hy j
      obtain ⟨c, hc, rfl⟩ := List.mem_map.mp hy
      obtain ⟨i, rfl⟩ := List.mem_ofFn.mp hc
      exact hx0 i) _ hp
  obtain ⟨t', hv⟩ := (verify_iff (O := scripted K 0 0 w (List.ofFn x)) hk hn hg l2 l3 [] hb (lin a crs.gens) z (lin a b)).2
    (by rw [hd]; exact hacc)
  exact ⟨_, [], t', hd, Or.inl hv⟩

/-- The hypotheses of `C65_ipa_convincing` hold for the honest prover as soon as the field is large enough. -/
theorem C65_honest_ipa_convincing [Fintype F] {k : ℕ} {crs : CRS G} (hk : k < 64) (hn : crs.n = 2 ^ k)
    (hg : crs.gens.length = 2 ^ k) {a b : List F} (ha : a.length = 2 ^ k) (hb : b.length = 2 ^ k) (z : F) (K : WireCodec F G) :
    Fintype.card F * (Fintype.card F - 1).descFactorial k ≤ Fintype.card {c : F × (Fin k → F) //
      ConvincesIpa crs b (lin a crs.gens) z (lin a b) (fun w => honestStrat (w • crs.Q) k a b crs.gens) c} := by
  let f : F × (Fin k ↪ {x : F // x ≠ 0}) → {c : F × (Fin k → F) //
      ConvincesIpa crs b (lin a crs.gens) z (lin a b) (fun w => honestStrat (w • crs.Q) k a b crs.gens) c} := fun c =>
    ⟨(c.1, fun j => (c.2 j).1), honest_convincesIpa hk hn hg ha hb z K _ (fun i j e => c.2.injective (Subtype.ext e))
      fun j => (c.2 j).2⟩
  have hf : Function.Injective f := by
    rintro ⟨w, x⟩ ⟨w', x'⟩ e
    simp only [f, Subtype.mk.injEq, Prod.mk.injEq] at e
    refine Prod.ext e.1 ?_
    ext j
    exact congrFun e.2 j
  refine le_trans ?_ (Fintype.card_le_of_injective f hf)
  have e1 : Fintype.card {x : F // x ≠ 0} = Fintype.card F - 1 := by
    rw [Fintype.card_subtype_compl, Fintype.card_subtype_eq]
  rw [Fintype.card_prod, Fintype.card_embedding_eq, e1, Fintype.card_fin]

/-- The number of challenges on which the honest proofs of the single key of `soloHist` convince `check`. -/
theorem solo_card [Fintype F] (hF : BigField F) (C : Crypto F G) (K : WireCodec F G) (Q : G)
    (order : List (ProverQuery F G) → List ℕ) :
    ∃ db root comms qs uh, build C soloHist = .ok db ∧ Trie.rootCommitment db = .ok root ∧
      HintConsistent ⟨[1], [.present], []⟩ [soloKey] ∧
      createVerifierQueries C ⟨[1], [.present], []⟩ comms [soloKey] [some (valOf 7)] root = .ok (some (qs, uh)) ∧
      qs.length = 6 ∧ ∃ S : MultiStrat F G 8,
        Fintype.card F * ((Fintype.card F - 256) * (Fintype.card F * (Fintype.card F - 1).descFactorial 8)) ≤
        Fintype.card {c : F × F × F × (Fin 8 → F) // ∃ (O : Oracle F G) (uh' : Option (UpdateHint G)),
          drawn O (newTranscript (lbl "vt")) (S.run c) qs = (c.1, c.2.1, c.2.2.1, List.ofFn c.2.2.2) ∧
          check C (multiOpener O C Q order) ⟨⟨[1], [.present], []⟩, comms, S.run c⟩ [soloKey] [some (valOf 7)] root =
            .ok (true, uh')} := by
  have hD : Ipa.Distinct F 256 := fun i j hi hj h => hF i j (hi.trans (by norm_num)) (hj.trans (by norm_num)) h
  obtain ⟨W, hW, _⟩ := new_good hD (by norm_num)
  refine ⟨_, _, _, _, _, build_eq _ _, rootCommitment_spec _ _, solo_consistent, solo_queries C, by simp [soloQueries], ?_⟩
  obtain ⟨S, hS⟩ := honest_convinces (k := 8) (crs := crsOf C Q) (by norm_num) rfl (by simp [crsOf]) hD hW
    (qs := soloQueries C) (by simp [soloQueries]) (fun q hq => (soloQueries_true C q hq).opening Q) K (newTranscript (lbl "vt"))
  refine ⟨S, card_good 256 8 _ ?_⟩
  intro c h1 h2 h3
  obtain ⟨O, t', _, h4, h5⟩ := hS c h1 h2 h3
  have h6 : ∀ uh, createVerifierQueries C ⟨[1], [.present], []⟩
      [stemComm C (lastWrite soloHist) soloKey.stem, suffixComm C (lastWrite soloHist) soloKey.stem 0] [soloKey]
      [some (valOf 7)] (branchComm C (lastWrite soloHist) []) = .ok (some ((soloQueries C).map ProverQuery.toVerifier, uh)) →
      check C (multiOpener O C Q order) ⟨⟨[1], [.present], []⟩,
        [stemComm C (lastWrite soloHist) soloKey.stem, suffixComm C (lastWrite soloHist) soloKey.stem 0], S.run c⟩
        [soloKey] [some (valOf 7)] (branchComm C (lastWrite soloHist) []) = .ok (true, some uh) := by
    intro uh h
    simp only [check, h, bind, Except.bind, multiOpener, hW, h5]
  exact ⟨O, _, h4, h6 _ (solo_queries C)⟩

/-- The honest proofs of the single key of `soloHist` convince `check` on more challenges than `C65_trie_convincing_partial`
asks for, if the field is large enough. -/
theorem solo_convincing [Fintype F] (hF : BigField F) (C : Crypto F G) (K : WireCodec F G) (Q : G)
    (order : List (ProverQuery F G) → List ℕ)
    (hbig : (544 + 2 * 6) * Fintype.card F ^ 10 <
      Fintype.card F * ((Fintype.card F - 256) * (Fintype.card F * (Fintype.card F - 1).descFactorial 8))) :
    ∃ db root comms qs uh, build C soloHist = .ok db ∧ Trie.rootCommitment db = .ok root ∧
      HintConsistent ⟨[1], [.present], []⟩ [soloKey] ∧
      createVerifierQueries C ⟨[1], [.present], []⟩ comms [soloKey] [some (valOf 7)] root = .ok (some (qs, uh)) ∧
      qs ≠ [] ∧ ∃ S : MultiStrat F G 8, (544 + 2 * qs.length) * Fintype.card F ^ 10 <
        Fintype.card {c : F × F × F × (Fin 8 → F) // ∃ (O : Oracle F G) (uh' : Option (UpdateHint G)),
          drawn O (newTranscript (lbl "vt")) (S.run c) qs = (c.1, c.2.1, c.2.2.1, List.ofFn c.2.2.2) ∧
          check C (multiOpener O C Q order) ⟨⟨[1], [.present], []⟩, comms, S.run c⟩ [soloKey] [some (valOf 7)] root =
            .ok (true, uh')} := by
  obtain ⟨db, root, comms, qs, uh, h1, h2, h3, h4, h5, S, h6⟩ := solo_card hF C K Q order
  exact ⟨db, root, comms, qs, uh, h1, h2, h3, h4, by intro e; simp [e] at h5, S, lt_of_lt_of_le (by rw [h5]; exact hbig) h6⟩

end

/-- The hypotheses of `C65_multipoint_convincing` are met for the queries `toyQueries`. -/
example : ∃ (W : Weights (ZMod 101)) (S : MultiStrat (ZMod 101) (ZMod 101) 2), Weights.new (ZMod 101) toyCrs.n = .ok W ∧
    (2 * toyCrs.n + 2 * (toyQueries.map ProverQuery.toVerifier).length + 4 * 2) * Fintype.card (ZMod 101) ^ (2 + 2) <
      Fintype.card {c // Convinces toyCrs W (toyQueries.map ProverQuery.toVerifier) S c} := by
  have hn : toyCrs.n = 4 := rfl
  have hl : (toyQueries.map ProverQuery.toVerifier).length = 3 := rfl
  obtain ⟨W, hW, _⟩ := new_good (toy_distinct (n := 4) (by norm_num)) (by norm_num)
  obtain ⟨S, hS⟩ := C65_honest_convincing (k := 2) (crs := toyCrs) (by norm_num) rfl rfl (toy_distinct (by rw [hn]; norm_num)) hW
    (qs := toyQueries) (by simp [toyQueries]) toyQueries_true toyWire
  refine ⟨W, S, hW, lt_of_lt_of_le ?_ hS⟩
  rw [hn, hl, ZMod.card]
  decide

/-- Those of `C65_ipa_convincing` are met for a vector of four scalars. -/
example : (4 * 2 + 2) * Fintype.card (ZMod 101) ^ 2 < Fintype.card {c : ZMod 101 × (Fin 2 → ZMod 101) //
    ConvincesIpa toyCrs [1, 8, 64, 7] (lin ([4, 9, 0, 3] : List (ZMod 101)) toyCrs.gens) 8
      (lin ([4, 9, 0, 3] : List (ZMod 101)) [1, 8, 64, 7])
      (fun w => honestStrat (w • toyCrs.Q) 2 [4, 9, 0, 3] [1, 8, 64, 7] toyCrs.gens) c} := by
  refine lt_of_lt_of_le ?_ (C65_honest_ipa_convincing (k := 2) (crs := toyCrs) (by norm_num) rfl rfl (a := [4, 9, 0, 3])
    (b := [1, 8, 64, 7]) rfl rfl 8 toyWire)
  rw [ZMod.card]
  decide

/-- In particular over Bandersnatch, with its encoding. -/
noncomputable example (Q : Bander.BElem) : True :=
  letI := Classical.decEq Bander.BElem
  haveI : NeZero Bander.r := ⟨by decide +kernel⟩
  have _h := solo_convincing C52_scalar_field.1 Bander.crypto Bander.codec Q (fun qs => (qs.map ProverQuery.point).dedup)
    (by rw [ZMod.card]; decide +kernel)
  trivial

/-- The part of the challenges that convince without extraction is below `2 ^ -240` for up to two thousand queries. -/
theorem C65_part_small {q : ℕ} (hq : q ≤ 2 ^ 11) : (544 + 2 * q) * Bander.r ^ 10 * 2 ^ 240 ≤ Bander.r ^ 11 := by
  rw [pow_succ _ 10, mul_right_comm, mul_comm]
  apply Nat.mul_le_mul_left
  have : 544 + 2 * q ≤ 4640 := by omega
  exact (Nat.mul_le_mul_right _ this).trans (by decide +kernel)

end Verif.Props
