import Verif.Ipa.Sample
import Verif.Props.Convince

/-!
# C78: extraction with a bounded number of runs

C65 shows that a convincing prover has runs from which openings of the commitments, or a relation between the generators, are
computed.  Here these runs are found by an algorithm, `MultiStrat.extract`, that runs the prover on challenges drawn at random.
The number of runs is fixed beforehand, and the algorithm succeeds for at least half of the draws.
-/

set_option autoImplicit false
set_option linter.unusedSectionVars false

namespace Verif.Props
open Verif Verif.Spec Verif.Trie Verif.Proof Verif.Ipa
open scoped Classical

/-- A count turned into a part. -/
theorem part_of_count {α : Type} [Fintype α] {p : α → Prop} {B K g N j : ℕ} (hg : g ≠ 0) (hN : N ≠ 0)
    (hα : Fintype.card α = N ^ (j + 1)) (h : g * B * N ^ j + K * N ^ (j + 1) < g * Fintype.card {a // p a}) :
    (B : ℝ) / N + (K : ℝ) / g < part p := by
  have hg' : (0 : ℝ) < g := by exact_mod_cast Nat.pos_of_ne_zero hg
  have hN' : (0 : ℝ) < N := by exact_mod_cast Nat.pos_of_ne_zero hN
  have h' : (g : ℝ) * B * N ^ j + K * N ^ (j + 1) < g * Fintype.card {a // p a} := by exact_mod_cast h
  rw [part_eq, hα]
  push_cast
  rw [lt_div_iff₀ (by positivity)]
  refine lt_of_mul_lt_mul_left (lt_of_eq_of_lt ?_ h') hg'.le
  field_simp
  ring

section
variable {F G : Type} [Field F] [DecidableEq F] [AddCommGroup G] [DecidableEq G] [Module F G]

/-- C78 for the inner product argument.  Let `P` be a test for runs that one of the verifiers accepts.  If the prover passes it on
more than the part `(4 k + 2) / |F| + (k + 1) / g` of the challenges, then for at least half of the draws of
`2 · 4 ^ k · (2 g e) ^ (k + 1)` challenges the extractor finds a non-trivial relation between the generators and `Q` or an opening
of the commitment with the claimed inner product. -/
theorem C78_ipa_extracted [Fintype F] {k : ℕ} {crs : CRS G} (hn : crs.n = 2 ^ k) (hgens : crs.gens.length = 2 ^ k) {b : List F}
    (hb : b.length = 2 ^ k) (comm : G) (z y : F) (S : F → Strat F G k) (P : F × (Fin k → F) → Bool)
    (hP : ∀ c, P c = true → ConvincesIpa crs b comm z y S c) {g e : ℕ} (hg : g ≠ 0) (he : 8 ≤ 2 ^ e)
    (h : g * (4 * k + 2) * Fintype.card F ^ k + (k + 1) * Fintype.card F ^ (k + 1) <
      g * Fintype.card {c : F × (Fin k → F) // P c = true}) :
    Fintype.card (Level F 2 (2 * g * e) (IpaSample F (2 * g * e) k)) ≤
      2 * Fintype.card {s : Level F 2 (2 * g * e) (IpaSample F (2 * g * e) k) // ∃ f : Fin 2 → F × Tree F G k,
        openExtract S P s = some f ∧
        (∀ u, ∀ p ∈ (f u).2.leaves, ∃ x, p = (List.ofFn x, (S (f u).1).run x) ∧ P ((f u).1, x) = true ∧
          ((f u).1, x) ∈ openChallenges s) ∧
        ((∃ ρ ∈ openRels b y (fun u => (f u).1) (fun u => (f u).2) (2 ^ k), ρ ≠ 0 ∧
          ∑ i : Fin (2 ^ k), ρ.1 i • crs.gens.getD i 0 + ρ.2 • crs.Q = 0) ∨
        ∃ v : Fin (2 ^ k) → F, openRep b y (fun u => (f u).1) (fun u => (f u).2) (2 ^ k) = (v, 0) ∧
          ∑ i : Fin (2 ^ k), v i • crs.gens.getD i 0 = comm ∧ ∑ i : Fin (2 ^ k), v i * b.getD i 0 = y)} ∧
    ∀ s : Level F 2 (2 * g * e) (IpaSample F (2 * g * e) k),
      (openChallenges s).length = 2 * 4 ^ k * (2 * g * e) ^ (k + 1) ∧
      ∀ (S' : F → Strat F G k) (P' : F × (Fin k → F) → Bool),
        (∀ c ∈ openChallenges s, (S c.1).run c.2 = (S' c.1).run c.2 ∧ P c = P' c) → openExtract S P s = openExtract S' P' s := by
  refine ⟨half_card ((openExtract_half hg he S P ?_).trans (part_mono ?_)), fun s =>
    ⟨openChallenges_length s, fun S' P' hS => openExtract_congr S S' P P' s hS⟩⟩
  · exact part_of_count hg Fintype.card_ne_zero (by simp [pow_succ, mul_comm]) (j := k) (by convert h)
  · intro s hs
    obtain ⟨f, hf⟩ := Option.isSome_iff_exists.1 hs
    obtain ⟨h1, h2⟩ := openExtract_spec S P s hf
    refine ⟨f, hf, h2, ?_⟩
    apply C55_ipa_sound hn hgens hb comm z y _ _ h1.1 h1.2.1 h1.2.2
    intro u p hp
    obtain ⟨x, rfl, h3, _⟩ := h2 u p hp
    obtain ⟨O, t, t', h4, h5⟩ := hP _ h3
    exact ⟨O, t, t', h4, h5⟩

/-- C78.  Let `P` be a test for runs of a prover of the multipoint argument that the verifier accepts, for `q` queries at points of
the domain.  If the prover passes it on more than the part `(2 n + 2 q + 4 k) / |F| + (k + 3) / g` of the challenges, then for at
least half of the draws of `q (n + q) · 2 · 4 ^ k · (2 g e) ^ (k + 3)` challenges the extractor, which runs the prover on these
challenges only, finds a non-trivial relation between the generators and `Q`, or vectors that open the commitments and have the
claimed results. -/
theorem C78_multipoint_extracted [Fintype F] {k : ℕ} {crs : CRS G} (hn : crs.n = 2 ^ k) (hgens : crs.gens.length = 2 ^ k)
    (hF : Distinct F crs.n) {W : Weights F} (hW : Weights.new F crs.n = .ok W) {qs : List (VerifierQuery F G)} (hne : qs ≠ [])
    (hq : ∀ q ∈ qs, ∃ p, p < crs.n ∧ q.point = (p : F)) (S : MultiStrat F G k) (P : F × F × F × (Fin k → F) → Bool)
    (hP : ∀ c, P c = true → Convinces crs W qs S c) {g e : ℕ} (hg : g ≠ 0) (he : 8 ≤ 2 ^ e)
    (he' : 2 * (crs.n + qs.length) ≤ 2 ^ e)
    (h : g * (2 * crs.n + 2 * qs.length + 4 * k) * Fintype.card F ^ (k + 2) + (k + 3) * Fintype.card F ^ (k + 3) <
      g * Fintype.card {c : F × F × F × (Fin k → F) // P c = true}) :
    Fintype.card (MultiSample F qs.length (crs.n + qs.length - 1 + 1) k (2 * g * e)) ≤
      2 * Fintype.card {s : MultiSample F qs.length (crs.n + qs.length - 1 + 1) k (2 * g * e) //
        ∃ X : MultiTree F G qs.length (crs.n + qs.length - 1) k, S.extract crs.n P s = some X ∧
        (∀ i j u, ∀ p ∈ (X.ipa i j u).leaves, ∃ x, p.1 = List.ofFn x ∧ S.run (X.r i, X.t i j, X.w i j u, x) = ⟨p.2, X.D i⟩ ∧
          P (X.r i, X.t i j, X.w i j u, x) = true ∧ (X.r i, X.t i j, X.w i j u, x) ∈ s.challenges) ∧
        ((∃ ρ ∈ X.rels qs.get crs.n, ρ ≠ 0 ∧ ∑ i : Fin crs.n, ρ.1 i • crs.gens.getD i 0 + ρ.2 • crs.Q = 0) ∨
        ∃ v : Fin qs.length → Fin crs.n → F, (∀ l, X.vec qs.get crs.n l = (v l, 0)) ∧
          (∀ l, ∑ i : Fin crs.n, v l i • crs.gens.getD i 0 = (qs.get l).commitment) ∧
          (∀ l (p : Fin crs.n), (qs.get l).point = ((p : ℕ) : F) → v l p = (qs.get l).result) ∧
          ∀ l l', (qs.get l).commitment = (qs.get l').commitment → v l = v l')} ∧
    ∀ s : MultiSample F qs.length (crs.n + qs.length - 1 + 1) k (2 * g * e),
      s.challenges.length = qs.length * (crs.n + qs.length) * 2 * 4 ^ k * (2 * g * e) ^ (k + 3) ∧
      ∀ (S' : MultiStrat F G k) (P' : F × F × F × (Fin k → F) → Bool),
        (∀ c ∈ s.challenges, S.run c = S'.run c ∧ P c = P' c) → S.extract crs.n P s = S'.extract crs.n P' s := by
  have hl : qs.length ≠ 0 := by simpa using hne
  have hl' : crs.n + qs.length - 1 + 1 = crs.n + qs.length := by omega
  refine ⟨half_card ((S.extract_half hl hl' hg he' he P ?_).trans (part_mono ?_)), fun s =>
    ⟨?_, fun S' P' hS => S.extract_congr S' P P' s hS⟩⟩
  · exact part_of_count hg Fintype.card_ne_zero (by simp; ring) (j := k + 2) (by convert h)
  · intro s hs
    obtain ⟨X, hX⟩ := Option.isSome_iff_exists.1 hs
    obtain ⟨h1, h2⟩ := S.extract_spec P s hX
    refine ⟨X, hX, h2, C56_multipoint_sound hn hgens hF hW hq (by omega) X h1 ?_⟩
    intro i j u p hp
    obtain ⟨x, h3, h4, h5, _⟩ := h2 i j u p hp
    obtain ⟨O, t, t', h6, h7⟩ := hP _ h5
    rw [h4] at h6 h7
    rw [← h3] at h6
    exact ⟨O, t, t', h6, h7⟩
  · rw [MultiSample.challenges_length, hl']

/-- C78 for tries (partial as `C21_rewound_claims_true_partial`).  Suppose that with a hint and commitments fixed a prover of the
multipoint argument convinces `check`, against the root of a trie built from a history, on more than the part
`(544 + 2 q) / |F| + 11 / g` of the challenges.  Then for at least half of the draws of
`q (256 + q) · 2 · 4 ^ 8 · (2 g e) ^ 11` challenges the extractor finds a non-trivial relation between the generators and `Q` or
vectors breaking the commitments of the trie, unless every undisputed claim is true except possibly claims of absence below the
path of a stem. -/
theorem C78_trie_extracted_partial [Fintype F] (hF : BigField F) (C : Crypto F G) (Q : G)
    (order : List (ProverQuery F G) → List ℕ) (l : List (Key × Value)) {db : MemoryDb F G} (hb : build C l = .ok db) {root : G}
    (hr : Trie.rootCommitment db = .ok root) (hint : VerificationHint) (comms : List G) (keys : List Key)
    (values : List (Option Value)) (hlen : keys.length = values.length)
    {qs : List (VerifierQuery F G)} {uh : UpdateHint G}
    (hq : createVerifierQueries C hint comms keys values root = .ok (some (qs, uh))) (hne : qs ≠ []) (S : MultiStrat F G 8)
    (P : F × F × F × (Fin 8 → F) → Bool)
    (hP : ∀ c, P c = true → ∃ (O : Oracle F G) (uh' : Option (UpdateHint G)),
      drawn O (newTranscript (lbl "vt")) (S.run c) qs = (c.1, c.2.1, c.2.2.1, List.ofFn c.2.2.2) ∧
      check C (multiOpener O C Q order) ⟨hint, comms, S.run c⟩ keys values root = .ok (true, uh')) {g e : ℕ} (hg : g ≠ 0)
    (he : 2 * (256 + qs.length) ≤ 2 ^ e)
    (h : g * (544 + 2 * qs.length) * Fintype.card F ^ 10 + 11 * Fintype.card F ^ 11 <
      g * Fintype.card {c : F × F × F × (Fin 8 → F) // P c = true}) :
    Fintype.card (MultiSample F qs.length (255 + qs.length + 1) 8 (2 * g * e)) ≤
      2 * Fintype.card {s : MultiSample F qs.length (255 + qs.length + 1) 8 (2 * g * e) //
        ∃ X : MultiTree F G qs.length (255 + qs.length) 8, S.extract 256 P s = some X ∧
        (∀ i j u, ∀ p ∈ (X.ipa i j u).leaves, ∃ x, p.1 = List.ofFn x ∧ S.run (X.r i, X.t i j, X.w i j u, x) = ⟨p.2, X.D i⟩ ∧
          (X.r i, X.t i j, X.w i j u, x) ∈ s.challenges) ∧
        ((∃ ρ ∈ X.rels qs.get 256, ρ ≠ 0 ∧ ∑ i : Fin 256, ρ.1 i • C.g i + ρ.2 • Q = 0) ∨
        ProofBreak C (lastWrite l) (vecOf qs X) qs ∨
        ∀ k v, (k, v) ∈ keys.zip values → Undisputed hint keys values k v →
          (∀ w, v = some w → Trie.get db k = some w) ∧
          (v = none → Trie.get db k = none ∨ ∃ d, HintEntry hint keys k.stem .none d ∧
            ∃ j, 0 < j ∧ j < d ∧ ∃ s, Under (lastWrite l) (k.stem.1.take j) s ∧
              ∀ t, Under (lastWrite l) (k.stem.1.take j) t → t = s))} ∧
    ∀ s : MultiSample F qs.length (255 + qs.length + 1) 8 (2 * g * e),
      s.challenges.length = qs.length * (256 + qs.length) * 2 * 4 ^ 8 * (2 * g * e) ^ 11 ∧
      ∀ (S' : MultiStrat F G 8) (P' : F × F × F × (Fin 8 → F) → Bool),
        (∀ c ∈ s.challenges, S.run c = S'.run c ∧ P c = P' c) → S.extract 256 P s = S'.extract 256 P' s := by
  have hl : qs.length ≠ 0 := by simpa using hne
  have hl' : 255 + qs.length + 1 = 256 + qs.length := by omega
  refine ⟨half_card ((S.extract_half hl hl' hg he (by omega) P ?_).trans (part_mono ?_)), fun s =>
    ⟨?_, fun S' P' hS => S.extract_congr S' P P' s hS⟩⟩
  · refine part_of_count hg Fintype.card_ne_zero (by simp; ring) (j := 10) (lt_of_eq_of_lt ?_ (by convert h))
    ring
  · intro s hs
    obtain ⟨X, hX⟩ := Option.isSome_iff_exists.1 hs
    obtain ⟨h1, h2⟩ := S.extract_spec P s hX
    refine ⟨X, hX, fun i j u p hp => ?_, ?_⟩
    · obtain ⟨x, h3, h4, _, h5⟩ := h2 i j u p hp
      exact ⟨x, h3, h4, h5⟩
    apply C21_rewound_claims_true_partial hF C Q order l hb hr hint comms keys values hlen hq (by omega) X h1
    intro i j u p hp
    obtain ⟨x, h3, h4, h5, _⟩ := h2 i j u p hp
    obtain ⟨O, uh', h6, h7⟩ := hP _ h5
    rw [h4] at h6 h7
    rw [← h3] at h6
    exact ⟨O, uh', h6, h7⟩
  · rw [MultiSample.challenges_length, hl']

end

/-- The hypotheses of `C78_trie_extracted_partial` are met by the honest proofs of the single key of `soloHist`, over a large field. -/
theorem solo_extractable {F G : Type} [Field F] [DecidableEq F] [AddCommGroup G] [DecidableEq G] [Module F G] [Fintype F]
    (hF : BigField F) (C : Crypto F G) (K : WireCodec F G) (Q : G) (order : List (ProverQuery F G) → List ℕ) {g : ℕ}
    (hbig : g * (544 + 2 * 6) * Fintype.card F ^ 10 + 11 * Fintype.card F ^ 11 <
      g * (Fintype.card F * ((Fintype.card F - 256) * (Fintype.card F * (Fintype.card F - 1).descFactorial 8)))) :
    ∃ db root comms qs uh, build C soloHist = .ok db ∧ Trie.rootCommitment db = .ok root ∧
      createVerifierQueries C ⟨[1], [.present], []⟩ comms [soloKey] [some (valOf 7)] root = .ok (some (qs, uh)) ∧
      qs ≠ [] ∧ 2 * (256 + qs.length) ≤ 2 ^ 10 ∧
      ∃ (S : MultiStrat F G 8) (P : F × F × F × (Fin 8 → F) → Bool),
        (∀ c, P c = true → ∃ (O : Oracle F G) (uh' : Option (UpdateHint G)),
          drawn O (newTranscript (lbl "vt")) (S.run c) qs = (c.1, c.2.1, c.2.2.1, List.ofFn c.2.2.2) ∧
          check C (multiOpener O C Q order) ⟨⟨[1], [.present], []⟩, comms, S.run c⟩ [soloKey] [some (valOf 7)] root =
            .ok (true, uh')) ∧
        g * (544 + 2 * qs.length) * Fintype.card F ^ 10 + 11 * Fintype.card F ^ 11 <
          g * Fintype.card {c : F × F × F × (Fin 8 → F) // P c = true} := by
  obtain ⟨db, root, comms, qs, uh, h1, h2, h3, h4, h5, S, h6⟩ := solo_card hF C K Q order
  refine ⟨db, root, comms, qs, uh, h1, h2, h4, by intro e; simp [e] at h5, by omega, S,
    fun c => decide (∃ (O : Oracle F G) (uh' : Option (UpdateHint G)),
          drawn O (newTranscript (lbl "vt")) (S.run c) qs = (c.1, c.2.1, c.2.2.1, List.ofFn c.2.2.2) ∧
          check C (multiOpener O C Q order) ⟨⟨[1], [.present], []⟩, comms, S.run c⟩ [soloKey] [some (valOf 7)] root =
            .ok (true, uh')), fun c hc => of_decide_eq_true hc, ?_⟩
  simp only [decide_eq_true_eq]
  refine lt_of_lt_of_le ?_ (Nat.mul_le_mul_left g h6)
  rw [h5]
  exact hbig

/-- In particular over Bandersnatch, with its encoding and twelve in the place of `g`. -/
noncomputable example (Q : Bander.BElem) : True :=
  letI := Classical.decEq Bander.BElem
  haveI : NeZero Bander.r := ⟨by decide +kernel⟩
  have _h := solo_extractable C52_scalar_field.1 Bander.crypto Bander.codec Q (fun qs => (qs.map ProverQuery.point).dedup) (g := 12)
    (by rw [ZMod.card]; decide +kernel)
  trivial

/-- The hypotheses of `C78_multipoint_extracted` are met for the queries `toyQueries`, with twenty in the place of `g`. -/
example : ∃ (W : Weights (ZMod 101)) (S : MultiStrat (ZMod 101) (ZMod 101) 2), Weights.new (ZMod 101) toyCrs.n = .ok W ∧
    ∃ P : ZMod 101 × ZMod 101 × ZMod 101 × (Fin 2 → ZMod 101) → Bool,
      (∀ c, P c = true → Convinces toyCrs W (toyQueries.map ProverQuery.toVerifier) S c) ∧
      20 * (2 * toyCrs.n + 2 * (toyQueries.map ProverQuery.toVerifier).length + 4 * 2) * Fintype.card (ZMod 101) ^ (2 + 2) +
        (2 + 3) * Fintype.card (ZMod 101) ^ (2 + 3) < 20 * Fintype.card {c // P c = true} := by
  have hn : toyCrs.n = 4 := rfl
  have hl : (toyQueries.map ProverQuery.toVerifier).length = 3 := rfl
  obtain ⟨W, hW, _⟩ := new_good (toy_distinct (n := 4) (by norm_num)) (by norm_num)
  obtain ⟨S, hS⟩ := C65_honest_convincing (k := 2) (crs := toyCrs) (by norm_num) rfl rfl (toy_distinct (by rw [hn]; norm_num)) hW
    (qs := toyQueries) (by simp [toyQueries]) toyQueries_true toyWire
  refine ⟨W, S, hW, fun c => decide (Convinces toyCrs W (toyQueries.map ProverQuery.toVerifier) S c), fun c hc => by
    simpa using hc, ?_⟩
  simp only [decide_eq_true_eq]
  refine lt_of_lt_of_le ?_ (Nat.mul_le_mul_left 20 hS)
  rw [hn, hl, ZMod.card]
  decide

end Verif.Props
