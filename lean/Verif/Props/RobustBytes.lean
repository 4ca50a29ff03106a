import Verif.Props.Robust
import Verif.Props.Unchecked

/-!
# C86 for the byte interfaces

The request to the honest prover is chosen by a program that asks the hash: openings for `create_proof` of `ffi_interface`, and bytes for the
functions `create_proof` and `create_proof_uncompressed` of the C interface.
-/

set_option autoImplicit false
set_option linter.unusedSectionVars false
set_option linter.constructorNameAsVariable false

namespace Verif.Props
open Verif Verif.Spec Verif.Trie Verif.Proof Verif.Ipa Verif.Wire Verif.Ffi Verif.Eip Verif.Bander
open scoped Classical

section
variable {F G : Type} [Field F] [DecidableEq F] [AddCommGroup G] [DecidableEq G] [Module F G]

/-- The openings are true, at least one and at most `m`, their points and vectors fit the format, and the bytes made by `create_proof` for
them, followed by the statements, are not accepted by `verify_proof`. -/
def FailsBytes (K : WireCodec F G) (C : Crypto F G) (Q : G) (order : List (ProverQuery F G) → List ℕ) (m : ℕ) (qs : List (ProverQuery F G))
    (R : List Byte → F) : Prop :=
  qs ≠ [] ∧ qs.length ≤ m ∧ (∀ q ∈ qs, Formatted q) ∧ (∀ q ∈ qs, TrueOpening (crsOf C Q) q) ∧
    ¬ ∃ bs : List Byte, createProof ⟨K, R⟩ C Q order (qs.flatMap fun q => proverQueryBytes K (K.encE q.commitment) q) = .ok (some bs) ∧
      verifyProof ⟨K, R⟩ C Q (bs ++ qs.flatMap fun q => queryBytes K (q.commitment, asU8 q.point, q.result)) = .ok (some true)

theorem FailsBytes.openings {K : WireCodec F G} {C : Crypto F G} {Q : G} {order : List (ProverQuery F G) → List ℕ}
    (ho : ∀ qs, IsOrder qs (order qs)) {W : Weights F} (hW : Weights.new F 256 = .ok W) {m : ℕ} {qs : List (ProverQuery F G)}
    {R : List Byte → F} (h : FailsBytes K C Q order m qs R) :
    FailsOpenings K (crsOf C Q) W (newTranscript (lbl "verkle")) m (qs, order qs) R := by
  obtain ⟨h1, hm, hq, ht, hno⟩ := h
  refine ⟨h1, hm, ht, ho qs, fun hex => hno ?_⟩
  have hg : (crsOf C Q).gens.length = 2 ^ 8 := by simp [crsOf]
  obtain ⟨π, t', h2, h3⟩ := hex
  obtain ⟨hL, hR⟩ := openMulti_length _ h2
  rw [hg, Nat.clog_pow 2 8 (by norm_num)] at hL hR
  refine ⟨multiToBytes K π, ?_, ?_⟩
  · unfold createProof
    rw [hW, C49_prover K hq]
    simp only [bind, Except.bind]
    rw [h2]
  · have hv := C49_verifier K hL hR (qs.map fun q => (q.commitment, asU8 q.point, q.result))
    rw [List.flatMap_map, List.map_map] at hv
    have hc : qs.map (toQuery ∘ fun q => (q.commitment, asU8 q.point, q.result)) = qs.map ProverQuery.toVerifier := by
      apply List.map_congr_left
      intro q hqm
      simp only [Function.comp, toQuery, ProverQuery.toVerifier]
      rw [show (asU8 q.point).val = q.point from Nat.mod_eq_of_lt (hq q hqm).2]
    rw [hc] at hv
    unfold verifyProof
    rw [hW]
    simp only [bind, Except.bind]
    rw [hv]
    simp only [h3]

/-- A program followed by a function that reads queries from its output; whatever fails for no queries whose proof is accepted fails rarely. -/
theorem bytes_adaptive_of {E β : Type} [Fintype E] {red : E → F} {c : ℕ} (hred : Spread red c) (hF : Distinct F 256) (K : WireCodec F G)
    (C : Crypto F G) (Q : G) {order : List (ProverQuery F G) → List ℕ} (ho : ∀ qs, IsOrder qs (order qs)) {N m : ℕ}
    (A : Prog (List Byte) E β) (hA : A.Within N) (H₀ : List Byte → E) (D : Finset (List Byte))
    (hD : ∀ s : List Byte, s.length ≤ 99 * m + 196 → s ∈ D) (view : β → List (ProverQuery F G)) (Lose : (D → E) → Prop)
    [Fintype {H // Lose H}] (hl : ∀ H, Lose H → FailsBytes K C Q order m (view (A.run (over H₀ H))) fun s => red (over H₀ H s)) :
    Fintype.card E * Fintype.card {H : D → E // Lose H} ≤ (N + 13) * (c * 256) * Fintype.card E ^ D.card := by
  obtain ⟨W, hW, -⟩ := new_good hF (by norm_num)
  have hg : (crsOf C Q).gens.length = 2 ^ 8 := by simp [crsOf]
  have hB : (A.bind fun o => Prog.ret (view o, order (view o))).Within N :=
    Prog.Within.bind (f := fun o => Prog.ret (view o, order (view o))) (n := 0) (fun _ => trivial) hA
  have := openings_adaptive_of hred (k := 8) (crs := crsOf C Q) (by norm_num) rfl hg hF hW K (newTranscript (lbl "verkle")) (m := m)
    (A.bind fun o => .ret (view o, order (view o))) (N := N) hB H₀ D fun s hs => hD s (by
      have : (newTranscript (lbl "verkle")).length = 6 := rfl
      omega)
  refine le_trans (Nat.mul_le_mul_left _ (Fintype.card_subtype_mono _ _ fun H hH => ?_)) this
  rw [Prog.run_bind]
  exact (hl H hH).openings ho hW

end

section
variable {G : Type} [AddCommGroup G] [DecidableEq G] [Module (ZMod r) G]

/-- C86 for the byte interface: true openings chosen by a program that asks SHA-256 at most `N` times, seeing the digests. -/
theorem C86_bytes {N m : ℕ} (K : WireCodec (ZMod r) G) (C : Crypto (ZMod r) G) (Q : G)
    {order : List (ProverQuery (ZMod r) G) → List ℕ} (ho : ∀ qs, IsOrder qs (order qs))
    (A : Prog (List Byte) Digest (List (ProverQuery (ZMod r) G))) (hA : A.Within N) (H₀ : List Byte → Digest) (D : Finset (List Byte))
    (hD : ∀ s : List Byte, s.length ≤ 99 * m + 196 → s ∈ D) :
    Fintype.card Digest * Fintype.card {H : D → Digest // FailsBytes K C Q order m (A.run (over H₀ H)) (chal (over H₀ H))} ≤
      (N + 13) * (9 * 256) * Fintype.card Digest ^ D.card :=
  bytes_adaptive_of C83_spread C52_scalar_field.2.1 K C Q ho A hA H₀ D hD id _ fun _ h => h

end

/-- The bytes are the compressed form of true openings and of the statements about them, and the proof that the C function `create_proof` makes
of the former is not accepted by `verify_proof` together with the latter. -/
def FailsC (K : Ark) (ctx : ProofContext) (S : Sqrt (ZMod Bander.q)) (order : List ℕ → List ℕ) (m : ℕ) (o : List Byte × List Byte)
    (H : List Byte → ZMod r) : Prop :=
  ∃ qs : List (ProverQuery (ZMod r) BElem), qs ≠ [] ∧ qs.length ≤ m ∧ (∀ q ∈ qs, Formatted q) ∧
    (∀ q ∈ qs, TrueOpening (crsOf crypto genPt) q) ∧ o.1 = (qs.flatMap fun q => proverQueryBytes codec (codec.encE q.commitment) q) ∧
    o.2 = (qs.flatMap fun q => queryBytes codec (q.commitment, asU8 q.point, q.result)) ∧
    ¬ ∃ bs, cCreateProof K H ctx S order o.1 = .ok bs ∧ cVerifyProof K H ctx S (bs ++ o.2) = .ok true

/-- The same for uncompressed forms. -/
def FailsU (K : Ark) (ctx : ProofContext) (order : List ℕ → List ℕ) (m : ℕ) (o : List Byte × List Byte) (H : List Byte → ZMod r) : Prop :=
  ∃ (qs : List (ProverQuery (ZMod r) BElem)) (cs vs : List (List Byte)), qs ≠ [] ∧ qs.length ≤ m ∧ (∀ q ∈ qs, Formatted q) ∧
    (∀ q ∈ qs, TrueOpening (crsOf crypto genPt) q) ∧ List.Forall₂ ProverForm cs qs ∧ o.1 = cs.flatten ∧
    List.Forall₂ QueryForm vs (qs.map fun q => (q.commitment, asU8 q.point, q.result)) ∧ o.2 = vs.flatten ∧
    ¬ ∃ out, cCreateProofUncompressed K H ctx order o.1 = .ok out ∧ cVerifyProofUncompressed K H ctx (out ++ o.2) = .ok true

/-- Some queries with a property, if there are any. -/
noncomputable def someQueries (P : List (ProverQuery (ZMod r) BElem) → Prop) : List (ProverQuery (ZMod r) BElem) :=
  if h : ∃ qs, P qs then h.choose else []

theorem someQueries_spec {P : List (ProverQuery (ZMod r) BElem) → Prop} (h : ∃ qs, P qs) : P (someQueries P) := by
  unfold someQueries
  rw [dif_pos h]
  exact h.choose_spec

/-- C86 for the C interface. -/
theorem C86_c {N m : ℕ} (K : Ark) {ctx : ProofContext} (hctx : ProofContext.new = .ok ctx) (S : Sqrt (ZMod Bander.q))
    {order : List ℕ → List ℕ} (ho : ∀ l, (order l).Nodup ∧ ∀ p, p ∈ order l ↔ p ∈ l)
    (A : Prog (List Byte) Digest (List Byte × List Byte)) (hA : A.Within N) (H₀ : List Byte → Digest) (D : Finset (List Byte))
    (hD : ∀ s : List Byte, s.length ≤ 99 * m + 196 → s ∈ D) :
    Fintype.card Digest * Fintype.card {H : D → Digest // FailsC K ctx S order m (A.run (over H₀ H)) (chal (over H₀ H))} ≤
      (N + 13) * (9 * 256) * Fintype.card Digest ^ D.card := by
  let P : List Byte × List Byte → List (ProverQuery (ZMod r) BElem) → Prop := fun o qs =>
    qs ≠ [] ∧ qs.length ≤ m ∧ (∀ q ∈ qs, Formatted q) ∧
    (∀ q ∈ qs, TrueOpening (crsOf crypto genPt) q) ∧ o.1 = (qs.flatMap fun q => proverQueryBytes codec (codec.encE q.commitment) q) ∧
    o.2 = (qs.flatMap fun q => queryBytes codec (q.commitment, asU8 q.point, q.result))
  refine bytes_adaptive_of C83_spread C52_scalar_field.2.1 codec crypto genPt (order := fun qs => order (qs.map ProverQuery.point))
    (fun qs => ⟨(ho _).1, fun p => ((ho _).2 p).trans List.mem_map⟩) A hA H₀ D hD (fun o => someQueries (P o)) _ fun H hH => ?_
  obtain ⟨qs, h1, h2, h3, h4, h5, h6, hno⟩ := hH
  obtain ⟨g1, g2, g3, g4, g5, g6⟩ :=
    someQueries_spec (P := P (A.run (over H₀ H))) ⟨qs, h1, h2, h3, h4, h5, h6⟩
  refine ⟨g1, g2, g3, g4, fun hex => hno ?_⟩
  rw [← g5, ← g6] at hex
  obtain ⟨bs, e1, e2⟩ := hex
  exact ⟨bs, (C59_create K _ hctx S order _ bs).2 e1, (C59_verify K _ hctx S _ true).2 e2⟩

/-- C86 for the C interface in uncompressed form.  (A proof that is true is accepted; false ones can be accepted too, C87.) -/
theorem C86_c_uncompressed {N m : ℕ} (K : Ark) {ctx : ProofContext} (hctx : ProofContext.new = .ok ctx)
    {order : List ℕ → List ℕ} (ho : ∀ l, (order l).Nodup ∧ ∀ p, p ∈ order l ↔ p ∈ l)
    (A : Prog (List Byte) Digest (List Byte × List Byte)) (hA : A.Within N) (H₀ : List Byte → Digest) (D : Finset (List Byte))
    (hD : ∀ s : List Byte, s.length ≤ 99 * m + 196 → s ∈ D) :
    Fintype.card Digest * Fintype.card {H : D → Digest // FailsU K ctx order m (A.run (over H₀ H)) (chal (over H₀ H))} ≤
      (N + 13) * (9 * 256) * Fintype.card Digest ^ D.card := by
  let P : List Byte × List Byte → List (ProverQuery (ZMod r) BElem) → Prop := fun o qs =>
    ∃ cs vs : List (List Byte), qs ≠ [] ∧ qs.length ≤ m ∧ (∀ q ∈ qs, Formatted q) ∧
    (∀ q ∈ qs, TrueOpening (crsOf crypto genPt) q) ∧ List.Forall₂ ProverForm cs qs ∧ o.1 = cs.flatten ∧
    List.Forall₂ QueryForm vs (qs.map fun q => (q.commitment, asU8 q.point, q.result)) ∧ o.2 = vs.flatten
  refine bytes_adaptive_of C83_spread C52_scalar_field.2.1 codec crypto genPt (order := fun qs => order (qs.map ProverQuery.point))
    (fun qs => ⟨(ho _).1, fun p => ((ho _).2 p).trans List.mem_map⟩) A hA H₀ D hD (fun o => someQueries (P o)) _ fun H hH => ?_
  obtain ⟨qs, cs, vs, h1, h2, h3, h4, h5, h6, h7, h8, hno⟩ := hH
  obtain ⟨cs', vs', g1, g2, g3, g4, g5, g6, g7, g8⟩ :=
    someQueries_spec (P := P (A.run (over H₀ H))) ⟨qs, cs, vs, h1, h2, h3, h4, h5, h6, h7, h8⟩
  refine ⟨g1, g2, g3, g4, fun hex => hno ?_⟩
  obtain ⟨bs, e1, e2⟩ := hex
  have e1' : cCreateProof K (chal (over H₀ H)) ctx (someSqrt _) order _ = .ok bs := (C59_create K _ hctx (someSqrt _) order _ bs).2 e1
  have e2' : cVerifyProof K (chal (over H₀ H)) ctx (someSqrt _) _ = .ok true := (C59_verify K _ hctx (someSqrt _) _ true).2 e2
  have hrel := C59_create_uncompressed K (chal (over H₀ H)) hctx (someSqrt _) order g5 g3
  rw [e1'] at hrel
  rw [g6]
  cases hout : cCreateProofUncompressed K (chal (over H₀ H)) ctx order cs'.flatten with
  | error e => rw [hout] at hrel; exact hrel.elim
  | ok out =>
    rw [hout] at hrel
    obtain ⟨e, hL, hR, hbs, hform⟩ := hrel
    refine ⟨out, rfl, ?_⟩
    rw [g8, C59_verify_uncompressed K _ hctx (someSqrt _) hL hR hform g7, List.flatMap_map, ← hbs]
    exact e2'

/-! ### The prover can fail -/

section
variable {F G : Type} [Field F] [DecidableEq F] [AddCommGroup G] [DecidableEq G] [Module F G]

/-- With challenges that are zero the prover of the inner product argument panics. -/
theorem createGo_zero {O : Oracle F G} (hO : ∀ s, O.H s = 0) (Q : G) {k : ℕ} (hk : 0 < k) (a b : List F) (g : List G) (t : Transcript)
    (x : IpaProof F G × Transcript) : Ipa.createGo O Q k a b g t ≠ .ok x := by
  obtain ⟨k, rfl⟩ : ∃ k', k = k' + 1 := ⟨k - 1, by omega⟩
  intro h
  unfold Ipa.createGo at h
  simp only [bind, Except.bind] at h
  split at h
  · cases h
  split at h
  · cases h
  rw [if_pos (show (challenge O _ _).1 = 0 from hO _)] at h
  cases h

theorem openMulti_zero {O : Oracle F G} (hO : ∀ s, O.H s = 0) {crs : CRS G} (hg : 1 < crs.gens.length) (W : Weights F) (t : Transcript)
    (qs : List (ProverQuery F G)) (order : List ℕ) (x : MultiProof F G × Transcript) : openMulti O crs W t qs order ≠ .ok x := by
  intro h
  unfold openMulti at h
  simp only [bind, Except.bind] at h
  split at h
  · cases h
  split at h
  · cases h
  split at h
  · cases h
  split at h
  · cases h
  split at h
  · cases h
  rename_i p hp
  unfold create at hp
  simp only at hp
  split at hp
  · cases hp
  split at hp
  · cases hp
  split at hp
  · cases hp
  exact createGo_zero hO _ (Nat.clog_pos (by norm_num) hg) _ _ _ _ _ hp

end

theorem createProof_zero {R : List Byte → ZMod r} (hR : ∀ s, R s = 0) (order : List (ProverQuery (ZMod r) BElem) → List ℕ) (input bs : List Byte) :
    createProof (⟨codec, R⟩ : Oracle (ZMod r) BElem) crypto genPt order input ≠ .ok (some bs) := by
  intro h
  unfold createProof at h
  simp only [bind, Except.bind] at h
  split at h
  · cases h
  split at h
  · cases h
  split at h
  · cases h
  split at h
  · cases h
  rename_i p hp
  exact openMulti_zero hR (by simp [crsOf]) _ _ _ _ _ hp

/-- With a hash whose challenges are all zero the prover fails for two openings, in each format: the parts of the hashes bounded above are not
empty, and the requests counted are met by the bytes of these openings. -/
example : ∃ R : List Byte → Digest, (∀ s, chal R s = 0) ∧
    (∀ order, FailsBytes codec crypto genPt order 2 sampleQueries (chal R)) ∧
    (∀ (K : Ark) (ctx : ProofContext) (S : Sqrt (ZMod Bander.q)) (order : List ℕ → List ℕ), ProofContext.new = .ok ctx →
      FailsC K ctx S order 2 (sampleQueries.flatMap fun q => proverQueryBytes codec (codec.encE q.commitment) q,
        sampleQueries.flatMap fun q => queryBytes codec (q.commitment, asU8 q.point, q.result)) (chal R)) ∧
    ∃ o : List Byte × List Byte, ∀ (K : Ark) (ctx : ProofContext) (order : List ℕ → List ℕ), ProofContext.new = .ok ctx →
      FailsU K ctx order 2 o (chal R) := by
  have h0 : ∀ s : List Byte, chal (fun _ _ => 0) s = 0 := fun s => by
    show digestScalar (fun _ => 0) = 0
    decide +kernel
  refine ⟨fun _ _ => 0, h0, fun order => ⟨List.cons_ne_nil _ _, le_of_eq rfl, sampleQueries_ok.1, sampleQueries_ok.2, ?_⟩,
    fun K ctx S order hctx => ⟨sampleQueries, List.cons_ne_nil _ _, le_of_eq rfl, sampleQueries_ok.1, sampleQueries_ok.2, rfl, rfl, ?_⟩, ?_⟩
  · rintro ⟨bs, h, -⟩
    exact createProof_zero h0 _ _ _ h
  · rintro ⟨bs, h, -⟩
    exact createProof_zero h0 _ _ _ ((C59_create K _ hctx S order _ bs).1 h)
  · obtain ⟨vs, hvs⟩ := queryForms_exist (sampleQueries.map fun q => (q.commitment, asU8 q.point, q.result))
    obtain ⟨ls, hls⟩ := forms_exist (sampleQueries.map ProverQuery.commitment)
    have hcs : ∃ cs, List.Forall₂ ProverForm cs sampleQueries := by
      generalize sampleQueries = qs at hls
      induction qs generalizing ls with
      | nil => exact ⟨[], .nil⟩
      | cons q qs ih =>
        cases hls with
        | cons hd tl =>
          obtain ⟨cs, h⟩ := ih _ tl
          exact ⟨_ :: cs, .cons ⟨_, hd, rfl⟩ h⟩
    obtain ⟨cs, hcs⟩ := hcs
    refine ⟨(cs.flatten, vs.flatten), fun K ctx order hctx => ⟨sampleQueries, cs, vs, List.cons_ne_nil _ _, le_of_eq rfl,
      sampleQueries_ok.1, sampleQueries_ok.2, hcs, rfl, hvs, rfl, ?_⟩⟩
    rintro ⟨out, h, -⟩
    have hrel := C59_create_uncompressed K (chal fun _ _ => 0) hctx (someSqrt _) order hcs sampleQueries_ok.1
    rw [h] at hrel
    cases hc : cCreateProof K (chal fun _ _ => 0) ctx (someSqrt _) order
        (sampleQueries.flatMap fun q => proverQueryBytes codec (codec.encE q.commitment) q) with
    | error e => rw [hc] at hrel; exact hrel.elim
    | ok bs => exact createProof_zero h0 _ _ _ ((C59_create K _ hctx _ order _ bs).1 hc)

end Verif.Props
