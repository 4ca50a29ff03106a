import Verif.Props.Rom
import Verif.Props.CBind

/-!
# C66 for the byte interfaces

The program outputs the bytes handed to `verify_proof` of the foreign-function interface or to the C function.
-/

set_option autoImplicit false
set_option linter.unusedSectionVars false

namespace Verif.Props
open Verif Verif.Spec Verif.Trie Verif.Proof Verif.Ipa Verif.Wire Verif.Ffi
open scoped Classical

section
variable {F G : Type} [Field F] [DecidableEq F] [AddCommGroup G] [DecidableEq G] [Module F G]

/-- The bytes output by a program make `verify_proof` answer yes about at least one and at most `qmax` queries. -/
def ForgesBytes (K : WireCodec F G) (C : Crypto F G) (Q : G) (qmax : ℕ) (A : Prog (List Byte) F (List Byte))
    (H : List Byte → F) : Prop :=
  576 < (A.run H).length ∧ (A.run H).length ≤ 576 + 65 * qmax ∧ verifyProof ⟨K, H⟩ C Q (A.run H) = .ok (some true)

/-- What the bytes are split into. -/
def viewBytes (K : WireCodec F G) (input : List Byte) : List (VerifierQuery F G) × MultiProof F G :=
  match verifierInput K input with
  | .ok (some (p, qs)) => (qs, p)
  | _ => ([], ⟨⟨[], [], 0⟩, 0⟩)

theorem forgesBytes_view {K : WireCodec F G} {C : Crypto F G} {Q : G} {qmax : ℕ}
    {A : Prog (List Byte) F (List Byte)} {H : List Byte → F} {W : Weights F} (hW : Weights.new F 256 = .ok W)
    (hE : ∀ c x, c.length = 32 → K.decE c = some x → K.encE x = c)
    (hS : ∀ c x, c.length = 32 → K.decS c = some x → K.encS x = c) (h : ForgesBytes K C Q qmax A H) :
    ∃ (p : MultiProof F G) (qs : List (G × Byte × F)), viewBytes K (A.run H) = (qs.map toQuery, p) ∧ qs ≠ [] ∧
      qs.length ≤ qmax ∧ p.openProof.L.length = 8 ∧ p.openProof.R.length = 8 ∧
      A.run H = multiToBytes K p ++ qs.flatMap (queryBytes K) ∧
      ∃ t', checkMulti ⟨K, H⟩ p (crsOf C Q) W (qs.map toQuery) (newTranscript (lbl "verkle")) = .ok (true, t') := by
  obtain ⟨h1, h2, h3⟩ := h
  unfold verifyProof at h3
  rw [hW] at h3
  simp only [bind, Except.bind] at h3
  cases hv : verifierInput K (A.run H) with
  | error e => rw [hv] at h3; cases h3
  | ok o =>
    cases o with
    | none => rw [hv] at h3; cases h3
    | some v =>
      obtain ⟨p, qs'⟩ := v
      rw [hv] at h3
      simp only at h3
      obtain ⟨hL, hR, qs, rfl, he⟩ := (C49_verifier_only_partial K hE hS (A.run H)).1 p qs' hv
      have hlen : (A.run H).length = 576 + 65 * qs.length := by
        have h8 : (qs.map fun q => (queryBytes K q).length) = qs.map fun _ => 65 :=
          List.map_congr_left fun q _ => verifierQueryBytes_length K (K.encE_len _) _ _
        rw [he, List.length_append, multiToBytes_length, hL, hR, List.length_flatMap, h8]
        simp [mul_comm]
      refine ⟨p, qs, by rw [viewBytes, hv], ?_, by omega, hL, hR, he, ?_⟩
      · rintro rfl
        simp at hlen
        omega
      · cases hc : checkMulti ⟨K, H⟩ p (crsOf C Q) W (qs.map toQuery) (newTranscript (lbl "verkle")) with
        | error e => rw [hc] at h3; cases h3
        | ok r =>
          rw [hc] at h3
          obtain ⟨b, t'⟩ := r
          simp only [Except.ok.injEq, Option.some.injEq] at h3
          rw [h3]
          exact ⟨t', rfl⟩

/-- What `C66_ffi_random_oracle` says, for a hash with values in `E` that `red` turns into challenges, each from at most `B` values.  The
output of a run, `.ret (A.run H)`, wins for the challenges of the run. -/
theorem rom_bytes_of {E : Type} [Fintype E] {red : E → F} {B : ℕ} (hred : Spread red B) {N qmax : ℕ} (hF : BigField F) (K : WireCodec F G)
    (hE : ∀ c x, c.length = 32 → K.decE c = some x → K.encE x = c)
    (hS : ∀ c x, c.length = 32 → K.decS c = some x → K.encS x = c) (C : Crypto F G) (Q : G)
    (A : Prog (List Byte) E (List Byte)) (hA : A.Within N) (H₀ : List Byte → E) (D : Finset (List Byte))
    (hD : ∀ s : List Byte, s.length ≤ 99 * qmax + 196 → s ∈ D)
    (h : (N + 11) * (B * (513 + qmax + 2 * (N + 11))) * Fintype.card E ^ D.card <
      Fintype.card E * Fintype.card {H : D → E // ForgesBytes K C Q qmax (.ret (A.run (over H₀ H))) (fun s => red (over H₀ H s))}) :
    ∃ (xs : List (G × Byte × F)) (qs : List (VerifierQuery F G)) (X : MultiTree F G qs.length (256 + qs.length - 1) 8),
      xs ≠ [] ∧ qs = xs.map toQuery ∧ X.Distinct 256 ∧
      (∀ i j u, ∀ p ∈ (X.ipa i j u).leaves, ∃ H : D → E, ForgesBytes K C Q qmax (.ret (A.run (over H₀ H))) (fun s => red (over H₀ H s)) ∧
        A.run (over H₀ H) = multiToBytes K ⟨p.2, X.D i⟩ ++ xs.flatMap (queryBytes K) ∧
        drawn ⟨K, fun s => red (over H₀ H s)⟩ (newTranscript (lbl "verkle")) ⟨p.2, X.D i⟩ qs = (X.r i, X.t i j, X.w i j u, p.1)) ∧
      ((∃ ρ ∈ X.rels qs.get 256, ρ ≠ 0 ∧ ∑ i : Fin 256, ρ.1 i • C.g i + ρ.2 • Q = 0) ∨
      ∀ x ∈ xs, ∑ i : Byte, vecOf qs X x.1 i • C.g i.val = x.1 ∧ vecOf qs X x.1 x.2.1 = x.2.2) := by
  have hdist : Ipa.Distinct F 256 := fun i j hi hj h => hF i j (hi.trans (by norm_num)) (hj.trans (by norm_num)) h
  obtain ⟨W, hW, _⟩ := new_good hdist (by norm_num)
  have hinj : Function.Injective (toQuery (F := F) (G := G)) := by
    rintro ⟨a, b, c⟩ ⟨a', b', c'⟩ e
    simp only [toQuery, VerifierQuery.mk.injEq] at e
    obtain ⟨rfl, e, rfl⟩ := e
    rw [Fin.ext (hdist _ _ b.2 b'.2 e)]
  have hbd : (N + 8 + 3) * (B * (2 * 256 + qmax + 1 + 2 * (N + 8 + 3))) = (N + 11) * (B * (513 + qmax + 2 * (N + 11))) := by ring
  obtain ⟨qs, X, hX, ⟨H, hH, hqs⟩, hX'⟩ := rom_family_of hred (k := 8) (N := N) (n := 256) (qmax := qmax) (by norm_num) K
    (newTranscript (lbl "verkle")) A hA (viewBytes K) H₀ D
    (fun s hs => hD s (by
      have : (newTranscript (lbl "verkle")).length = 6 := rfl
      rw [this] at hs
      omega)) (fun H => ForgesBytes K C Q qmax (.ret (A.run H)) (fun s => red (H s))) (by
      intro H hH
      obtain ⟨p, xs, h1, h2, h3, h4, h5, _⟩ := forgesBytes_view hW hE hS hH
      simp only [Prog.run] at h1
      rw [h1]
      exact ⟨by simpa using h2, by simpa using h3, h4, h5⟩)
    (by rw [hbd]; exact h)
  obtain ⟨_, xs, h1, hne, _⟩ := forgesBytes_view hW hE hS hH
  simp only [Prog.run] at h1
  rw [h1] at hqs
  have hacc : Accepted (crsOf C Q) W qs X := by
    intro i j u p hp
    obtain ⟨H', h1, h2, h3⟩ := hX' i j u p hp
    obtain ⟨p', ys, e1, _, _, _, _, _, t', e2⟩ := forgesBytes_view hW hE hS h1
    simp only [Prog.run] at e1
    rw [h2] at e1
    simp only [Prod.mk.injEq] at e1
    rw [← e1.1, ← e1.2] at e2
    exact ⟨_, _, t', h3, e2⟩
  refine ⟨xs, qs, X, hne, hqs.symm, hX, fun i j u p hp => ?_, ?_⟩
  · obtain ⟨H', h1, h2, h3⟩ := hX' i j u p hp
    obtain ⟨p', ys, e1, _, _, _, _, e2, _⟩ := forgesBytes_view hW hE hS h1
    simp only [Prog.run] at e1 e2
    rw [h2] at e1
    simp only [Prod.mk.injEq] at e1
    have : ys = xs := List.map_injective_iff.mpr hinj (by rw [← e1.1, ← hqs])
    rw [this, ← e1.2] at e2
    exact ⟨H', h1, e2, h3⟩
  · rcases rewound_extracts hF C Q (by
      intro q hq
      rw [← hqs] at hq
      obtain ⟨x, _, rfl⟩ := List.mem_map.mp hq
      exact ⟨x.2.1, rfl⟩) hW (by omega) X hX hacc with h | h
    · exact Or.inl h
    · refine Or.inr fun x hx => ?_
      obtain ⟨z, h1, h2, h3⟩ := h (toQuery x) (by rw [← hqs]; exact List.mem_map_of_mem hx)
      obtain rfl : x.2.1 = z := Fin.ext (hdist _ _ x.2.1.2 z.2 h1)
      exact ⟨h2, h3⟩

/-- C66 for the bytes handed to `verify_proof`.  Let a program ask the hash at most `N` times and output bytes.  If
`verify_proof` says yes to them for more than the part `(N + 11) (513 + q + 2 (N + 11)) / |F|` of the hashes, there are runs of
the program that output bytes with the same queries, from which a non-trivial relation between the generators and `Q`, or
vectors that open the commitments sent and have the results sent, are computed. -/
theorem C66_ffi_random_oracle [Fintype F] {N qmax : ℕ} (hF : BigField F) (K : WireCodec F G)
    (hE : ∀ c x, c.length = 32 → K.decE c = some x → K.encE x = c)
    (hS : ∀ c x, c.length = 32 → K.decS c = some x → K.encS x = c) (C : Crypto F G) (Q : G)
    (A : Prog (List Byte) F (List Byte)) (hA : A.Within N) (H₀ : List Byte → F) (D : Finset (List Byte))
    (hD : ∀ s : List Byte, s.length ≤ 99 * qmax + 196 → s ∈ D)
    (h : (N + 11) * (513 + qmax + 2 * (N + 11)) * Fintype.card F ^ D.card <
      Fintype.card F * Fintype.card {H : D → F // ForgesBytes K C Q qmax A (over H₀ H)}) :
    ∃ (xs : List (G × Byte × F)) (qs : List (VerifierQuery F G)) (X : MultiTree F G qs.length (256 + qs.length - 1) 8),
      xs ≠ [] ∧ qs = xs.map toQuery ∧ X.Distinct 256 ∧
      (∀ i j u, ∀ p ∈ (X.ipa i j u).leaves, ∃ H : D → F, ForgesBytes K C Q qmax A (over H₀ H) ∧
        A.run (over H₀ H) = multiToBytes K ⟨p.2, X.D i⟩ ++ xs.flatMap (queryBytes K) ∧
        drawn ⟨K, over H₀ H⟩ (newTranscript (lbl "verkle")) ⟨p.2, X.D i⟩ qs = (X.r i, X.t i j, X.w i j u, p.1)) ∧
      ((∃ ρ ∈ X.rels qs.get 256, ρ ≠ 0 ∧ ∑ i : Fin 256, ρ.1 i • C.g i + ρ.2 • Q = 0) ∨
      ∀ x ∈ xs, ∑ i : Byte, vecOf qs X x.1 i • C.g i.val = x.1 ∧ vecOf qs X x.1 x.2.1 = x.2.2) :=
  rom_bytes_of spread_id hF K hE hS C Q A hA H₀ D hD (by rw [one_mul]; exact h)

/-- What `forgesBytes_honest` says, for a hash with values in `E` that `red` turns into challenges, each from at most `c` values. -/
theorem forgesBytes_honest_of {E : Type} [Fintype E] {red : E → F} {c : ℕ} (hred : Spread red c) {qmax : ℕ} (hF : BigField F) (K : WireCodec F G) (C : Crypto F G) (Q : G)
    {qs : List (ProverQuery F G)} (hne : qs ≠ []) (hq : qs.length ≤ qmax) (ht : ∀ q ∈ qs, TrueOpening (crsOf C Q) q) :
    ∃ A : Prog (List Byte) F (List Byte), A.Within 11 ∧
      ∀ (H₀ : List Byte → E) (D : Finset (List Byte)), (∀ s : List Byte, s.length ≤ 99 * qmax + 196 → s ∈ D) →
        Fintype.card E * Fintype.card {H : D → E // ¬ ForgesBytes K C Q qmax A (fun s => red (over H₀ H s))} ≤
          11 * (c * 257) * Fintype.card E ^ D.card := by
  have hdist : Ipa.Distinct F 256 := fun i j hi hj h => hF i j (hi.trans (by norm_num)) (hj.trans (by norm_num)) h
  obtain ⟨W, hW, _⟩ := new_good hdist (by norm_num)
  obtain ⟨A, hA, hA', hw⟩ := honest_wins_of hred (k := 8) (qmax := qmax) (crs := crsOf C Q) (by norm_num) rfl (by simp [crsOf]) hdist
    hW K (newTranscript (lbl "verkle")) hne hq ht
  let xs : List (G × Byte × F) := qs.map fun q => (q.commitment, asU8 q.point, q.result)
  have hxs : xs.map toQuery = qs.map ProverQuery.toVerifier := by
    rw [List.map_map]
    apply List.map_congr_left
    intro q hqm
    simp only [Function.comp, toQuery, ProverQuery.toVerifier]
    rw [show (asU8 q.point).val = q.point from Nat.mod_eq_of_lt (ht q hqm).point]
  let f : List (VerifierQuery F G) × MultiProof F G → Prog (List Byte) F (List Byte) := fun o =>
    .ret (multiToBytes K o.2 ++ xs.flatMap (queryBytes K))
  refine ⟨A.bind f, Prog.Within.bind (f := f) (n := 0) (fun _ => trivial) hA, fun H₀ D hD => ?_⟩
  refine le_trans (Nat.mul_le_mul_left _ (Fintype.card_subtype_mono _ _ ?_)) (hw H₀ D fun s hs => hD s (by
    have : (newTranscript (lbl "verkle")).length = 6 := rfl
    rw [this] at hs
    omega))
  intro H hH hf
  apply hH
  obtain ⟨_, _, _, t', h5⟩ := hf
  obtain ⟨h3, h4⟩ := checkMulti_rounds (k := 8) rfl (by simp [crsOf]) h5
  rw [hA', ← hxs] at h5
  have hrun : (A.bind f).run (fun s => red (over H₀ H s)) = multiToBytes K (A.run (fun s => red (over H₀ H s))).2 ++ xs.flatMap (queryBytes K) := by
    rw [Prog.run_bind]
    rfl
  have h8 : (xs.map fun q => (queryBytes K q).length) = xs.map fun _ => 65 :=
    List.map_congr_left fun q _ => verifierQueryBytes_length K (K.encE_len _) _ _
  have hlen : ((A.bind f).run (fun s => red (over H₀ H s))).length = 576 + 65 * qs.length := by
    rw [hrun, List.length_append, multiToBytes_length, h3, h4, List.length_flatMap, h8]
    rw [List.map_const', List.sum_replicate, show xs.length = qs.length from List.length_map ..]
    simp [mul_comm]
  have hpos : 0 < qs.length := List.length_pos_of_ne_nil hne
  refine ⟨by omega, by omega, ?_⟩
  unfold verifyProof
  rw [hW, hrun, C49_verifier K h3 h4 xs]
  simp only [bind, Except.bind, h5]

/-- The hypotheses of `C66_ffi_random_oracle` are met by the honest prover. -/
theorem forgesBytes_honest [Fintype F] {qmax : ℕ} (hF : BigField F) (K : WireCodec F G) (C : Crypto F G) (Q : G)
    {qs : List (ProverQuery F G)} (hne : qs ≠ []) (hq : qs.length ≤ qmax) (ht : ∀ q ∈ qs, TrueOpening (crsOf C Q) q) :
    ∃ A : Prog (List Byte) F (List Byte), A.Within 11 ∧
      ∀ (H₀ : List Byte → F) (D : Finset (List Byte)), (∀ s : List Byte, s.length ≤ 99 * qmax + 196 → s ∈ D) →
        Fintype.card F * Fintype.card {H : D → F // ¬ ForgesBytes K C Q qmax A (over H₀ H)} ≤
          11 * 257 * Fintype.card F ^ D.card := by
  have h := forgesBytes_honest_of (qmax := qmax) spread_id hF K C Q hne hq ht
  simp only [one_mul] at h
  exact h

end

open Verif.Bander

/-- The bytes output by a program make the C function `verify_proof` answer yes about at least one and at most `qmax` queries. -/
def ForgesC (K : Ark) (ctx : ProofContext) (S : Sqrt (ZMod Bander.q)) (qmax : ℕ)
    (A : Prog (List Byte) (ZMod r) (List Byte)) (H : List Byte → ZMod r) : Prop :=
  576 < (A.run H).length ∧ (A.run H).length ≤ 576 + 65 * qmax ∧ cVerifyProof K H ctx S (A.run H) = .ok true

/-- C66 for the C interface over Bandersnatch.  Let a program ask the hash at most `N` times and output bytes.  If the C function
`verify_proof` says yes to them for more than the part `(N + 11) (513 + q + 2 (N + 11)) / r` of the hashes, there are runs of the
program that output bytes with the same queries, from which a non-trivial relation between the generators of the default
reference string and `Q`, or vectors that open the commitments sent and have the results sent, are computed. -/
theorem C66_c_random_oracle [Fintype (ZMod r)] {N qmax : ℕ} (K : Ark) {ctx : ProofContext} (hctx : ProofContext.new = .ok ctx)
    (S : Sqrt (ZMod Bander.q)) (A : Prog (List Byte) (ZMod r) (List Byte)) (hA : A.Within N) (H₀ : List Byte → ZMod r)
    (D : Finset (List Byte)) (hD : ∀ s : List Byte, s.length ≤ 99 * qmax + 196 → s ∈ D)
    (h : (N + 11) * (513 + qmax + 2 * (N + 11)) * r ^ D.card <
      r * Fintype.card {H : D → ZMod r // ForgesC K ctx S qmax A (over H₀ H)}) :
    ∃ (xs : List (BElem × Byte × ZMod r)) (qs : List (VerifierQuery (ZMod r) BElem))
      (X : MultiTree (ZMod r) BElem qs.length (256 + qs.length - 1) 8),
      xs ≠ [] ∧ qs = xs.map toQuery ∧ X.Distinct 256 ∧
      (∀ i j u, ∀ p ∈ (X.ipa i j u).leaves, ∃ H : D → ZMod r, ForgesC K ctx S qmax A (over H₀ H) ∧
        A.run (over H₀ H) = multiToBytes codec ⟨p.2, X.D i⟩ ++ xs.flatMap (queryBytes codec) ∧
        drawn ⟨codec, over H₀ H⟩ (newTranscript (lbl "verkle")) ⟨p.2, X.D i⟩ qs = (X.r i, X.t i j, X.w i j u, p.1)) ∧
      ((∃ ρ ∈ X.rels qs.get 256, ρ ≠ 0 ∧ ∑ i : Fin 256, ρ.1 i • crypto.g i + ρ.2 • genPt = 0) ∨
      ∀ x ∈ xs, ∑ i : Byte, vecOf qs X x.1 i • crypto.g i.val = x.1 ∧ vecOf qs X x.1 x.2.1 = x.2.2) := by
  have e : ∀ H, ForgesC K ctx S qmax A H ↔ ForgesBytes codec crypto genPt qmax A H := by
    intro H
    unfold ForgesC ForgesBytes
    rw [C59_verify K H hctx S]
  simp only [e] at h ⊢
  exact C66_ffi_random_oracle C52_scalar_field.1 codec (fun _ _ _ h => (C52_canonical.1 _ _).1 h)
    (fun _ _ _ h => (C52_canonical.2 _ _).1 h) crypto genPt A hA H₀ D hD (by rw [ZMod.card]; exact h)

/-- The hypotheses of `C66_c_random_oracle` are met by the honest prover for the openings of two vectors. -/
example [Fintype (ZMod r)] (H₀ : List Byte → ZMod r) : ∃ (K : Ark) (ctx : ProofContext) (S : Sqrt (ZMod Bander.q))
    (A : Prog (List Byte) (ZMod r) (List Byte)) (D : Finset (List Byte)), ProofContext.new = .ok ctx ∧ A.Within 11 ∧
      (∀ s : List Byte, s.length ≤ 99 * 2 + 196 → s ∈ D) ∧ (11 + 11) * (513 + 2 + 2 * (11 + 11)) * r ^ D.card <
        r * Fintype.card {H : D → ZMod r // ForgesC K ctx S 2 A (over H₀ H)} := by
  obtain ⟨K, -⟩ := exists_ark
  obtain ⟨ctx, hctx, -⟩ := C59_context
  obtain ⟨A, hA, hw⟩ := forgesBytes_honest (qmax := 2) C52_scalar_field.1 codec crypto genPt (qs := sampleQueries)
    (List.cons_ne_nil _ _) (le_of_eq rfl) sampleQueries_ok.2
  refine ⟨K, ctx, someSqrt _, A, shortStrings (99 * 2 + 196), hctx, hA, fun s h => mem_shortStrings h, ?_⟩
  have e : ∀ H, ForgesC K ctx (someSqrt _) 2 A H ↔ ForgesBytes codec crypto genPt 2 A H := by
    intro H
    unfold ForgesC ForgesBytes
    rw [C59_verify K H hctx _]
  simp only [e]
  have := win_of_lose (b := (11 + 11) * (513 + 2 + 2 * (11 + 11))) (hw H₀ _ fun s h => mem_shortStrings h)
    (by rw [ZMod.card]; decide +kernel)
  rw [ZMod.card] at this
  exact this

end Verif.Props
