import Verif.Props.RomPair
import Verif.Props.OneStem
import Verif.Props.Convince

/-!
# Programs that toss coins

The theorems on random challenges and on a random hash are about deterministic provers. Here the prover depends on coins, drawn from a finite
set independently of the challenges or the hash, and what counts is how often it is accepted over coins and challenges together.
-/

set_option autoImplicit false
set_option linter.unusedSectionVars false

namespace Verif.Props
open Verif Verif.Spec Verif.Trie Verif.Proof Verif.Ipa Verif.Wire Verif.Eip
open scoped Classical

variable {F G : Type} [Field F] [AddCommGroup G] [Module F G]

/-- If something happens often over coins and challenges, then for some coins it happens often over the challenges. -/
theorem exists_coin {Ω X : Type} [Fintype Ω] [Fintype X] (W : Ω → X → Prop) {a b : ℕ}
    (h : b * Fintype.card Ω < a * Fintype.card {c : Ω × X // W c.1 c.2}) : ∃ ω, b < a * Fintype.card {x // W ω x} := by
  by_contra hn
  push Not at hn
  have e : Fintype.card {c : Ω × X // W c.1 c.2} = ∑ ω, Fintype.card {x // W ω x} := by
    rw [← Fintype.card_sigma]
    exact Fintype.card_congr ⟨fun c => ⟨c.1.1, c.1.2, c.2⟩, fun c => ⟨(c.1, c.2.1), c.2.2⟩, fun _ => rfl, fun _ => rfl⟩
  rw [e, Finset.mul_sum] at h
  refine absurd h (not_lt.2 ((Finset.sum_le_card_nsmul _ _ b fun ω _ => hn ω).trans ?_))
  rw [smul_eq_mul, Finset.card_univ, mul_comm]

/-- What happens often for all coins happens often over coins and challenges. -/
theorem all_coins {Ω X : Type} [Fintype Ω] [Nonempty Ω] [Fintype X] (W : Ω → X → Prop) {a b : ℕ}
    (h : ∀ ω, b < a * Fintype.card {x // W ω x}) : b * Fintype.card Ω < a * Fintype.card {c : Ω × X // W c.1 c.2} := by
  have e : Fintype.card {c : Ω × X // W c.1 c.2} = ∑ ω, Fintype.card {x // W ω x} := by
    rw [← Fintype.card_sigma]
    exact Fintype.card_congr ⟨fun c => ⟨c.1.1, c.1.2, c.2⟩, fun c => ⟨(c.1, c.2.1), c.2.2⟩, fun _ => rfl, fun _ => rfl⟩
  rw [e, Finset.mul_sum]
  refine lt_of_eq_of_lt ?_ (Finset.sum_lt_sum_of_nonempty (s := Finset.univ) (f := fun _ => b) Finset.univ_nonempty fun ω _ => h ω)
  rw [Finset.sum_const, smul_eq_mul, Finset.card_univ, mul_comm]

/-- C65 with coins.  A prover that tosses coins is accepted for more than the part `(2 n + 2 q + 4 k) / |F|` of the coins and challenges. Then
for some coins there are runs from which a relation or openings are computed. -/
theorem C65_coins [DecidableEq F] [DecidableEq G] {Ω : Type} [Fintype Ω] [Fintype F] {k : ℕ} {crs : CRS G} (hn : crs.n = 2 ^ k) (hg : crs.gens.length = 2 ^ k)
    (hF : Distinct F crs.n) {W : Weights F} (hW : Weights.new F crs.n = .ok W) {qs : List (VerifierQuery F G)} (hne : qs ≠ [])
    (hq : ∀ q ∈ qs, ∃ p, p < crs.n ∧ q.point = (p : F)) (S : Ω → MultiStrat F G k)
    (h : (2 * crs.n + 2 * qs.length + 4 * k) * Fintype.card F ^ (k + 2) * Fintype.card Ω <
      Fintype.card {c : Ω × F × F × F × (Fin k → F) // Convinces crs W qs (S c.1) c.2}) :
    ∃ (ω : Ω) (X : MultiTree F G qs.length (crs.n + qs.length - 1) k), X.Distinct crs.n ∧
      (∀ i j u, ∀ p ∈ (X.ipa i j u).leaves, ∃ x, p.1 = List.ofFn x ∧ (S ω).run (X.r i, X.t i j, X.w i j u, x) = ⟨p.2, X.D i⟩ ∧
        Convinces crs W qs (S ω) (X.r i, X.t i j, X.w i j u, x)) ∧
      ((∃ ρ ∈ X.rels qs.get crs.n, ρ ≠ 0 ∧ ∑ i : Fin crs.n, ρ.1 i • crs.gens.getD i 0 + ρ.2 • crs.Q = 0) ∨
      ∃ v : Fin qs.length → Fin crs.n → F, (∀ l, X.vec qs.get crs.n l = (v l, 0)) ∧
        (∀ l, ∑ i : Fin crs.n, v l i • crs.gens.getD i 0 = (qs.get l).commitment) ∧
        (∀ l (p : Fin crs.n), (qs.get l).point = ((p : ℕ) : F) → v l p = (qs.get l).result) ∧
        ∀ l l', (qs.get l).commitment = (qs.get l').commitment → v l = v l') := by
  obtain ⟨ω, hω⟩ := exists_coin (fun ω c => Convinces crs W qs (S ω) c) (a := 1)
    (b := (2 * crs.n + 2 * qs.length + 4 * k) * Fintype.card F ^ (k + 2)) (by rwa [one_mul])
  exact ⟨ω, C65_multipoint_convincing hn hg hF hW hne hq (S ω) (by rwa [one_mul] at hω)⟩

/-- C66 with coins.  A program that tosses coins and asks a random hash at most `N` times outputs queries and a proof that are accepted for
more than the part `(N + k + 3) (2 n + q + 1 + 2 (N + k + 3)) / |F|` of the coins and hashes. Then for some coins there are runs, all with
the same queries, from which a relation or openings are computed. -/
theorem C66_coins [DecidableEq F] [DecidableEq G] {Ω : Type} [Fintype Ω] [Fintype F] {k N qmax : ℕ} {crs : CRS G} (hn : crs.n = 2 ^ k) (hg : crs.gens.length = 2 ^ k)
    (hF : Distinct F crs.n) {W : Weights F} (hW : Weights.new F crs.n = .ok W) (K : WireCodec F G) (t₀ : Transcript)
    (A : Ω → Prog (List Byte) F (List (VerifierQuery F G) × MultiProof F G)) (hA : ∀ ω, (A ω).Within N) (H₀ : List Byte → F)
    (D : Finset (List Byte)) (hD : ∀ s : List Byte, s.length ≤ t₀.length + 99 * qmax + 190 → s ∈ D)
    (h : (N + k + 3) * (2 * crs.n + qmax + 1 + 2 * (N + k + 3)) * Fintype.card F ^ D.card * Fintype.card Ω <
      Fintype.card F * Fintype.card {c : Ω × (D → F) // Forges K t₀ crs W qmax (A c.1) (over H₀ c.2)}) :
    ∃ (ω : Ω) (qs : List (VerifierQuery F G)) (X : MultiTree F G qs.length (crs.n + qs.length - 1) k), X.Distinct crs.n ∧
      (∀ i j u, ∀ p ∈ (X.ipa i j u).leaves, ∃ H : D → F, Forges K t₀ crs W qmax (A ω) (over H₀ H) ∧
        (A ω).run (over H₀ H) = (qs, ⟨p.2, X.D i⟩) ∧
        drawn ⟨K, over H₀ H⟩ t₀ ⟨p.2, X.D i⟩ qs = (X.r i, X.t i j, X.w i j u, p.1)) ∧
      ((∃ ρ ∈ X.rels qs.get crs.n, ρ ≠ 0 ∧ ∑ i : Fin crs.n, ρ.1 i • crs.gens.getD i 0 + ρ.2 • crs.Q = 0) ∨
      ∃ v : Fin qs.length → Fin crs.n → F, (∀ l, X.vec qs.get crs.n l = (v l, 0)) ∧
        (∀ l, ∑ i : Fin crs.n, v l i • crs.gens.getD i 0 = (qs.get l).commitment) ∧
        (∀ l (p : Fin crs.n), (qs.get l).point = ((p : ℕ) : F) → v l p = (qs.get l).result) ∧
        ∀ l l', (qs.get l).commitment = (qs.get l').commitment → v l = v l') := by
  obtain ⟨ω, hω⟩ := exists_coin (fun ω H => Forges K t₀ crs W qmax (A ω) (over H₀ H)) h
  exact ⟨ω, C66_random_oracle hn hg hF hW K t₀ (A ω) (hA ω) H₀ D hD hω⟩

/-- C75 for accounts with coins; the state, too, may be chosen with the coins.  If over coins and hashes a client accepts something false,
with at least one value shown, for more than the part `(N + 11) (513 + 36 n + 2 (N + 11)) / |F|`, then for some coins there are runs from
which a relation or vectors breaking the commitments are computed. -/
theorem C75_account_coins {Ω : Type} [Fintype Ω] [Fintype F] {N n : ℕ} (hF : BigField F) (K : WireCodec F G) (C : Crypto F G) (Q : G)
    (order : List (ProverQuery F G) → List ℕ) (H : Hash64) (w : Ω → List (Slot × Value)) (hw : ∀ ω, ∀ x ∈ w ω, x.1.2.Valid)
    {l : Ω → List (Key × Value)} (hl : ∀ ω, stateWrites H (w ω) = .ok (l ω)) {db : Ω → MemoryDb F G} (hb : ∀ ω, build C (l ω) = .ok (db ω))
    {root : Ω → G} (hr : ∀ ω, Trie.rootCommitment (db ω) = .ok (root ω)) (A : Ω → Prog (List Byte) F (AccountClaim F G))
    (hA : ∀ ω, (A ω).Within N) (R₀ : List Byte → F) (D : Finset (List Byte))
    (hD : ∀ s : List Byte, s.length ≤ 99 * (36 * n) + 192 → s ∈ D)
    (h : (N + 11) * (513 + 36 * n + 2 * (N + 11)) * Fintype.card F ^ D.card * Fintype.card Ω <
      Fintype.card F * Fintype.card {c : Ω × (D → F) // ForgesAccount K C Q order H (w c.1) (root c.1) n (A c.1) (over R₀ c.2)}) :
    ∃ (ω : Ω) (qs : List (VerifierQuery F G)) (X : MultiTree F G qs.length (255 + qs.length) 8), X.Distinct 256 ∧
      (∀ i j u, ∀ p ∈ (X.ipa i j u).leaves, ∃ R : D → F, ForgesAccount K C Q order H (w ω) (root ω) n (A ω) (over R₀ R) ∧
        MakesQueries C (root ω) (accountCheck H ((A ω).run (over R₀ R))) qs ∧ ((A ω).run (over R₀ R)).1.proof = ⟨p.2, X.D i⟩ ∧
        drawn ⟨K, over R₀ R⟩ (newTranscript (lbl "vt")) ⟨p.2, X.D i⟩ qs = (X.r i, X.t i j, X.w i j u, p.1)) ∧
      ((∃ ρ ∈ X.rels qs.get 256, ρ ≠ 0 ∧ ∑ i : Fin 256, ρ.1 i • C.g i + ρ.2 • Q = 0) ∨
      ProofBreak C (lastWrite (l ω)) (vecOf qs X) qs) := by
  obtain ⟨ω, hω⟩ := exists_coin (fun ω R => ForgesAccount K C Q order H (w ω) (root ω) n (A ω) (over R₀ R)) h
  exact ⟨ω, C75_account_random_hash hF K C Q order H (w ω) (hw ω) (hl ω) (hb ω) (hr ω) (A ω) (hA ω) R₀ D hD hω⟩

/-- C79 with coins.  If over coins and hashes a program outputs a root and two accepted proofs that contradict each other at the same depth for
more than the part `2 (N + 11) (513 + 36 n + 2 (N + 11)) / |F|`, then for some coins there is a run with the openings of both proofs found
and a relation or vectors breaking the commitments computed from them. -/
theorem C79_coins {Ω : Type} [Fintype Ω] [Fintype F] {N n : ℕ} (hF : BigField F) (K : WireCodec F G) (C : Crypto F G) (Q : G)
    (order : List (ProverQuery F G) → List ℕ) (A : Ω → Prog (List Byte) F (PairClaim F G)) (hA : ∀ ω, (A ω).Within N)
    (H₀ : List Byte → F) (D : Finset (List Byte)) (hD : ∀ s : List Byte, s.length ≤ 99 * (36 * n) + 192 → s ∈ D)
    (h : 2 * ((N + 11) * (513 + 36 * n + 2 * (N + 11))) * Fintype.card F ^ D.card * Fintype.card Ω <
      Fintype.card F * Fintype.card {c : Ω × (D → F) // ForgesPair K C Q order n (A c.1) (over H₀ c.2)}) :
    ∃ (ω : Ω) (H : D → F) (qs qs' : List (VerifierQuery F G)) (X : MultiTree F G qs.length (255 + qs.length) 8)
      (X' : MultiTree F G qs'.length (255 + qs'.length) 8), ForgesPair K C Q order n (A ω) (over H₀ H) ∧
      MakesQueries C ((A ω).run (over H₀ H)).1 ((A ω).run (over H₀ H)).2.1 qs ∧
      MakesQueries C ((A ω).run (over H₀ H)).1 ((A ω).run (over H₀ H)).2.2 qs' ∧ X.Distinct 256 ∧ X'.Distinct 256 ∧
      LeavesRun id K C (A ω) (·.1) (·.2.1) (ForgesPair K C Q order n (A ω)) H₀ D qs X ∧
      LeavesRun id K C (A ω) (·.1) (·.2.2) (ForgesPair K C Q order n (A ω)) H₀ D qs' X' ∧
      ((∃ ρ ∈ X.rels qs.get 256 ++ X'.rels qs'.get 256, ρ ≠ 0 ∧ ∑ i : Fin 256, ρ.1 i • C.g i + ρ.2 • Q = 0) ∨
      PairBreak C (vecOf qs X) (vecOf qs' X') qs qs') := by
  obtain ⟨ω, hω⟩ := exists_coin (fun ω H => ForgesPair K C Q order n (A ω) (over H₀ H)) h
  exact ⟨ω, C79_random_hash hF K C Q order (A ω) (hA ω) H₀ D hD hω⟩

/-- The hypotheses of `C65_coins` are met for the queries `toyQueries`. -/
example : True := by
  have hn : toyCrs.n = 4 := rfl
  have hl : (toyQueries.map ProverQuery.toVerifier).length = 3 := rfl
  obtain ⟨W, hW, _⟩ := new_good (toy_distinct (n := 4) (by norm_num)) (by norm_num)
  obtain ⟨S, hS⟩ := C65_honest_convincing (k := 2) (crs := toyCrs) (by norm_num) rfl rfl (toy_distinct (by rw [hn]; norm_num)) hW
    (qs := toyQueries) (by simp [toyQueries]) toyQueries_true toyWire
  have h := all_coins (Ω := Bool) (fun _ c => Convinces toyCrs W (toyQueries.map ProverQuery.toVerifier) S c) (a := 1)
    (b := (2 * toyCrs.n + 2 * (toyQueries.map ProverQuery.toVerifier).length + 4 * 2) * Fintype.card (ZMod 101) ^ (2 + 2)) (fun _ => by
      rw [one_mul]
      refine lt_of_lt_of_le ?_ hS
      rw [hn, hl, ZMod.card]
      decide)
  have _h := C65_coins (crs := toyCrs) (k := 2) (qs := toyQueries.map ProverQuery.toVerifier) rfl rfl (toy_distinct (by rw [hn]; norm_num)) hW (by simp [toyQueries])
    (fun q hq => by
      obtain ⟨q', hq', rfl⟩ := List.mem_map.1 hq
      exact ⟨q'.point, (toyQueries_true q' hq').point, rfl⟩) (fun _ : Bool => S) (by rwa [one_mul] at h)
  trivial

/-- The hypotheses of `C66_coins` are met over Bandersnatch by two honest provers, one of which is chosen by a coin: one opens the nodes of a
trie with one key, the other only the first of them. -/
noncomputable example (Q : Bander.BElem) (H₀ : List Byte → ZMod Bander.r) : True :=
  letI := Classical.decEq Bander.BElem
  haveI : NeZero Bander.r := ⟨by decide +kernel⟩
  have hD : Ipa.Distinct (ZMod Bander.r) 256 :=
    fun i j hi hj h => C52_scalar_field.1 i j (hi.trans (by norm_num)) (hj.trans (by norm_num)) h
  let ⟨_, hW, _⟩ := new_good hD (by norm_num)
  have hp := fun b : Bool => C66_honest_wins (k := 8) (qmax := 6) (crs := crsOf Bander.crypto Q) (by norm_num) rfl (by simp [crsOf]) hD
    hW Bander.codec [] (qs := if b then soloQueries Bander.crypto else (soloQueries Bander.crypto).take 1)
    (by cases b <;> simp [soloQueries]) (by cases b <;> simp [soloQueries])
    (fun q hq => (soloQueries_true Bander.crypto q (by
      cases b
      · exact List.mem_of_mem_take hq
      · exact hq)).opening Q)
  have _h := C66_coins (k := 8) (qmax := 6) rfl (by simp [crsOf]) hD hW Bander.codec [] (fun b => (hp b).choose)
    (fun b => (hp b).choose_spec.1) H₀ (shortStrings (([] : Transcript).length + 99 * 6 + 190)) (fun _ h => mem_shortStrings h)
    (all_coins _ fun b => win_of_lose ((hp b).choose_spec.2.2 H₀ _ fun _ h => mem_shortStrings h) (by
      have : (crsOf Bander.crypto Q).n = 256 := rfl
      rw [ZMod.card, this]
      decide +kernel))
  trivial

/-- Those of `C79_coins` are met if the generators are zero, by a program that ignores the coin. -/
example [Fintype F] (hF : BigField F) (C : Crypto F G) (hC : ∀ i, C.g i = 0) (K : WireCodec F G) (Q : G)
    (order : List (ProverQuery F G) → List ℕ) (H₀ : List Byte → F) (hbig : 50000 < Fintype.card F) : True := by
  obtain ⟨A, D, hA, hD, h⟩ := forges_pair hF C hC K Q order H₀ hbig
  have _h := C79_coins (Ω := Bool) (n := 1) hF K C Q order (fun _ => A) (fun _ => hA) H₀ D hD (all_coins _ fun _ => h)
  trivial

/-- Those of `C75_account_coins`, likewise. -/
example [Fintype F] (hF : BigField F) (C : Crypto F G) (hC : ∀ i, C.g i = 0) (K : WireCodec F G) (Q : G)
    (order : List (ProverQuery F G) → List ℕ) (R₀ : List Byte → F) (hbig : 20000 < Fintype.card F) (a : Bytes 32) : True := by
  obtain ⟨H, db, root, A, D, hl, hb, hr, hA, hD, h⟩ := forges_account hF C hC K Q order R₀ hbig a
  have _h := C75_account_coins (Ω := Bool) (n := 1) hF K C Q order H (fun _ => []) (fun _ _ h => by cases h) (fun _ => hl) (fun _ => hb)
    (fun _ => hr) (fun _ => A) (fun _ => hA) R₀ D hD (all_coins _ fun _ => h)
  trivial

end Verif.Props
