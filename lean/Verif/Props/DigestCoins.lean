import Verif.Props.RobustBytes
import Verif.Props.Coins

/-!
# Programs that toss coins and ask a hash to 32 bytes

C83, C84 and C86 for programs that toss coins, drawn from a finite set independently of the hash.
-/

set_option autoImplicit false
set_option linter.unusedSectionVars false
set_option linter.constructorNameAsVariable false

namespace Verif.Props
open Verif Verif.Spec Verif.Trie Verif.Proof Verif.Ipa Verif.Wire Verif.Ffi Verif.Eip Verif.Bander
open scoped Classical

/-- What happens seldom for all coins happens seldom over coins and hashes. -/
theorem coins_le {Ω X : Type} [Fintype Ω] [Fintype X] (W : Ω → X → Prop) {a b : ℕ} (h : ∀ ω, a * Fintype.card {x // W ω x} ≤ b) :
    a * Fintype.card {c : Ω × X // W c.1 c.2} ≤ b * Fintype.card Ω := by
  by_contra hn
  obtain ⟨ω, hω⟩ := exists_coin W (not_le.1 hn)
  exact absurd (h ω) (not_le.2 hω)

/-- C83 for the C interface with coins. -/
theorem C83_c_coins {Ω : Type} [Fintype Ω] {N qmax : ℕ} (K : Ark) {ctx : ProofContext} (hctx : ProofContext.new = .ok ctx)
    (S : Sqrt (ZMod Bander.q)) (A : Ω → Prog (List Byte) Digest (List Byte)) (hA : ∀ ω, (A ω).Within N) (H₀ : List Byte → Digest)
    (D : Finset (List Byte)) (hD : ∀ s : List Byte, s.length ≤ 99 * qmax + 196 → s ∈ D)
    (h : (N + 11) * (9 * (513 + qmax + 2 * (N + 11))) * Fintype.card Digest ^ D.card * Fintype.card Ω <
      Fintype.card Digest * Fintype.card {c : Ω × (D → Digest) // ForgesC K ctx S qmax (.ret ((A c.1).run (over H₀ c.2))) (chal (over H₀ c.2))}) :
    ∃ (ω : Ω) (xs : List (BElem × Byte × ZMod r)) (qs : List (VerifierQuery (ZMod r) BElem))
      (X : MultiTree (ZMod r) BElem qs.length (256 + qs.length - 1) 8),
      xs ≠ [] ∧ qs = xs.map toQuery ∧ X.Distinct 256 ∧
      (∀ i j u, ∀ p ∈ (X.ipa i j u).leaves, ∃ H : D → Digest, ForgesC K ctx S qmax (.ret ((A ω).run (over H₀ H))) (chal (over H₀ H)) ∧
        (A ω).run (over H₀ H) = multiToBytes codec ⟨p.2, X.D i⟩ ++ xs.flatMap (queryBytes codec) ∧
        drawn ⟨codec, chal (over H₀ H)⟩ (newTranscript (lbl "verkle")) ⟨p.2, X.D i⟩ qs = (X.r i, X.t i j, X.w i j u, p.1)) ∧
      ((∃ ρ ∈ X.rels qs.get 256, ρ ≠ 0 ∧ ∑ i : Fin 256, ρ.1 i • crypto.g i + ρ.2 • genPt = 0) ∨
      ∀ x ∈ xs, ∑ i : Byte, vecOf qs X x.1 i • crypto.g i.val = x.1 ∧ vecOf qs X x.1 x.2.1 = x.2.2) := by
  obtain ⟨ω, hω⟩ := exists_coin (fun ω H => ForgesC K ctx S qmax (.ret ((A ω).run (over H₀ H))) (chal (over H₀ H))) h
  exact ⟨ω, C83_c K hctx S (A ω) (hA ω) H₀ D hD hω⟩

section
variable {G : Type} [AddCommGroup G] [Module (ZMod r) G]

attribute [-instance] ZMod.decidableEq

/-- C84 for one stem with coins: writes, proof and claims depend on coins and digests. -/
theorem C84_one_stem_coins {Ω : Type} [Fintype Ω] {N n : ℕ} (K : WireCodec (ZMod r) G) (C : Crypto (ZMod r) G) (Q : G)
    (order : List (ProverQuery (ZMod r) G) → List ℕ)
    (A : Ω → Prog (List Byte) Digest (List (Key × Value) × VerkleProof G (MultiProof (ZMod r) G) × List Key × List (Option Value))) (hA : ∀ ω, (A ω).Within N)
    (H₀ : List Byte → Digest) (D : Finset (List Byte)) (hD : ∀ s : List Byte, s.length ≤ 99 * (36 * n) + 192 → s ∈ D)
    (h : (N + 11) * (9 * (513 + (36 * n) + 2 * (N + 11))) * Fintype.card Digest ^ D.card * Fintype.card Ω <
      Fintype.card Digest * Fintype.card {c : Ω × (D → Digest) // ChosenStem K C Q order n ((A c.1).run (over H₀ c.2)) (chal (over H₀ c.2))}) :
    ∃ (ω : Ω) (qs : List (VerifierQuery (ZMod r) G)) (X : MultiTree (ZMod r) G qs.length (255 + qs.length) 8), X.Distinct 256 ∧
      (∀ i j u, ∀ p ∈ (X.ipa i j u).leaves, ∃ H : D → Digest, ChosenStem K C Q order n ((A ω).run (over H₀ H)) (chal (over H₀ H)) ∧
        (∃ root, RootOf C ((A ω).run (over H₀ H)).1 root ∧ MakesQueries C root ((A ω).run (over H₀ H)).2 qs) ∧ ((A ω).run (over H₀ H)).2.1.proof = ⟨p.2, X.D i⟩ ∧
        drawn ⟨K, chal (over H₀ H)⟩ (newTranscript (lbl "vt")) ⟨p.2, X.D i⟩ qs = (X.r i, X.t i j, X.w i j u, p.1)) ∧
      ((∃ ρ ∈ X.rels qs.get 256, ρ ≠ 0 ∧ ∑ i : Fin 256, ρ.1 i • C.g i + ρ.2 • Q = 0) ∨
      ∃ H : D → Digest, ChosenStem K C Q order n ((A ω).run (over H₀ H)) (chal (over H₀ H)) ∧
        (∃ root, RootOf C ((A ω).run (over H₀ H)).1 root ∧ MakesQueries C root ((A ω).run (over H₀ H)).2 qs) ∧ ProofBreak C (lastWrite ((A ω).run (over H₀ H)).1) (vecOf qs X) qs) := by
  obtain ⟨ω, hω⟩ := exists_coin (fun ω H => ChosenStem K C Q order n ((A ω).run (over H₀ H)) (chal (over H₀ H))) h
  exact ⟨ω, C84_one_stem K C Q order (A ω) (hA ω) H₀ D hD hω⟩

/-- C84 for accounts with coins. -/
theorem C84_account_coins {Ω : Type} [Fintype Ω] {N n : ℕ} (K : WireCodec (ZMod r) G) (C : Crypto (ZMod r) G) (Q : G)
    (order : List (ProverQuery (ZMod r) G) → List ℕ) (P : Hash64)
    (A : Ω → Prog (List Byte) Digest (List (Slot × Value) × AccountClaim (ZMod r) G)) (hA : ∀ ω, (A ω).Within N)
    (H₀ : List Byte → Digest) (D : Finset (List Byte)) (hD : ∀ s : List Byte, s.length ≤ 99 * (36 * n) + 192 → s ∈ D)
    (h : (N + 11) * (9 * (513 + (36 * n) + 2 * (N + 11))) * Fintype.card Digest ^ D.card * Fintype.card Ω <
      Fintype.card Digest * Fintype.card {c : Ω × (D → Digest) // ChosenAccount K C Q order P n ((A c.1).run (over H₀ c.2)) (chal (over H₀ c.2))}) :
    ∃ (ω : Ω) (qs : List (VerifierQuery (ZMod r) G)) (X : MultiTree (ZMod r) G qs.length (255 + qs.length) 8), X.Distinct 256 ∧
      (∀ i j u, ∀ p ∈ (X.ipa i j u).leaves, ∃ H : D → Digest, ChosenAccount K C Q order P n ((A ω).run (over H₀ H)) (chal (over H₀ H)) ∧
        (∃ root, (∃ l, stateWrites P ((A ω).run (over H₀ H)).1 = .ok l ∧ RootOf C l root) ∧ MakesQueries C root (accountCheck P ((A ω).run (over H₀ H)).2) qs) ∧ (accountCheck P ((A ω).run (over H₀ H)).2).1.proof = ⟨p.2, X.D i⟩ ∧
        drawn ⟨K, chal (over H₀ H)⟩ (newTranscript (lbl "vt")) ⟨p.2, X.D i⟩ qs = (X.r i, X.t i j, X.w i j u, p.1)) ∧
      ((∃ ρ ∈ X.rels qs.get 256, ρ ≠ 0 ∧ ∑ i : Fin 256, ρ.1 i • C.g i + ρ.2 • Q = 0) ∨
      ∃ H : D → Digest, ChosenAccount K C Q order P n ((A ω).run (over H₀ H)) (chal (over H₀ H)) ∧
        (∃ root, (∃ l, stateWrites P ((A ω).run (over H₀ H)).1 = .ok l ∧ RootOf C l root) ∧ MakesQueries C root (accountCheck P ((A ω).run (over H₀ H)).2) qs) ∧ ∃ l, stateWrites P ((A ω).run (over H₀ H)).1 = .ok l ∧ ProofBreak C (lastWrite l) (vecOf qs X) qs) := by
  obtain ⟨ω, hω⟩ := exists_coin (fun ω H => ChosenAccount K C Q order P n ((A ω).run (over H₀ H)) (chal (over H₀ H))) h
  exact ⟨ω, C84_account K C Q order P (A ω) (hA ω) H₀ D hD hω⟩

end

section
variable {G : Type} [AddCommGroup G] [DecidableEq G] [Module (ZMod r) G]

/-- C86 for tries with coins. -/
theorem C86_proofs_coins {Ω : Type} [Fintype Ω] {N n : ℕ} (hn : 36 * n < 2 ^ 32) (K : WireCodec (ZMod r) G) (C : Crypto (ZMod r) G) (Q : G)
    {order : List (ProverQuery (ZMod r) G) → List ℕ} (ho : ∀ qs, IsOrder qs (order qs))
    (A : Ω → Prog (List Byte) Digest (List (Key × Value) × List Key)) (hA : ∀ ω, (A ω).Within N) (H₀ : List Byte → Digest) (D : Finset (List Byte))
    (hD : ∀ s : List Byte, s.length ≤ 99 * (36 * n) + 192 → s ∈ D)
    (h : (N + 13) * (9 * 256) * Fintype.card Digest ^ D.card * Fintype.card Ω <
      Fintype.card Digest * Fintype.card {c : Ω × (D → Digest) // FailsProof K C Q order n ((A c.1).run (over H₀ c.2)) (chal (over H₀ c.2))}) :
    ∃ (ω : Ω) (H : D → Digest), FailsProof K C Q order n ((A ω).run (over H₀ H)) (chal (over H₀ H)) ∧ SelfBreak C (lastWrite ((A ω).run (over H₀ H)).1) := by
  obtain ⟨ω, hω⟩ := exists_coin (fun ω H => FailsProof K C Q order n ((A ω).run (over H₀ H)) (chal (over H₀ H))) h
  exact ⟨ω, C86_proofs hn K C Q ho (A ω) (hA ω) H₀ D hD hω⟩

/-- C86 for updates with coins. -/
theorem C86_update_coins {Ω : Type} [Fintype Ω] {N n : ℕ} (K : WireCodec (ZMod r) G) (C : Crypto (ZMod r) G) (Q : G)
    {order : List (ProverQuery (ZMod r) G) → List ℕ} (ho : ∀ qs, IsOrder qs (order qs)) {ord : Path → List Stem → List Stem}
    (hord : ∀ p l, (ord p l).Perm l)
    (A : Ω → Prog (List Byte) Digest (List (Key × Value) × List Key × List (Option Value))) (hA : ∀ ω, (A ω).Within N) (H₀ : List Byte → Digest)
    (D : Finset (List Byte)) (hD : ∀ s : List Byte, s.length ≤ 99 * (36 * n) + 192 → s ∈ D)
    (h : (N + 13) * (9 * 256) * Fintype.card Digest ^ D.card * Fintype.card Ω <
      Fintype.card Digest * Fintype.card {c : Ω × (D → Digest) // FailsUpdate K C Q order ord n ((A c.1).run (over H₀ c.2)) (chal (over H₀ c.2))}) :
    ∃ (ω : Ω) (H : D → Digest), FailsUpdate K C Q order ord n ((A ω).run (over H₀ H)) (chal (over H₀ H)) ∧
      SelfBreak C (lastWrite ((A ω).run (over H₀ H)).1) := by
  obtain ⟨ω, hω⟩ := exists_coin (fun ω H => FailsUpdate K C Q order ord n ((A ω).run (over H₀ H)) (chal (over H₀ H))) h
  exact ⟨ω, C86_update K C Q ho hord (A ω) (hA ω) H₀ D hD hω⟩

/-- C86 for items of accounts with coins. -/
theorem C86_state_coins {Ω : Type} [Fintype Ω] {N n : ℕ} (hn : 36 * n < 2 ^ 32) (K : WireCodec (ZMod r) G) (C : Crypto (ZMod r) G) (Q : G)
    {order : List (ProverQuery (ZMod r) G) → List ℕ} (ho : ∀ qs, IsOrder qs (order qs)) (P : Hash64)
    (A : Ω → Prog (List Byte) Digest (List (Slot × Value) × List Slot)) (hA : ∀ ω, (A ω).Within N) (H₀ : List Byte → Digest) (D : Finset (List Byte))
    (hD : ∀ s : List Byte, s.length ≤ 99 * (36 * n) + 192 → s ∈ D)
    (h : (N + 13) * (9 * 256) * Fintype.card Digest ^ D.card * Fintype.card Ω <
      Fintype.card Digest * Fintype.card {c : Ω × (D → Digest) // FailsState K C Q order P n ((A c.1).run (over H₀ c.2)) (chal (over H₀ c.2))}) :
    ∃ (ω : Ω) (H : D → Digest), FailsState K C Q order P n ((A ω).run (over H₀ H)) (chal (over H₀ H)) ∧
      ∃ l, stateWrites P ((A ω).run (over H₀ H)).1 = .ok l ∧ SelfBreak C (lastWrite l) := by
  obtain ⟨ω, hω⟩ := exists_coin (fun ω H => FailsState K C Q order P n ((A ω).run (over H₀ H)) (chal (over H₀ H))) h
  exact ⟨ω, C86_state hn K C Q ho P (A ω) (hA ω) H₀ D hD hω⟩

/-- C86 for chains with coins. -/
theorem C86_chain_coins {Ω : Type} [Fintype Ω] {N n b : ℕ} (K : WireCodec (ZMod r) G) (C : Crypto (ZMod r) G) (Q : G)
    {order : List (ProverQuery (ZMod r) G) → List ℕ} (ho : ∀ qs, IsOrder qs (order qs)) {ord : Path → List Stem → List Stem}
    (hord : ∀ p l, (ord p l).Perm l) (A : Ω → Prog (List Byte) Digest (List (Key × Value) × List (List Key × List (Option Value)))) (hA : ∀ ω, (A ω).Within N)
    (H₀ : List Byte → Digest) (D : Finset (List Byte)) (hD : ∀ s : List Byte, s.length ≤ 99 * (36 * n) + 192 → s ∈ D)
    (h : b * ((N + 13) * (9 * 256)) * Fintype.card Digest ^ D.card * Fintype.card Ω <
      Fintype.card Digest * Fintype.card {c : Ω × (D → Digest) // FailsChain K C Q order ord n b ((A c.1).run (over H₀ c.2)) (chal (over H₀ c.2))}) :
    ∃ (ω : Ω) (H : D → Digest), FailsChain K C Q order ord n b ((A ω).run (over H₀ H)) (chal (over H₀ H)) ∧
      BreakOnWay C ((A ω).run (over H₀ H)).1 ((A ω).run (over H₀ H)).2 := by
  obtain ⟨ω, hω⟩ := exists_coin (fun ω H => FailsChain K C Q order ord n b ((A ω).run (over H₀ H)) (chal (over H₀ H))) h
  exact ⟨ω, C86_chain K C Q ho hord (A ω) (hA ω) H₀ D hD hω⟩

end

/-- C86 for the C interface with coins. -/
theorem C86_c_coins {Ω : Type} [Fintype Ω] {N m : ℕ} (K : Ark) {ctx : ProofContext} (hctx : ProofContext.new = .ok ctx) (S : Sqrt (ZMod Bander.q))
    {order : List ℕ → List ℕ} (ho : ∀ l, (order l).Nodup ∧ ∀ p, p ∈ order l ↔ p ∈ l)
    (A : Ω → Prog (List Byte) Digest (List Byte × List Byte)) (hA : ∀ ω, (A ω).Within N) (H₀ : List Byte → Digest) (D : Finset (List Byte))
    (hD : ∀ s : List Byte, s.length ≤ 99 * m + 196 → s ∈ D) :
    Fintype.card Digest * Fintype.card {c : Ω × (D → Digest) // FailsC K ctx S order m ((A c.1).run (over H₀ c.2)) (chal (over H₀ c.2))} ≤
      (N + 13) * (9 * 256) * Fintype.card Digest ^ D.card * Fintype.card Ω := by
  exact coins_le (fun ω H => FailsC K ctx S order m ((A ω).run (over H₀ H)) (chal (over H₀ H))) fun ω => C86_c K hctx S ho (A ω) (hA ω) H₀ D hD

/-- C86 for the uncompressed C interface with coins. -/
theorem C86_c_uncompressed_coins {Ω : Type} [Fintype Ω] {N m : ℕ} (K : Ark) {ctx : ProofContext} (hctx : ProofContext.new = .ok ctx)
    {order : List ℕ → List ℕ} (ho : ∀ l, (order l).Nodup ∧ ∀ p, p ∈ order l ↔ p ∈ l)
    (A : Ω → Prog (List Byte) Digest (List Byte × List Byte)) (hA : ∀ ω, (A ω).Within N) (H₀ : List Byte → Digest) (D : Finset (List Byte))
    (hD : ∀ s : List Byte, s.length ≤ 99 * m + 196 → s ∈ D) :
    Fintype.card Digest * Fintype.card {c : Ω × (D → Digest) // FailsU K ctx order m ((A c.1).run (over H₀ c.2)) (chal (over H₀ c.2))} ≤
      (N + 13) * (9 * 256) * Fintype.card Digest ^ D.card * Fintype.card Ω := by
  exact coins_le (fun ω H => FailsU K ctx order m ((A ω).run (over H₀ H)) (chal (over H₀ H))) fun ω => C86_c_uncompressed K hctx ho (A ω) (hA ω) H₀ D hD

/-- The hypotheses of `C86_proofs_coins` are met by a program that, for any of two coins, puts out a trie whose proof fails with the parameters
`flat`. -/
example {G : Type} [AddCommGroup G] [DecidableEq G] [Module (ZMod r) G] (K : WireCodec (ZMod r) G) (Q : G)
    {order : List (ProverQuery (ZMod r) G) → List ℕ} (ho : ∀ qs, IsOrder qs (order qs)) (H₀ : List Byte → Digest) :
    ∃ (A : Bool → Prog (List Byte) Digest (List (Key × Value) × List Key)) (D : Finset (List Byte)), A true ≠ A false ∧
      (∀ ω, (A ω).Within 1) ∧
      (1 + 13) * (9 * 256) * Fintype.card Digest ^ D.card * Fintype.card Bool < Fintype.card Digest *
        Fintype.card {c : Bool × (D → Digest) // FailsProof K (flat (ZMod r) G) Q order 7 ((A c.1).run (over H₀ c.2)) (chal (over H₀ c.2))} ∧
      SelfBreak (flat (ZMod r) G) (lastWrite proofHist) := by
  let A : Bool → Prog (List Byte) Digest (List (Key × Value) × List Key) := fun ω => .ask [if ω then 0 else 1] fun _ => .ret (proofHist, proofKeys)
  have hA : ∀ ω, (A ω).Within 1 := fun _ _ => trivial
  have hcard : (1 + 13) * (9 * 256) * Fintype.card Digest ^ (shortStrings (99 * (36 * 7) + 192)).card * Fintype.card Bool < Fintype.card Digest *
      Fintype.card {c : Bool × (shortStrings (99 * (36 * 7) + 192) → Digest) //
        FailsProof K (flat (ZMod r) G) Q order 7 ((A c.1).run (over H₀ c.2)) (chal (over H₀ c.2))} := by
    refine all_coins (fun ω H => FailsProof K (flat (ZMod r) G) Q order 7 ((A ω).run (over H₀ H)) (chal (over H₀ H))) fun ω => ?_
    have hc : Fintype.card (shortStrings (99 * (36 * 7) + 192) → Digest) = Fintype.card Digest ^ (shortStrings (99 * (36 * 7) + 192)).card := by
      rw [Fintype.card_fun (β := Digest), Fintype.card_coe]
    have hfail : ∀ H : shortStrings (99 * (36 * 7) + 192) → Digest,
        FailsProof K (flat (ZMod r) G) Q order 7 ((A ω).run (over H₀ H)) (chal (over H₀ H)) := fun H => flat_fails K Q order _
    rw [Fintype.card_congr (Equiv.subtypeUnivEquiv hfail), hc]
    refine Nat.mul_lt_mul_of_pos_right ?_ (pow_pos ?_ _) <;> rw [card_digest] <;> norm_num
  obtain ⟨ω, H, -, h⟩ := C86_proofs_coins (by norm_num) K (flat (ZMod r) G) Q ho A hA H₀ _ (fun _ h => mem_shortStrings h) hcard
  refine ⟨A, _, fun e => ?_, hA, hcard, h⟩
  have := (Prog.ask.inj e).1
  simp at this

end Verif.Props
