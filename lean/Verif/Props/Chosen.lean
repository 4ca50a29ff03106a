import Verif.Props.Digest

/-!
# C84: contents of a trie chosen by the prover

In C66, C75 and C83 the trie is fixed before the hash is drawn.  Whoever makes proofs for their own trie chooses its contents, and may
choose them after asking the hash.  Here the program also puts out the writes a trie is made of, and wins with a proof that is wrong about
that trie: against the root of the trie a client accepts something the trie does not contain.
-/

set_option autoImplicit false
set_option linter.unusedSectionVars false
set_option linter.constructorNameAsVariable false

namespace Verif.Props
open Verif Verif.Spec Verif.Trie Verif.Proof Verif.Ipa Verif.Wire Verif.Ffi Verif.Eip Verif.Bander
open scoped Classical

/-- `root` is the root commitment of the trie that the writes `l` make. -/
def RootOf {F G : Type} [Field F] [AddCommGroup G] [SMul F G] [DecidableEq F] [DecidableEq G] (C : Crypto F G) (l : List (Key × Value)) (root : G) : Prop :=
  ∃ db : MemoryDb F G, build C l = .ok db ∧ Trie.rootCommitment db = .ok root

/-- A program whose output contains writes and a proof with keys and values.  Suppose that winning means that, against the root of the trie the
writes make, `check` accepts with at most `qmax` queries, and that openings of the queries of a winning run break the commitments of that trie.
If it wins for more than the part `(N + 11) (513 + q + 2 (N + 11)) B / |E|` of the hashes, there are winning runs, all with the same queries,
from which a non-trivial relation between the generators and `Q`, or vectors breaking the commitments of the trie of one of them, are
computed. -/
theorem rom_chosen_of {F G : Type} [Field F] [DecidableEq F] [AddCommGroup G] [DecidableEq G] [Module F G] {E : Type} [Fintype E] {red : E → F} {B : ℕ}
    (hred : Spread red B) {β : Type} {N qmax : ℕ} (hF : BigField F) (K : WireCodec F G) (C : Crypto F G) (Q : G)
    (order : List (ProverQuery F G) → List ℕ) (A : Prog (List Byte) E β) (hA : A.Within N) (hist : β → List (Key × Value))
    (out : β → VerkleProof G (MultiProof F G) × List Key × List (Option Value)) (Win : (List Byte → E) → Prop)
    (hwin : ∀ H, Win H → ∃ root, RootOf C (hist (A.run H)) root ∧ ∃ qs uh, createVerifierQueries C (out (A.run H)).1.hint (out (A.run H)).1.comms
        (out (A.run H)).2.1 (out (A.run H)).2.2 root = .ok (some (qs, uh)) ∧ qs.length ≤ qmax ∧
      (∃ uh, check C (multiOpener ⟨K, fun s => red (H s)⟩ C Q order) (out (A.run H)).1 (out (A.run H)).2.1 (out (A.run H)).2.2 root =
        .ok (true, uh)) ∧
      ∀ vec, Extracts C vec qs → ProofBreak C (lastWrite (hist (A.run H))) vec qs)
    (H₀ : List Byte → E) (D : Finset (List Byte)) (hD : ∀ s : List Byte, s.length ≤ 99 * qmax + 192 → s ∈ D)
    (h : (N + 11) * (B * (513 + qmax + 2 * (N + 11))) * Fintype.card E ^ D.card <
      Fintype.card E * Fintype.card {H : D → E // Win (over H₀ H)}) :
    ∃ (qs : List (VerifierQuery F G)) (X : MultiTree F G qs.length (255 + qs.length) 8), X.Distinct 256 ∧
      (∀ i j u, ∀ p ∈ (X.ipa i j u).leaves, ∃ H : D → E, Win (over H₀ H) ∧
        (∃ root, RootOf C (hist (A.run (over H₀ H))) root ∧ MakesQueries C root (out (A.run (over H₀ H))) qs) ∧
        (out (A.run (over H₀ H))).1.proof = ⟨p.2, X.D i⟩ ∧
        drawn ⟨K, fun s => red (over H₀ H s)⟩ (newTranscript (lbl "vt")) ⟨p.2, X.D i⟩ qs = (X.r i, X.t i j, X.w i j u, p.1)) ∧
      ((∃ ρ ∈ X.rels qs.get 256, ρ ≠ 0 ∧ ∑ i : Fin 256, ρ.1 i • C.g i + ρ.2 • Q = 0) ∨
      ∃ H : D → E, Win (over H₀ H) ∧ (∃ root, RootOf C (hist (A.run (over H₀ H))) root ∧ MakesQueries C root (out (A.run (over H₀ H))) qs) ∧
        ProofBreak C (lastWrite (hist (A.run (over H₀ H)))) (vecOf qs X) qs) := by
  have hroot : ∀ l root, RootOf C l root → branchComm C (lastWrite l) [] = root := by
    rintro l root ⟨db, hb, hr⟩
    rw [build_iff] at hb
    subst hb
    rw [rootCommitment_spec] at hr
    simpa using hr
  have hof : ∀ l, RootOf C l (branchComm C (lastWrite l) []) := fun l => ⟨_, build_eq _ _, rootCommitment_spec _ _⟩
  obtain ⟨qs, X, hX, hleaf, hconcl⟩ := rom_trie_at_of hred hF K C Q order A hA (fun o => lastWrite (hist o))
    (fun o => branchComm C (lastWrite (hist o)) []) out Win (fun H hH => by
      obtain ⟨root, h1, h2⟩ := hwin H hH
      rw [hroot _ _ h1]
      exact h2) H₀ D hD h
  refine ⟨qs, X, hX, fun i j u p hp => ?_, hconcl.imp_right ?_⟩
  · obtain ⟨H, h1, h2, h3⟩ := hleaf i j u p hp
    exact ⟨H, h1, ⟨_, hof _, h2⟩, h3⟩
  · rintro ⟨H, h1, h2, h3⟩
    exact ⟨H, h1, ⟨_, hof _, h2⟩, h3⟩

section
variable {G : Type} [AddCommGroup G] [DecidableEq G] [Module (ZMod r) G]

/-- The output shows a proof wrong about the trie made of the writes in the output (`ForgesClaim`: a false claim about the trie, with the conditions of
`C66` on hints and keys). -/
def ChosenClaim (K : WireCodec (ZMod r) G) (C : Crypto (ZMod r) G) (Q : G) (order : List (ProverQuery (ZMod r) G) → List ℕ) (qmax : ℕ)
    (o : List (Key × Value) × VerkleProof G (MultiProof (ZMod r) G) × List Key × List (Option Value)) (c : List Byte → ZMod r) : Prop :=
  ∃ (db : MemoryDb (ZMod r) G) (root : G), build C o.1 = .ok db ∧ Trie.rootCommitment db = .ok root ∧ ForgesClaim K C Q order o.1 db root qmax (.ret o.2) c

/-- C84 for claims about any keys (partial: with the conditions of `C66` on hints and keys).  Let a program see digests, ask for at most `N` and put out
writes, a proof, keys and values.  If, for more than the part `9 (N + 11) (513 + q + 2 (N + 11)) / 2²⁵⁶` of the hashes, `check` accepts against
the root of the trie of those writes something the trie does not contain, there are such runs from which a relation between the generators, or
vectors breaking the commitments of the trie of one of them, are computed. -/
theorem C84_claims_partial {N qmax : ℕ} (K : WireCodec (ZMod r) G) (C : Crypto (ZMod r) G) (Q : G)
    (order : List (ProverQuery (ZMod r) G) → List ℕ)
    (A : Prog (List Byte) Digest (List (Key × Value) × VerkleProof G (MultiProof (ZMod r) G) × List Key × List (Option Value))) (hA : A.Within N)
    (H₀ : List Byte → Digest) (D : Finset (List Byte)) (hD : ∀ s : List Byte, s.length ≤ 99 * qmax + 192 → s ∈ D)
    (h : (N + 11) * (9 * (513 + qmax + 2 * (N + 11))) * Fintype.card Digest ^ D.card <
      Fintype.card Digest * Fintype.card {H : D → Digest // ChosenClaim K C Q order qmax (A.run (over H₀ H)) (chal (over H₀ H))}) :
    ∃ (qs : List (VerifierQuery (ZMod r) G)) (X : MultiTree (ZMod r) G qs.length (255 + qs.length) 8), X.Distinct 256 ∧
      (∀ i j u, ∀ p ∈ (X.ipa i j u).leaves, ∃ H : D → Digest, ChosenClaim K C Q order qmax (A.run (over H₀ H)) (chal (over H₀ H)) ∧
        (∃ root, RootOf C (A.run (over H₀ H)).1 root ∧ MakesQueries C root (A.run (over H₀ H)).2 qs) ∧ (A.run (over H₀ H)).2.1.proof = ⟨p.2, X.D i⟩ ∧
        drawn ⟨K, chal (over H₀ H)⟩ (newTranscript (lbl "vt")) ⟨p.2, X.D i⟩ qs = (X.r i, X.t i j, X.w i j u, p.1)) ∧
      ((∃ ρ ∈ X.rels qs.get 256, ρ ≠ 0 ∧ ∑ i : Fin 256, ρ.1 i • C.g i + ρ.2 • Q = 0) ∨
      ∃ H : D → Digest, ChosenClaim K C Q order qmax (A.run (over H₀ H)) (chal (over H₀ H)) ∧
        (∃ root, RootOf C (A.run (over H₀ H)).1 root ∧ MakesQueries C root (A.run (over H₀ H)).2 qs) ∧ ProofBreak C (lastWrite (A.run (over H₀ H)).1) (vecOf qs X) qs) :=
  rom_chosen_of C83_spread C52_scalar_field.1 K C Q order A hA (·.1) (·.2) (fun H => ChosenClaim K C Q order qmax (A.run H) (chal H))
    (fun _ ⟨db, root, hb, hr, hH⟩ => ⟨root, ⟨db, hb, hr⟩, hH.wins C52_scalar_field.1 hb hr⟩) H₀ D hD h

/-- The output shows an update with a wrong result for the trie made of the writes in the output: `verify_and_update` takes its root to a root
that is not the root after the update, or from values the trie does not contain (`ForgesUpdate`). -/
def ChosenUpdate (K : WireCodec (ZMod r) G) (C : Crypto (ZMod r) G) (Q : G) (order : List (ProverQuery (ZMod r) G) → List ℕ) (ord : Path → List Stem → List Stem) (qmax : ℕ)
    (o : List (Key × Value) × (VerkleProof G (MultiProof (ZMod r) G) × List Key × List (Option Value)) × List (Option Value)) (c : List Byte → ZMod r) : Prop :=
  ∃ (db : MemoryDb (ZMod r) G) (root : G), build C o.1 = .ok db ∧ Trie.rootCommitment db = .ok root ∧ ForgesUpdate K C Q order ord db root qmax (.ret o.2) c

/-- C84 for stateless updates (partial: with the conditions of `C66_update_random_oracle_partial` on hints and keys). -/
theorem C84_update_partial {N qmax : ℕ} (K : WireCodec (ZMod r) G) (C : Crypto (ZMod r) G) (Q : G)
    (order : List (ProverQuery (ZMod r) G) → List ℕ) {ord : Path → List Stem → List Stem} (hord : ∀ p l, (ord p l).Perm l)
    (A : Prog (List Byte) Digest (List (Key × Value) × (VerkleProof G (MultiProof (ZMod r) G) × List Key × List (Option Value)) × List (Option Value))) (hA : A.Within N)
    (H₀ : List Byte → Digest) (D : Finset (List Byte)) (hD : ∀ s : List Byte, s.length ≤ 99 * qmax + 192 → s ∈ D)
    (h : (N + 11) * (9 * (513 + qmax + 2 * (N + 11))) * Fintype.card Digest ^ D.card <
      Fintype.card Digest * Fintype.card {H : D → Digest // ChosenUpdate K C Q order ord qmax (A.run (over H₀ H)) (chal (over H₀ H))}) :
    ∃ (qs : List (VerifierQuery (ZMod r) G)) (X : MultiTree (ZMod r) G qs.length (255 + qs.length) 8), X.Distinct 256 ∧
      (∀ i j u, ∀ p ∈ (X.ipa i j u).leaves, ∃ H : D → Digest, ChosenUpdate K C Q order ord qmax (A.run (over H₀ H)) (chal (over H₀ H)) ∧
        (∃ root, RootOf C (A.run (over H₀ H)).1 root ∧ MakesQueries C root (A.run (over H₀ H)).2.1 qs) ∧ (A.run (over H₀ H)).2.1.1.proof = ⟨p.2, X.D i⟩ ∧
        drawn ⟨K, chal (over H₀ H)⟩ (newTranscript (lbl "vt")) ⟨p.2, X.D i⟩ qs = (X.r i, X.t i j, X.w i j u, p.1)) ∧
      ((∃ ρ ∈ X.rels qs.get 256, ρ ≠ 0 ∧ ∑ i : Fin 256, ρ.1 i • C.g i + ρ.2 • Q = 0) ∨
      ∃ H : D → Digest, ChosenUpdate K C Q order ord qmax (A.run (over H₀ H)) (chal (over H₀ H)) ∧
        (∃ root, RootOf C (A.run (over H₀ H)).1 root ∧ MakesQueries C root (A.run (over H₀ H)).2.1 qs) ∧ ProofBreak C (lastWrite (A.run (over H₀ H)).1) (vecOf qs X) qs) :=
  rom_chosen_of C83_spread C52_scalar_field.1 K C Q order A hA (·.1) (·.2.1) (fun H => ChosenUpdate K C Q order ord qmax (A.run H) (chal H))
    (fun _ ⟨db, root, hb, hr, hH⟩ => ⟨root, ⟨db, hb, hr⟩, hH.wins C52_scalar_field.1 hord hb hr⟩) H₀ D hD h

end

section
variable {G : Type} [AddCommGroup G] [Module (ZMod r) G]

attribute [-instance] ZMod.decidableEq

/-- The output shows a proof wrong about the trie made of the writes in the output: at most `n` keys of one stem, at least one with a value
(`ForgesOneStem`). -/
def ChosenStem (K : WireCodec (ZMod r) G) (C : Crypto (ZMod r) G) (Q : G) (order : List (ProverQuery (ZMod r) G) → List ℕ) (n : ℕ)
    (o : List (Key × Value) × VerkleProof G (MultiProof (ZMod r) G) × List Key × List (Option Value)) (c : List Byte → ZMod r) : Prop :=
  ∃ (db : MemoryDb (ZMod r) G) (root : G), build C o.1 = .ok db ∧ Trie.rootCommitment db = .ok root ∧ ForgesOneStem K C Q order db root n (.ret o.2) c

/-- C84 for claims about one stem, without conditions on hints and keys.  Let a program see digests, ask for at most `N` and put out writes, a proof and
at most `n` keys and values.  If, for more than the part `9 (N + 11) (513 + 36 n + 2 (N + 11)) / 2²⁵⁶` of the hashes, `check` accepts against the
root of the trie of those writes a false claim about keys of one stem, at least one of them with a value, there are such runs from which a
relation between the generators, or vectors breaking the commitments of the trie of one of them, are computed. -/
theorem C84_one_stem {N n : ℕ} (K : WireCodec (ZMod r) G) (C : Crypto (ZMod r) G) (Q : G)
    (order : List (ProverQuery (ZMod r) G) → List ℕ)
    (A : Prog (List Byte) Digest (List (Key × Value) × VerkleProof G (MultiProof (ZMod r) G) × List Key × List (Option Value))) (hA : A.Within N)
    (H₀ : List Byte → Digest) (D : Finset (List Byte)) (hD : ∀ s : List Byte, s.length ≤ 99 * (36 * n) + 192 → s ∈ D)
    (h : (N + 11) * (9 * (513 + (36 * n) + 2 * (N + 11))) * Fintype.card Digest ^ D.card <
      Fintype.card Digest * Fintype.card {H : D → Digest // ChosenStem K C Q order n (A.run (over H₀ H)) (chal (over H₀ H))}) :
    ∃ (qs : List (VerifierQuery (ZMod r) G)) (X : MultiTree (ZMod r) G qs.length (255 + qs.length) 8), X.Distinct 256 ∧
      (∀ i j u, ∀ p ∈ (X.ipa i j u).leaves, ∃ H : D → Digest, ChosenStem K C Q order n (A.run (over H₀ H)) (chal (over H₀ H)) ∧
        (∃ root, RootOf C (A.run (over H₀ H)).1 root ∧ MakesQueries C root (A.run (over H₀ H)).2 qs) ∧ (A.run (over H₀ H)).2.1.proof = ⟨p.2, X.D i⟩ ∧
        drawn ⟨K, chal (over H₀ H)⟩ (newTranscript (lbl "vt")) ⟨p.2, X.D i⟩ qs = (X.r i, X.t i j, X.w i j u, p.1)) ∧
      ((∃ ρ ∈ X.rels qs.get 256, ρ ≠ 0 ∧ ∑ i : Fin 256, ρ.1 i • C.g i + ρ.2 • Q = 0) ∨
      ∃ H : D → Digest, ChosenStem K C Q order n (A.run (over H₀ H)) (chal (over H₀ H)) ∧
        (∃ root, RootOf C (A.run (over H₀ H)).1 root ∧ MakesQueries C root (A.run (over H₀ H)).2 qs) ∧ ProofBreak C (lastWrite (A.run (over H₀ H)).1) (vecOf qs X) qs) :=
  rom_chosen_of C83_spread C52_scalar_field.1 K C Q order A hA (·.1) (·.2) (fun H => ChosenStem K C Q order n (A.run H) (chal H))
    (fun _ ⟨db, root, hb, hr, hH⟩ => ⟨root, ⟨db, hb, hr⟩, hH.wins C52_scalar_field.1 hb hr⟩) H₀ D hD h

/-- The output shows something false about an account of the state after the writes in the output (`ForgesAccount`). -/
def ChosenAccount (K : WireCodec (ZMod r) G) (C : Crypto (ZMod r) G) (Q : G) (order : List (ProverQuery (ZMod r) G) → List ℕ) (P : Hash64) (n : ℕ)
    (o : List (Slot × Value) × AccountClaim (ZMod r) G) (c : List Byte → ZMod r) : Prop :=
  (∀ x ∈ o.1, x.1.2.Valid) ∧ ∃ (l : List (Key × Value)) (root : G), stateWrites P o.1 = .ok l ∧ RootOf C l root ∧ ForgesAccount K C Q order P o.1 root n (.ret o.2) c

/-- The writes to the trie that writes to the state make; none if one of the items is not valid. -/
def stateHist (P : Hash64) (w : List (Slot × Value)) : List (Key × Value) :=
  match stateWrites P w with
  | .ok l => l
  | .error _ => []

/-- C84 for accounts.  Let a program see digests, ask for at most `N` and put out writes to the state, an address, at most `n` items kept together,
values and a proof.  If, for more than the part `9 (N + 11) (513 + 36 n + 2 (N + 11)) / 2²⁵⁶` of the hashes, a client with the root of the state
after those writes accepts something false with at least one value shown, there are such runs from which a relation between the generators, or
vectors breaking the commitments of the trie of one of them, are computed. -/
theorem C84_account {N n : ℕ} (K : WireCodec (ZMod r) G) (C : Crypto (ZMod r) G) (Q : G)
    (order : List (ProverQuery (ZMod r) G) → List ℕ) (P : Hash64)
    (A : Prog (List Byte) Digest (List (Slot × Value) × AccountClaim (ZMod r) G)) (hA : A.Within N)
    (H₀ : List Byte → Digest) (D : Finset (List Byte)) (hD : ∀ s : List Byte, s.length ≤ 99 * (36 * n) + 192 → s ∈ D)
    (h : (N + 11) * (9 * (513 + (36 * n) + 2 * (N + 11))) * Fintype.card Digest ^ D.card <
      Fintype.card Digest * Fintype.card {H : D → Digest // ChosenAccount K C Q order P n (A.run (over H₀ H)) (chal (over H₀ H))}) :
    ∃ (qs : List (VerifierQuery (ZMod r) G)) (X : MultiTree (ZMod r) G qs.length (255 + qs.length) 8), X.Distinct 256 ∧
      (∀ i j u, ∀ p ∈ (X.ipa i j u).leaves, ∃ H : D → Digest, ChosenAccount K C Q order P n (A.run (over H₀ H)) (chal (over H₀ H)) ∧
        (∃ root, (∃ l, stateWrites P (A.run (over H₀ H)).1 = .ok l ∧ RootOf C l root) ∧ MakesQueries C root (accountCheck P (A.run (over H₀ H)).2) qs) ∧ (accountCheck P (A.run (over H₀ H)).2).1.proof = ⟨p.2, X.D i⟩ ∧
        drawn ⟨K, chal (over H₀ H)⟩ (newTranscript (lbl "vt")) ⟨p.2, X.D i⟩ qs = (X.r i, X.t i j, X.w i j u, p.1)) ∧
      ((∃ ρ ∈ X.rels qs.get 256, ρ ≠ 0 ∧ ∑ i : Fin 256, ρ.1 i • C.g i + ρ.2 • Q = 0) ∨
      ∃ H : D → Digest, ChosenAccount K C Q order P n (A.run (over H₀ H)) (chal (over H₀ H)) ∧
        (∃ root, (∃ l, stateWrites P (A.run (over H₀ H)).1 = .ok l ∧ RootOf C l root) ∧ MakesQueries C root (accountCheck P (A.run (over H₀ H)).2) qs) ∧ ∃ l, stateWrites P (A.run (over H₀ H)).1 = .ok l ∧ ProofBreak C (lastWrite l) (vecOf qs X) qs) := by
  obtain ⟨qs, X, hX, hleaf, hconcl⟩ := rom_chosen_of C83_spread C52_scalar_field.1 K C Q order A hA (fun o => stateHist P o.1)
    (fun o => accountCheck P o.2) (fun H => ChosenAccount K C Q order P n (A.run H) (chal H)) (fun H hH => by
      obtain ⟨hw, l, root, hl, ⟨db, hb, hr⟩, hH⟩ := hH
      have hs : stateHist P (A.run H).1 = l := by rw [stateHist, hl]
      rw [hs]
      exact ⟨root, ⟨db, hb, hr⟩, hH.wins C52_scalar_field.1 hw hl hb hr⟩) H₀ D hD h
  have hs : ∀ H : D → Digest, ChosenAccount K C Q order P n (A.run (over H₀ H)) (chal (over H₀ H)) →
      stateWrites P (A.run (over H₀ H)).1 = .ok (stateHist P (A.run (over H₀ H)).1) := by
    rintro H ⟨_, l, _, hl, _⟩
    rw [stateHist, hl]
  refine ⟨qs, X, hX, fun i j u p hp => ?_, hconcl.imp_right ?_⟩
  · obtain ⟨H, h1, ⟨root, h2, h3⟩, h4⟩ := hleaf i j u p hp
    exact ⟨H, h1, ⟨root, ⟨_, hs H h1, h2⟩, h3⟩, h4⟩
  · rintro ⟨H, h1, ⟨root, h2, h3⟩, h4⟩
    exact ⟨H, h1, ⟨root, ⟨_, hs H h1, h2⟩, h3⟩, _, hs H h1, h4⟩

/-- In bits: at most 2⁸⁰ questions, at most 2²⁰ keys, more than the part 2⁻⁹⁰ of the hashes. -/
theorem C84_one_stem_bits {N n : ℕ} (hN : N ≤ 2 ^ 80) (hn : n ≤ 2 ^ 20) (K : WireCodec (ZMod r) G) (C : Crypto (ZMod r) G) (Q : G)
    (order : List (ProverQuery (ZMod r) G) → List ℕ)
    (A : Prog (List Byte) Digest (List (Key × Value) × VerkleProof G (MultiProof (ZMod r) G) × List Key × List (Option Value))) (hA : A.Within N)
    (H₀ : List Byte → Digest) (D : Finset (List Byte)) (hD : ∀ s : List Byte, s.length ≤ 99 * (36 * n) + 192 → s ∈ D)
    (h : Fintype.card Digest ^ D.card < 2 ^ 90 * Fintype.card {H : D → Digest // ChosenStem K C Q order n (A.run (over H₀ H)) (chal (over H₀ H))}) :
    ∃ (qs : List (VerifierQuery (ZMod r) G)) (X : MultiTree (ZMod r) G qs.length (255 + qs.length) 8), X.Distinct 256 ∧
      (∀ i j u, ∀ p ∈ (X.ipa i j u).leaves, ∃ H : D → Digest, ChosenStem K C Q order n (A.run (over H₀ H)) (chal (over H₀ H)) ∧
        (∃ root, RootOf C (A.run (over H₀ H)).1 root ∧ MakesQueries C root (A.run (over H₀ H)).2 qs) ∧ (A.run (over H₀ H)).2.1.proof = ⟨p.2, X.D i⟩ ∧
        drawn ⟨K, chal (over H₀ H)⟩ (newTranscript (lbl "vt")) ⟨p.2, X.D i⟩ qs = (X.r i, X.t i j, X.w i j u, p.1)) ∧
      ((∃ ρ ∈ X.rels qs.get 256, ρ ≠ 0 ∧ ∑ i : Fin 256, ρ.1 i • C.g i + ρ.2 • Q = 0) ∨
      ∃ H : D → Digest, ChosenStem K C Q order n (A.run (over H₀ H)) (chal (over H₀ H)) ∧
        (∃ root, RootOf C (A.run (over H₀ H)).1 root ∧ MakesQueries C root (A.run (over H₀ H)).2 qs) ∧ ProofBreak C (lastWrite (A.run (over H₀ H)).1) (vecOf qs X) qs) :=
  C84_one_stem K C Q order A hA H₀ D hD (lt_of_le_of_lt (Nat.mul_le_mul_right _ (Nat.le_mul_of_pos_left _ two_pos)) (C83_bits hN (Nat.mul_le_mul_left 36 hn) h))

/-- In bits: at most 2⁸⁰ questions, at most 2²⁰ items, more than the part 2⁻⁹⁰ of the hashes. -/
theorem C84_account_bits {N n : ℕ} (hN : N ≤ 2 ^ 80) (hn : n ≤ 2 ^ 20) (K : WireCodec (ZMod r) G) (C : Crypto (ZMod r) G) (Q : G)
    (order : List (ProverQuery (ZMod r) G) → List ℕ) (P : Hash64)
    (A : Prog (List Byte) Digest (List (Slot × Value) × AccountClaim (ZMod r) G)) (hA : A.Within N)
    (H₀ : List Byte → Digest) (D : Finset (List Byte)) (hD : ∀ s : List Byte, s.length ≤ 99 * (36 * n) + 192 → s ∈ D)
    (h : Fintype.card Digest ^ D.card < 2 ^ 90 * Fintype.card {H : D → Digest // ChosenAccount K C Q order P n (A.run (over H₀ H)) (chal (over H₀ H))}) :
    ∃ (qs : List (VerifierQuery (ZMod r) G)) (X : MultiTree (ZMod r) G qs.length (255 + qs.length) 8), X.Distinct 256 ∧
      (∀ i j u, ∀ p ∈ (X.ipa i j u).leaves, ∃ H : D → Digest, ChosenAccount K C Q order P n (A.run (over H₀ H)) (chal (over H₀ H)) ∧
        (∃ root, (∃ l, stateWrites P (A.run (over H₀ H)).1 = .ok l ∧ RootOf C l root) ∧ MakesQueries C root (accountCheck P (A.run (over H₀ H)).2) qs) ∧ (accountCheck P (A.run (over H₀ H)).2).1.proof = ⟨p.2, X.D i⟩ ∧
        drawn ⟨K, chal (over H₀ H)⟩ (newTranscript (lbl "vt")) ⟨p.2, X.D i⟩ qs = (X.r i, X.t i j, X.w i j u, p.1)) ∧
      ((∃ ρ ∈ X.rels qs.get 256, ρ ≠ 0 ∧ ∑ i : Fin 256, ρ.1 i • C.g i + ρ.2 • Q = 0) ∨
      ∃ H : D → Digest, ChosenAccount K C Q order P n (A.run (over H₀ H)) (chal (over H₀ H)) ∧
        (∃ root, (∃ l, stateWrites P (A.run (over H₀ H)).1 = .ok l ∧ RootOf C l root) ∧ MakesQueries C root (accountCheck P (A.run (over H₀ H)).2) qs) ∧ ∃ l, stateWrites P (A.run (over H₀ H)).1 = .ok l ∧ ProofBreak C (lastWrite l) (vecOf qs X) qs) :=
  C84_account K C Q order P A hA H₀ D hD (lt_of_le_of_lt (Nat.mul_le_mul_right _ (Nat.le_mul_of_pos_left _ two_pos)) (C83_bits hN (Nat.mul_le_mul_left 36 hn) h))

end

/-! ### The hypotheses can be met -/

/-- A program that puts out a fixed value beside its output. -/
def beside {α β : Type} (x : α) (A : Prog (List Byte) Digest β) : Prog (List Byte) Digest (α × β) := A.bind fun o => .ret (x, o)

theorem beside_run {α β : Type} (x : α) (A : Prog (List Byte) Digest β) (H : List Byte → Digest) : (beside x A).run H = (x, A.run H) := by
  rw [beside, Prog.run_bind]
  rfl

theorem beside_within {α β : Type} (x : α) {A : Prog (List Byte) Digest β} {N : ℕ} (hA : A.Within N) : (beside x A).Within N :=
  Prog.Within.bind (f := fun o => (.ret (x, o) : Prog (List Byte) Digest (α × β))) (n := 0) (fun _ => trivial) hA

section
variable {G : Type} [AddCommGroup G] [DecidableEq G] [Module (ZMod r) G]

/-- The hypotheses of `C84_claims_partial` and `C84_update_partial` are met if all generators are zero. -/
example (C : Crypto (ZMod r) G) (hC : ∀ i, C.g i = 0) (K : WireCodec (ZMod r) G) (Q : G) (order : List (ProverQuery (ZMod r) G) → List ℕ)
    (H₀ : List Byte → Digest) : (∃ (A : Prog (List Byte) Digest (List (Key × Value) × VerkleProof G (MultiProof (ZMod r) G) × List Key × List (Option Value))) (D : Finset (List Byte)),
      A.Within 11 ∧ (∀ s : List Byte, s.length ≤ 99 * 6 + 192 → s ∈ D) ∧
      (11 + 11) * (9 * (513 + 6 + 2 * (11 + 11))) * Fintype.card Digest ^ D.card < Fintype.card Digest *
        Fintype.card {H : D → Digest // ChosenClaim K C Q order 6 (A.run (over H₀ H)) (chal (over H₀ H))}) ∧
    ∃ (A : Prog (List Byte) Digest (List (Key × Value) × (VerkleProof G (MultiProof (ZMod r) G) × List Key × List (Option Value)) × List (Option Value))) (D : Finset (List Byte)),
      A.Within 11 ∧ (∀ s : List Byte, s.length ≤ 99 * 6 + 192 → s ∈ D) ∧
      (11 + 11) * (9 * (513 + 6 + 2 * (11 + 11))) * Fintype.card Digest ^ D.card < Fintype.card Digest *
        Fintype.card {H : D → Digest // ChosenUpdate K C Q order (fun _ l => l) 6 (A.run (over H₀ H)) (chal (over H₀ H))} := by
  constructor
  · obtain ⟨db, root, A, D, hb, hr, hA, -, hD, h⟩ := forges_zero_of (m := 6) C83_spread le_rfl C52_scalar_field.1 C hC K Q order H₀ (by rw [card_digest]; norm_num)
    refine ⟨beside [] (A.lift digestScalar), D, beside_within _ (hA.lift _), hD, lt_of_lt_of_le h (Nat.mul_le_mul_left _ (Fintype.card_subtype_mono _ _ fun H hH => ?_))⟩
    refine ⟨db, root, ?_⟩
    rw [beside_run]
    refine ⟨hb, hr, ?_⟩
    unfold ForgesClaim at hH ⊢
    rw [Prog.lift_run]
    exact hH
  · obtain ⟨db, root, rootHex, A₁, A₂, A₃, D, hb, hr, -, hA, -, -, -, hD, h, -⟩ := clients_zero_of C83_spread C52_scalar_field.1 C hC K Q order H₀ (by rw [card_digest]; norm_num)
    refine ⟨beside [] (A₁.lift digestScalar), D, beside_within _ (hA.lift _), hD, lt_of_lt_of_le h (Nat.mul_le_mul_left _ (Fintype.card_subtype_mono _ _ fun H hH => ?_))⟩
    refine ⟨db, root, ?_⟩
    rw [beside_run]
    refine ⟨hb, hr, ?_⟩
    unfold ForgesUpdate at hH ⊢
    rw [Prog.lift_run]
    exact hH

end

section
variable {G : Type} [AddCommGroup G] [Module (ZMod r) G]

attribute [-instance] ZMod.decidableEq

/-- Those of `C84_one_stem` and `C84_account` are met if all generators are zero. -/
example (C : Crypto (ZMod r) G) (hC : ∀ i, C.g i = 0) (K : WireCodec (ZMod r) G) (Q : G) (order : List (ProverQuery (ZMod r) G) → List ℕ)
    (H₀ : List Byte → Digest) (a : Bytes 32) : (∃ (A : Prog (List Byte) Digest (List (Key × Value) × VerkleProof G (MultiProof (ZMod r) G) × List Key × List (Option Value))) (D : Finset (List Byte)),
      A.Within 11 ∧ (∀ s : List Byte, s.length ≤ 99 * (36 * 1) + 192 → s ∈ D) ∧
      (11 + 11) * (9 * (513 + 36 * 1 + 2 * (11 + 11))) * Fintype.card Digest ^ D.card < Fintype.card Digest *
        Fintype.card {H : D → Digest // ChosenStem K C Q order 1 (A.run (over H₀ H)) (chal (over H₀ H))}) ∧
    ∃ (P : Hash64) (A : Prog (List Byte) Digest (List (Slot × Value) × AccountClaim (ZMod r) G)) (D : Finset (List Byte)),
      A.Within 11 ∧ (∀ s : List Byte, s.length ≤ 99 * (36 * 1) + 192 → s ∈ D) ∧
      (11 + 11) * (9 * (513 + 36 * 1 + 2 * (11 + 11))) * Fintype.card Digest ^ D.card < Fintype.card Digest *
        Fintype.card {H : D → Digest // ChosenAccount K C Q order P 1 (A.run (over H₀ H)) (chal (over H₀ H))} := by
  constructor
  · obtain ⟨db, root, A, D, hb, hr, hA, hD, h⟩ := forges_one_stem_of C83_spread C52_scalar_field.1 C hC K Q order H₀ (by rw [card_digest]; norm_num)
    refine ⟨beside [] (A.lift digestScalar), D, beside_within _ (hA.lift _), hD, lt_of_lt_of_le h (Nat.mul_le_mul_left _ (Fintype.card_subtype_mono _ _ fun H hH => ?_))⟩
    refine ⟨db, root, ?_⟩
    rw [beside_run]
    refine ⟨hb, hr, ?_⟩
    unfold ForgesOneStem at hH ⊢
    rw [Prog.lift_run]
    exact hH
  · obtain ⟨P, db, root, A, D, hl, hb, hr, hA, hD, h⟩ := forges_account_of C83_spread C52_scalar_field.1 C hC K Q order H₀ (by rw [card_digest]; norm_num) a
    refine ⟨P, beside [] (A.lift digestScalar), D, beside_within _ (hA.lift _), hD, lt_of_lt_of_le h (Nat.mul_le_mul_left _ (Fintype.card_subtype_mono _ _ fun H hH => ?_))⟩
    unfold ChosenAccount
    rw [beside_run]
    refine ⟨by simp, [], root, hl, ⟨db, hb, hr⟩, ?_⟩
    unfold ForgesAccount at hH ⊢
    rw [Prog.lift_run]
    exact hH

end

end Verif.Props
