import Verif.Props.RomPair
import Verif.Props.RomClients
import Verif.Props.RomIpa
import Verif.Props.Complete
import Verif.Props.Follow
import Verif.Vectors.Ops

/-!
# C83: challenges as the code draws them

`challenge_scalar` hashes the transcript with SHA-256 and reduces the 32 bytes of the digest modulo `r`
(`/repo/ipa-multipoint/src/transcript.rs:37-55`).  Up to here the random hash had values in the scalar field.  Here it has digests as
values: a hash is a function from strings to 32 bytes, all equally likely.  Since `2²⁵⁶ = 8.83 r`, a challenge comes from 8 or 9 digests
and is not quite uniform.  Programs see the digests, not only the challenges.
-/

set_option autoImplicit false
set_option linter.unusedSectionVars false
set_option linter.constructorNameAsVariable false

namespace Verif.Props
open Verif Verif.Spec Verif.Trie Verif.Proof Verif.Ipa Verif.Wire Verif.Ffi Verif.Eip Verif.Bander
open scoped Classical

/-- What `Sha256::finalize` returns: 32 bytes (`/repo/ipa-multipoint/src/transcript.rs:41-43`). -/
abbrev Digest : Type := Fin 32 → Byte

/-- `Fr::from_le_bytes_mod_order(&hash)` (`/repo/ipa-multipoint/src/transcript.rs:48`). -/
def digestScalar (d : Digest) : ZMod r := frLe (ZMod r) (List.ofFn d)

/-- The challenges of a hash. -/
def chal (R : List Byte → Digest) : List Byte → ZMod r := fun s => digestScalar (R s)

theorem card_digest : Fintype.card Digest = 2 ^ 256 := by
  rw [Fintype.card_fun, Fintype.card_fin, Fintype.card_fin]
  norm_num

/-- SHA-256 of a string as a digest. -/
def sha (m : List Byte) : Digest := fun i => (Sha256.hash m).get (i.cast (Sha256.hash_length m).symm)

/-- The transcript of the code is the one with the hash `sha`. -/
theorem C83_sha : Vectors.shaOracle = ⟨codec, chal sha⟩ := by
  have h : ∀ m, List.ofFn (sha m) = Sha256.hash m := fun m => by
    apply List.ext_getElem
    · rw [List.length_ofFn, Sha256.hash_length]
    · intro i h1 h2
      rw [List.getElem_ofFn]
      rfl
  unfold Vectors.shaOracle chal digestScalar frLe
  simp only [h]

theorem digest_inj {d d' : Digest} (h : leNat (List.ofFn d) = leNat (List.ofFn d')) : d = d' :=
  List.ofFn_injective (Spec.leNat_inj (by simp) h)

/-- Each challenge comes from at most 9 digests. -/
theorem C83_spread : Spread digestScalar 9 := by
  intro x
  have h9 : ∀ d : Digest, leNat (List.ofFn d) / r < 9 := fun d => by
    have h1 := Spec.leNat_lt (List.ofFn d)
    rw [List.length_ofFn] at h1
    rw [Nat.div_lt_iff_lt_mul (by decide +kernel)]
    exact lt_of_lt_of_le h1 (by decide +kernel)
  rw [← Finset.card_range 9]
  refine Finset.card_le_card_of_injOn (fun d => leNat (List.ofFn d) / r) (fun d _ => by simpa using h9 d) ?_
  intro d hd d' hd' he
  simp only [Finset.coe_filter, Finset.mem_univ, true_and] at hd hd'
  have hm : leNat (List.ofFn d) % r = leNat (List.ofFn d') % r := by
    have : (leNat (List.ofFn d) : ZMod r) = (leNat (List.ofFn d') : ZMod r) := Eq.trans hd (Eq.symm hd')
    exact (ZMod.natCast_eq_natCast_iff' _ _ _).1 this
  apply digest_inj
  rw [← Nat.div_add_mod (leNat (List.ofFn d)) r, ← Nat.div_add_mod (leNat (List.ofFn d')) r, hm]
  simp only at he
  rw [he]

section
variable {G : Type} [AddCommGroup G] [DecidableEq G] [Module (ZMod r) G]

/-- C66 with digests.  A program that asks the hash at most `N` times and convinces `check` of the multipoint argument for more than the part
`9 (N + k + 3) (2 n + q + 1 + 2 (N + k + 3)) / 2²⁵⁶` of the hashes has runs, all with the same queries, from which a non-trivial relation between
the generators and `Q`, or vectors that open the commitments and have the claimed values, are computed. -/
theorem C83_openings {k N qmax : ℕ} {crs : CRS G} (hn : crs.n = 2 ^ k) (hg : crs.gens.length = 2 ^ k)
    (hF : Distinct (ZMod r) crs.n) {W : Weights (ZMod r)} (hW : Weights.new (ZMod r) crs.n = .ok W) (K : WireCodec (ZMod r) G) (t₀ : Transcript)
    (A : Prog (List Byte) Digest (List (VerifierQuery (ZMod r) G) × MultiProof (ZMod r) G)) (hA : A.Within N) (H₀ : List Byte → Digest)
    (D : Finset (List Byte)) (hD : ∀ s : List Byte, s.length ≤ t₀.length + 99 * qmax + 190 → s ∈ D)
    (h : (N + k + 3) * (9 * (2 * crs.n + qmax + 1 + 2 * (N + k + 3))) * Fintype.card Digest ^ D.card <
      Fintype.card Digest * Fintype.card {H : D → Digest // Forges K t₀ crs W qmax (.ret (A.run (over H₀ H))) (chal (over H₀ H))}) :
    ∃ (qs : List (VerifierQuery (ZMod r) G)) (X : MultiTree (ZMod r) G qs.length (crs.n + qs.length - 1) k), X.Distinct crs.n ∧
      (∀ i j u, ∀ p ∈ (X.ipa i j u).leaves, ∃ H : D → Digest, Forges K t₀ crs W qmax (.ret (A.run (over H₀ H))) (chal (over H₀ H)) ∧
        A.run (over H₀ H) = (qs, ⟨p.2, X.D i⟩) ∧
        drawn ⟨K, chal (over H₀ H)⟩ t₀ ⟨p.2, X.D i⟩ qs = (X.r i, X.t i j, X.w i j u, p.1)) ∧
      ((∃ ρ ∈ X.rels qs.get crs.n, ρ ≠ 0 ∧ ∑ i : Fin crs.n, ρ.1 i • crs.gens.getD i 0 + ρ.2 • crs.Q = 0) ∨
      ∃ v : Fin qs.length → Fin crs.n → ZMod r, (∀ l, X.vec qs.get crs.n l = (v l, 0)) ∧
        (∀ l, ∑ i : Fin crs.n, v l i • crs.gens.getD i 0 = (qs.get l).commitment) ∧
        (∀ l (p : Fin crs.n), (qs.get l).point = ((p : ℕ) : ZMod r) → v l p = (qs.get l).result) ∧
        ∀ l l', (qs.get l).commitment = (qs.get l').commitment → v l = v l') :=
  rom_multi_of C83_spread hn hg hF hW K t₀ A hA H₀ D hD h

/-- C66 for tries with digests (partial: with the conditions of `C66_trie_random_oracle_partial`). -/
theorem C83_trie_partial {N qmax : ℕ} (K : WireCodec (ZMod r) G) (C : Crypto (ZMod r) G) (Q : G)
    (order : List (ProverQuery (ZMod r) G) → List ℕ) (l : List (Key × Value)) {db : MemoryDb (ZMod r) G} (hb : build C l = .ok db) {root : G}
    (hr : Trie.rootCommitment db = .ok root)
    (A : Prog (List Byte) Digest (VerkleProof G (MultiProof (ZMod r) G) × List Key × List (Option Value))) (hA : A.Within N)
    (H₀ : List Byte → Digest) (D : Finset (List Byte)) (hD : ∀ s : List Byte, s.length ≤ 99 * qmax + 192 → s ∈ D)
    (h : (N + 11) * (9 * (513 + qmax + 2 * (N + 11))) * Fintype.card Digest ^ D.card <
      Fintype.card Digest * Fintype.card {H : D → Digest // ForgesClaim K C Q order l db root qmax (.ret (A.run (over H₀ H))) (chal (over H₀ H))}) :
    ∃ (qs : List (VerifierQuery (ZMod r) G)) (X : MultiTree (ZMod r) G qs.length (255 + qs.length) 8), X.Distinct 256 ∧
      (∀ i j u, ∀ p ∈ (X.ipa i j u).leaves, ∃ H : D → Digest, ForgesClaim K C Q order l db root qmax (.ret (A.run (over H₀ H))) (chal (over H₀ H)) ∧
        MakesQueries C root (A.run (over H₀ H)) qs ∧ (A.run (over H₀ H)).1.proof = ⟨p.2, X.D i⟩ ∧
        drawn ⟨K, chal (over H₀ H)⟩ (newTranscript (lbl "vt")) ⟨p.2, X.D i⟩ qs = (X.r i, X.t i j, X.w i j u, p.1)) ∧
      ((∃ ρ ∈ X.rels qs.get 256, ρ ≠ 0 ∧ ∑ i : Fin 256, ρ.1 i • C.g i + ρ.2 • Q = 0) ∨
      ProofBreak C (lastWrite l) (vecOf qs X) qs) :=
  rom_claim_of C83_spread C52_scalar_field.1 K C Q order l hb hr A hA H₀ D hD h

/-- C66 for the byte interface with digests. -/
theorem C83_ffi {N qmax : ℕ} (K : WireCodec (ZMod r) G)
    (hE : ∀ c x, c.length = 32 → K.decE c = some x → K.encE x = c)
    (hS : ∀ c x, c.length = 32 → K.decS c = some x → K.encS x = c) (C : Crypto (ZMod r) G) (Q : G)
    (A : Prog (List Byte) Digest (List Byte)) (hA : A.Within N) (H₀ : List Byte → Digest) (D : Finset (List Byte))
    (hD : ∀ s : List Byte, s.length ≤ 99 * qmax + 196 → s ∈ D)
    (h : (N + 11) * (9 * (513 + qmax + 2 * (N + 11))) * Fintype.card Digest ^ D.card <
      Fintype.card Digest * Fintype.card {H : D → Digest // ForgesBytes K C Q qmax (.ret (A.run (over H₀ H))) (chal (over H₀ H))}) :
    ∃ (xs : List (G × Byte × (ZMod r))) (qs : List (VerifierQuery (ZMod r) G)) (X : MultiTree (ZMod r) G qs.length (256 + qs.length - 1) 8),
      xs ≠ [] ∧ qs = xs.map toQuery ∧ X.Distinct 256 ∧
      (∀ i j u, ∀ p ∈ (X.ipa i j u).leaves, ∃ H : D → Digest, ForgesBytes K C Q qmax (.ret (A.run (over H₀ H))) (chal (over H₀ H)) ∧
        A.run (over H₀ H) = multiToBytes K ⟨p.2, X.D i⟩ ++ xs.flatMap (queryBytes K) ∧
        drawn ⟨K, chal (over H₀ H)⟩ (newTranscript (lbl "verkle")) ⟨p.2, X.D i⟩ qs = (X.r i, X.t i j, X.w i j u, p.1)) ∧
      ((∃ ρ ∈ X.rels qs.get 256, ρ ≠ 0 ∧ ∑ i : Fin 256, ρ.1 i • C.g i + ρ.2 • Q = 0) ∨
      ∀ x ∈ xs, ∑ i : Byte, vecOf qs X x.1 i • C.g i.val = x.1 ∧ vecOf qs X x.1 x.2.1 = x.2.2) :=
  rom_bytes_of C83_spread C52_scalar_field.1 K hE hS C Q A hA H₀ D hD h

/-- C66 for updated roots with digests (partial: as `C66_update_random_oracle_partial`). -/
theorem C83_update_partial {N qmax : ℕ} (K : WireCodec (ZMod r) G) (C : Crypto (ZMod r) G) (Q : G)
    (order : List (ProverQuery (ZMod r) G) → List ℕ) {ord : Path → List Stem → List Stem} (hord : ∀ p l, (ord p l).Perm l)
    (l : List (Key × Value)) {db : MemoryDb (ZMod r) G} (hb : build C l = .ok db) {root : G} (hr : Trie.rootCommitment db = .ok root)
    (A : Prog (List Byte) Digest ((VerkleProof G (MultiProof (ZMod r) G) × List Key × List (Option Value)) × List (Option Value)))
    (hA : A.Within N) (H₀ : List Byte → Digest) (D : Finset (List Byte)) (hD : ∀ s : List Byte, s.length ≤ 99 * qmax + 192 → s ∈ D)
    (h : (N + 11) * (9 * (513 + qmax + 2 * (N + 11))) * Fintype.card Digest ^ D.card <
      Fintype.card Digest * Fintype.card {H : D → Digest // ForgesUpdate K C Q order ord db root qmax (.ret (A.run (over H₀ H))) (chal (over H₀ H))}) :
    ∃ (qs : List (VerifierQuery (ZMod r) G)) (X : MultiTree (ZMod r) G qs.length (255 + qs.length) 8), X.Distinct 256 ∧
      (∀ i j u, ∀ p ∈ (X.ipa i j u).leaves, ∃ H : D → Digest, ForgesUpdate K C Q order ord db root qmax (.ret (A.run (over H₀ H))) (chal (over H₀ H)) ∧
        MakesQueries C root (A.run (over H₀ H)).1 qs ∧ (A.run (over H₀ H)).1.1.proof = ⟨p.2, X.D i⟩ ∧
        drawn ⟨K, chal (over H₀ H)⟩ (newTranscript (lbl "vt")) ⟨p.2, X.D i⟩ qs = (X.r i, X.t i j, X.w i j u, p.1)) ∧
      ((∃ ρ ∈ X.rels qs.get 256, ρ ≠ 0 ∧ ∑ i : Fin 256, ρ.1 i • C.g i + ρ.2 • Q = 0) ∨
      ProofBreak C (lastWrite l) (vecOf qs X) qs) :=
  rom_update_of C83_spread C52_scalar_field.1 K C Q order hord l hb hr A hA H₀ D hD h

/-- C66 for execution witnesses with digests (partial: as `C66_witness_random_oracle_partial`). -/
theorem C83_witness_partial {N qmax : ℕ} (K : WireCodec (ZMod r) G) (C : Crypto (ZMod r) G) (Q : G)
    (order : List (ProverQuery (ZMod r) G) → List ℕ) (l : List (Key × Value)) {db : MemoryDb (ZMod r) G} (hb : build C l = .ok db) {root : G}
    (hr : Trie.rootCommitment db = .ok root) {rootHex : List Char} (hhex : SpellsElem K rootHex root)
    (A : Prog (List Byte) Digest Json.ExecutionWitness) (hA : A.Within N) (H₀ : List Byte → Digest) (D : Finset (List Byte))
    (hD : ∀ s : List Byte, s.length ≤ 99 * qmax + 192 → s ∈ D)
    (h : (N + 11) * (9 * (513 + qmax + 2 * (N + 11))) * Fintype.card Digest ^ D.card <
      Fintype.card Digest * Fintype.card {H : D → Digest // ForgesWitness K C Q order l db root rootHex qmax (.ret (A.run (over H₀ H))) (chal (over H₀ H))}) :
    ∃ (qs : List (VerifierQuery (ZMod r) G)) (X : MultiTree (ZMod r) G qs.length (255 + qs.length) 8), X.Distinct 256 ∧
      (∀ i j u, ∀ p ∈ (X.ipa i j u).leaves, ∃ H : D → Digest, ForgesWitness K C Q order l db root rootHex qmax (.ret (A.run (over H₀ H))) (chal (over H₀ H)) ∧
        (∃ W : Claims (ZMod r) G, States K (A.run (over H₀ H)) W ∧ MakesQueries C root (W.toProof, W.keys, W.current) qs ∧
          W.proof = ⟨p.2, X.D i⟩) ∧
        drawn ⟨K, chal (over H₀ H)⟩ (newTranscript (lbl "vt")) ⟨p.2, X.D i⟩ qs = (X.r i, X.t i j, X.w i j u, p.1)) ∧
      ((∃ ρ ∈ X.rels qs.get 256, ρ ≠ 0 ∧ ∑ i : Fin 256, ρ.1 i • C.g i + ρ.2 • Q = 0) ∨
      ProofBreak C (lastWrite l) (vecOf qs X) qs) :=
  rom_witness_of C83_spread C52_scalar_field.1 K C Q order l hb hr hhex A hA H₀ D hD h

/-- C66 for the Java binding with digests (partial: as `C66_java_random_oracle_partial`). -/
theorem C83_java_partial {N qmax : ℕ} (K : WireCodec (ZMod r) G) (C : Crypto (ZMod r) G) (Q : G)
    (order : List (ProverQuery (ZMod r) G) → List ℕ) (l : List (Key × Value)) {db : MemoryDb (ZMod r) G} (hb : build C l = .ok db) {root : G}
    (hr : Trie.rootCommitment db = .ok root) (A : Prog (List Byte) Digest PreStateArgs) (hA : A.Within N) (H₀ : List Byte → Digest)
    (D : Finset (List Byte)) (hD : ∀ s : List Byte, s.length ≤ 99 * qmax + 192 → s ∈ D)
    (h : (N + 11) * (9 * (513 + qmax + 2 * (N + 11))) * Fintype.card Digest ^ D.card <
      Fintype.card Digest * Fintype.card {H : D → Digest // ForgesJava K C Q order l db root qmax (.ret (A.run (over H₀ H))) (chal (over H₀ H))}) :
    ∃ (qs : List (VerifierQuery (ZMod r) G)) (X : MultiTree (ZMod r) G qs.length (255 + qs.length) 8), X.Distinct 256 ∧
      (∀ i j u, ∀ p ∈ (X.ipa i j u).leaves, ∃ H : D → Digest, ForgesJava K C Q order l db root qmax (.ret (A.run (over H₀ H))) (chal (over H₀ H)) ∧
        (∃ W : Presented (ZMod r) G, Presents K (A.run (over H₀ H)) W ∧
          MakesQueries C root (W.toProof, W.pairs.map (·.1), W.pairs.map (·.2)) qs ∧ W.proof = ⟨p.2, X.D i⟩) ∧
        drawn ⟨K, chal (over H₀ H)⟩ (newTranscript (lbl "vt")) ⟨p.2, X.D i⟩ qs = (X.r i, X.t i j, X.w i j u, p.1)) ∧
      ((∃ ρ ∈ X.rels qs.get 256, ρ ≠ 0 ∧ ∑ i : Fin 256, ρ.1 i • C.g i + ρ.2 • Q = 0) ∨
      ProofBreak C (lastWrite l) (vecOf qs X) qs) :=
  rom_java_of C83_spread C52_scalar_field.1 K C Q order l hb hr A hA H₀ D hD h

/-- C70 with digests: a client follows a chain of blocks (partial: as `C70_chain_random_oracle_partial`). -/
theorem C83_chain_partial {N qmax : ℕ} (K : WireCodec (ZMod r) G) (C : Crypto (ZMod r) G) (Q : G)
    (order : List (ProverQuery (ZMod r) G) → List ℕ) {ord : Path → List Stem → List Stem} (hord : ∀ p l, (ord p l).Perm l)
    (l : List (Key × Value)) {db : MemoryDb (ZMod r) G} (hb : build C l = .ok db) {root : G} (hr : Trie.rootCommitment db = .ok root)
    (A : Prog (List Byte) Digest (List (Block G (MultiProof (ZMod r) G)))) (hA : A.Within N) (H₀ : List Byte → Digest) (D : Finset (List Byte))
    (hD : ∀ s : List Byte, s.length ≤ 99 * qmax + 192 → s ∈ D)
    (h : (N + 11) * (9 * (513 + qmax + 2 * (N + 11))) * Fintype.card Digest ^ D.card <
      Fintype.card Digest * Fintype.card {H : D → Digest // ForgesChain K C Q order ord db root qmax (.ret (A.run (over H₀ H))) (chal (over H₀ H))}) :
    ∃ (qs : List (VerifierQuery (ZMod r) G)) (X : MultiTree (ZMod r) G qs.length (255 + qs.length) 8), X.Distinct 256 ∧
      (∀ i j u, ∀ p ∈ (X.ipa i j u).leaves, ∃ H : D → Digest, ForgesChain K C Q order ord db root qmax (.ret (A.run (over H₀ H))) (chal (over H₀ H)) ∧
        (∃ bs₁ b bs₂ db₁ r₁, A.run (over H₀ H) = bs₁ ++ b :: bs₂ ∧ build C (l ++ chainWrites bs₁) = .ok db₁ ∧
          Trie.rootCommitment db₁ = .ok r₁ ∧ MakesQueries C r₁ (b.proof, b.keys, b.values) qs ∧ b.proof.proof = ⟨p.2, X.D i⟩) ∧
        drawn ⟨K, chal (over H₀ H)⟩ (newTranscript (lbl "vt")) ⟨p.2, X.D i⟩ qs = (X.r i, X.t i j, X.w i j u, p.1)) ∧
      ((∃ ρ ∈ X.rels qs.get 256, ρ ≠ 0 ∧ ∑ i : Fin 256, ρ.1 i • C.g i + ρ.2 • Q = 0) ∨
      ∃ H : D → Digest, ForgesChain K C Q order ord db root qmax (.ret (A.run (over H₀ H))) (chal (over H₀ H)) ∧ ∃ bs₁ b bs₂ db₁ r₁,
        A.run (over H₀ H) = bs₁ ++ b :: bs₂ ∧ build C (l ++ chainWrites bs₁) = .ok db₁ ∧ Trie.rootCommitment db₁ = .ok r₁ ∧
          MakesQueries C r₁ (b.proof, b.keys, b.values) qs ∧ ProofBreak C (lastWrite (l ++ chainWrites bs₁)) (vecOf qs X) qs) :=
  rom_chain_of C83_spread C52_scalar_field.1 K C Q order hord l hb hr A hA H₀ D hD h

/-- C69 with digests: the inner product argument (partial: as `C69_ipa_random_oracle_partial`). -/
theorem C83_ipa_partial {k N : ℕ} {crs : CRS G} (hn : crs.n = 2 ^ k) (hg : crs.gens.length = 2 ^ k)
    (vec : IpaStatement (ZMod r) G → List (ZMod r)) (hvec : ∀ x, (vec x).length = 2 ^ k) (K : WireCodec (ZMod r) G) (t₀ : Transcript)
    (A : Prog (List Byte) Digest (IpaStatement (ZMod r) G × IpaProof (ZMod r) G)) (hA : A.Within N) (H₀ : List Byte → Digest)
    (D : Finset (List Byte)) (hD : ∀ s : List Byte, s.length ≤ t₀.length + 124 → s ∈ D)
    (h : (N + k + 1) * (9 * (4 + 2 * (N + k + 1))) * Fintype.card Digest ^ D.card <
      Fintype.card Digest * Fintype.card {H : D → Digest // ForgesIpa K t₀ crs vec (.ret (A.run (over H₀ H))) (chal (over H₀ H))}) :
    ∃ (x : IpaStatement (ZMod r) G) (w : Fin 2 → ZMod r) (T : Fin 2 → Tree (ZMod r) G k), OpenDistinct w T ∧
      (∀ u, ∀ p ∈ (T u).leaves, ∃ H : D → Digest, ForgesIpa K t₀ crs vec (.ret (A.run (over H₀ H))) (chal (over H₀ H)) ∧ (A.run (over H₀ H)).1 = x ∧
        cutProof k (A.run (over H₀ H)).2 = p.2 ∧ drawnIpa ⟨K, chal (over H₀ H)⟩ t₀ p.2 x.1 x.2.1 x.2.2 = (w u, p.1)) ∧
      ((∃ ρ ∈ openRels (vec x) x.2.2 w T (2 ^ k), ρ ≠ 0 ∧
        ∑ i : Fin (2 ^ k), ρ.1 i • crs.gens.getD i 0 + ρ.2 • crs.Q = 0) ∨
      ∃ v : Fin (2 ^ k) → ZMod r, openRep (vec x) x.2.2 w T (2 ^ k) = (v, 0) ∧ ∑ i : Fin (2 ^ k), v i • crs.gens.getD i 0 = x.1 ∧
        ∑ i : Fin (2 ^ k), v i * (vec x).getD i 0 = x.2.2) :=
  rom_ipa_of C83_spread hn hg vec hvec K t₀ A hA H₀ D hD h

end

section
variable {G : Type} [AddCommGroup G] [Module (ZMod r) G]

attribute [-instance] ZMod.decidableEq

/-- C75 with digests: claims about a single stem, without conditions on hints and keys. -/
theorem C83_one_stem {N n : ℕ} (K : WireCodec (ZMod r) G) (C : Crypto (ZMod r) G) (Q : G)
    (order : List (ProverQuery (ZMod r) G) → List ℕ) (l : List (Key × Value)) {db : MemoryDb (ZMod r) G} (hb : build C l = .ok db) {root : G}
    (hr : Trie.rootCommitment db = .ok root)
    (A : Prog (List Byte) Digest (VerkleProof G (MultiProof (ZMod r) G) × List Key × List (Option Value))) (hA : A.Within N)
    (H₀ : List Byte → Digest) (D : Finset (List Byte)) (hD : ∀ s : List Byte, s.length ≤ 99 * (36 * n) + 192 → s ∈ D)
    (h : (N + 11) * (9 * (513 + 36 * n + 2 * (N + 11))) * Fintype.card Digest ^ D.card <
      Fintype.card Digest * Fintype.card {H : D → Digest // ForgesOneStem K C Q order db root n (.ret (A.run (over H₀ H))) (chal (over H₀ H))}) :
    ∃ (qs : List (VerifierQuery (ZMod r) G)) (X : MultiTree (ZMod r) G qs.length (255 + qs.length) 8), X.Distinct 256 ∧
      (∀ i j u, ∀ p ∈ (X.ipa i j u).leaves, ∃ H : D → Digest, ForgesOneStem K C Q order db root n (.ret (A.run (over H₀ H))) (chal (over H₀ H)) ∧
        MakesQueries C root (A.run (over H₀ H)) qs ∧ (A.run (over H₀ H)).1.proof = ⟨p.2, X.D i⟩ ∧
        drawn ⟨K, chal (over H₀ H)⟩ (newTranscript (lbl "vt")) ⟨p.2, X.D i⟩ qs = (X.r i, X.t i j, X.w i j u, p.1)) ∧
      ((∃ ρ ∈ X.rels qs.get 256, ρ ≠ 0 ∧ ∑ i : Fin 256, ρ.1 i • C.g i + ρ.2 • Q = 0) ∨
      ProofBreak C (lastWrite l) (vecOf qs X) qs) :=
  rom_stem_of C83_spread C52_scalar_field.1 K C Q order l hb hr A hA H₀ D hD h

/-- C75 with digests: claims about an account. -/
theorem C83_account {N n : ℕ} (K : WireCodec (ZMod r) G) (C : Crypto (ZMod r) G) (Q : G)
    (order : List (ProverQuery (ZMod r) G) → List ℕ) (H : Hash64) (w : List (Slot × Value))
    (hw : ∀ x ∈ w, x.1.2.Valid) {l : List (Key × Value)} (hl : stateWrites H w = .ok l) {db : MemoryDb (ZMod r) G} (hb : build C l = .ok db)
    {root : G} (hr : Trie.rootCommitment db = .ok root) (A : Prog (List Byte) Digest (AccountClaim (ZMod r) G)) (hA : A.Within N)
    (R₀ : List Byte → Digest) (D : Finset (List Byte)) (hD : ∀ s : List Byte, s.length ≤ 99 * (36 * n) + 192 → s ∈ D)
    (h : (N + 11) * (9 * (513 + 36 * n + 2 * (N + 11))) * Fintype.card Digest ^ D.card <
      Fintype.card Digest * Fintype.card {R : D → Digest // ForgesAccount K C Q order H w root n (.ret (A.run (over R₀ R))) (chal (over R₀ R))}) :
    ∃ (qs : List (VerifierQuery (ZMod r) G)) (X : MultiTree (ZMod r) G qs.length (255 + qs.length) 8), X.Distinct 256 ∧
      (∀ i j u, ∀ p ∈ (X.ipa i j u).leaves, ∃ R : D → Digest, ForgesAccount K C Q order H w root n (.ret (A.run (over R₀ R))) (chal (over R₀ R)) ∧
        MakesQueries C root (accountCheck H (A.run (over R₀ R))) qs ∧ (A.run (over R₀ R)).1.proof = ⟨p.2, X.D i⟩ ∧
        drawn ⟨K, chal (over R₀ R)⟩ (newTranscript (lbl "vt")) ⟨p.2, X.D i⟩ qs = (X.r i, X.t i j, X.w i j u, p.1)) ∧
      ((∃ ρ ∈ X.rels qs.get 256, ρ ≠ 0 ∧ ∑ i : Fin 256, ρ.1 i • C.g i + ρ.2 • Q = 0) ∨
      ProofBreak C (lastWrite l) (vecOf qs X) qs) :=
  rom_account_of C83_spread C52_scalar_field.1 K C Q order H w hw hl hb hr A hA R₀ D hD h

/-- C66 with digests, for single outputs: for all but a small part of the hashes, openings of the queries of an accepted proof are found. -/
theorem C83_accepted_found {N n : ℕ} (K : WireCodec (ZMod r) G) (C : Crypto (ZMod r) G) (Q : G)
    (order : List (ProverQuery (ZMod r) G) → List ℕ) (A : Prog (List Byte) Digest (G × VerkleProof G (MultiProof (ZMod r) G) × List Key × List (Option Value)))
    (hA : A.Within N) (H₀ : List Byte → Digest) (D : Finset (List Byte)) (hD : ∀ s : List Byte, s.length ≤ 99 * (36 * n) + 192 → s ∈ D) :
    Fintype.card Digest * Fintype.card {H : D → Digest // Missed digestScalar K C Q A (·.1) (·.2) (fun H => AcceptsAt K C Q order n (.ret (A.run H)) (chal H)) H₀ D (over H₀ H)} ≤
      (N + 11) * (9 * (513 + 36 * n + 2 * (N + 11))) * Fintype.card Digest ^ D.card :=
  rom_found_of C83_spread C52_scalar_field.1 K C Q order A hA H₀ D hD

/-- C79 with digests: no program shows contradicting proofs against a root of its choice. -/
theorem C83_pairs {N n : ℕ} (K : WireCodec (ZMod r) G) (C : Crypto (ZMod r) G) (Q : G)
    (order : List (ProverQuery (ZMod r) G) → List ℕ) (A : Prog (List Byte) Digest (PairClaim (ZMod r) G)) (hA : A.Within N)
    (H₀ : List Byte → Digest) (D : Finset (List Byte)) (hD : ∀ s : List Byte, s.length ≤ 99 * (36 * n) + 192 → s ∈ D)
    (h : 2 * ((N + 11) * (9 * (513 + 36 * n + 2 * (N + 11)))) * Fintype.card Digest ^ D.card <
      Fintype.card Digest * Fintype.card {H : D → Digest // ForgesPair K C Q order n (.ret (A.run (over H₀ H))) (chal (over H₀ H))}) :
    ∃ (H : D → Digest) (qs qs' : List (VerifierQuery (ZMod r) G)) (X : MultiTree (ZMod r) G qs.length (255 + qs.length) 8)
      (X' : MultiTree (ZMod r) G qs'.length (255 + qs'.length) 8), ForgesPair K C Q order n (.ret (A.run (over H₀ H))) (chal (over H₀ H)) ∧
      MakesQueries C (A.run (over H₀ H)).1 (A.run (over H₀ H)).2.1 qs ∧ MakesQueries C (A.run (over H₀ H)).1 (A.run (over H₀ H)).2.2 qs' ∧
      X.Distinct 256 ∧ X'.Distinct 256 ∧
      LeavesRun digestScalar K C A (·.1) (·.2.1) (fun H => ForgesPair K C Q order n (.ret (A.run H)) (chal H)) H₀ D qs X ∧
      LeavesRun digestScalar K C A (·.1) (·.2.2) (fun H => ForgesPair K C Q order n (.ret (A.run H)) (chal H)) H₀ D qs' X' ∧
      ((∃ ρ ∈ X.rels qs.get 256 ++ X'.rels qs'.get 256, ρ ≠ 0 ∧ ∑ i : Fin 256, ρ.1 i • C.g i + ρ.2 • Q = 0) ∨
      PairBreak C (vecOf qs X) (vecOf qs' X') qs qs') :=
  rom_pair_of C83_spread C52_scalar_field.1 K C Q order A hA H₀ D hD h

/-- C71 with digests: claims about slots of a state (partial: as `C71_random_hash_partial`). -/
theorem C83_state_partial {N n : ℕ} (K : WireCodec (ZMod r) G) (C : Crypto (ZMod r) G) (Q : G)
    (order : List (ProverQuery (ZMod r) G) → List ℕ) (H : Hash64) (w : List (Slot × Value))
    (hw : ∀ x ∈ w, x.1.2.Valid) {l : List (Key × Value)} (hl : stateWrites H w = .ok l) {db : MemoryDb (ZMod r) G} (hb : build C l = .ok db)
    {root : G} (hr : Trie.rootCommitment db = .ok root) (A : Prog (List Byte) Digest (StateClaim (ZMod r) G)) (hA : A.Within N)
    (R₀ : List Byte → Digest) (D : Finset (List Byte)) (hD : ∀ s : List Byte, s.length ≤ 99 * (36 * n) + 192 → s ∈ D)
    (h : (N + 11) * (9 * (513 + 36 * n + 2 * (N + 11))) * Fintype.card Digest ^ D.card <
      Fintype.card Digest * Fintype.card {R : D → Digest // ForgesState K C Q order H w root n (.ret (A.run (over R₀ R))) (chal (over R₀ R))}) :
    ∃ (qs : List (VerifierQuery (ZMod r) G)) (X : MultiTree (ZMod r) G qs.length (255 + qs.length) 8), X.Distinct 256 ∧
      LeavesRun digestScalar K C A (fun _ => root) (stateCheck H) (fun R => ForgesState K C Q order H w root n (.ret (A.run R)) (chal R)) R₀ D qs X ∧
      ((∃ ρ ∈ X.rels qs.get 256, ρ ≠ 0 ∧ ∑ i : Fin 256, ρ.1 i • C.g i + ρ.2 • Q = 0) ∨
      ProofBreak C (lastWrite l) (vecOf qs X) qs) :=
  rom_state_of C83_spread C52_scalar_field.1 K C Q order H w hw hl hb hr A hA R₀ D hD h

end

section
variable {G : Type} [AddCommGroup G] [DecidableEq G] [Module (ZMod r) G]

/-- C68 with digests: for all hashes but the part `9 (k + 5) 2ᵏ / 2²⁵⁶` the proof of true openings is made and accepted. -/
theorem C83_honest_openings {k : ℕ} {crs : CRS G} (hk : k ≤ 31) (hn : crs.n = 2 ^ k) (hg : crs.gens.length = 2 ^ k)
    (hF : Distinct (ZMod r) crs.n) {W : Weights (ZMod r)} (hW : Weights.new (ZMod r) crs.n = .ok W) (K : WireCodec (ZMod r) G) (t₀ : Transcript)
    {qs : List (ProverQuery (ZMod r) G)} (hne : qs ≠ []) (ht : ∀ q ∈ qs, TrueOpening crs q) {order : List ℕ} (ho : IsOrder qs order)
    (H₀ : List Byte → Digest) (D : Finset (List Byte)) (hD : ∀ s : List Byte, s.length ≤ t₀.length + 99 * qs.length + 190 → s ∈ D) :
    Fintype.card Digest * Fintype.card {H : D → Digest // ¬ ∃ π t', openMulti ⟨K, chal (over H₀ H)⟩ crs W t₀ qs order = .ok (π, t') ∧
        checkMulti ⟨K, chal (over H₀ H)⟩ π crs W (qs.map ProverQuery.toVerifier) t₀ = .ok (true, t')} ≤
      (k + 5) * (9 * 2 ^ k) * Fintype.card Digest ^ D.card :=
  openings_of C83_spread hk hn hg hF hW K t₀ hne ht ho H₀ D hD

/-- C68 for tries with digests (partial: as `C68_proofs_accepted_partial`). -/
theorem C83_honest_proofs_partial (K : WireCodec (ZMod r) G) (C : Crypto (ZMod r) G) (Q : G)
    {order : List (ProverQuery (ZMod r) G) → List ℕ} (ho : ∀ qs, IsOrder qs (order qs)) (l : List (Key × Value)) {db : MemoryDb (ZMod r) G}
    (hb : build C l = .ok db) {keys : List Key} (hk : keys ≠ []) (hk' : 36 * keys.length < 2 ^ 32) {root : G}
    (hr : Trie.rootCommitment db = .ok root) (hs : Separated C (lastWrite l) (· ∈ keys)) (H₀ : List Byte → Digest)
    (D : Finset (List Byte)) (hD : ∀ s : List Byte, s.length ≤ 99 * (36 * keys.length) + 192 → s ∈ D) :
    Fintype.card Digest * Fintype.card {H : D → Digest // ¬ ∃ (p : VerkleProof G (MultiProof (ZMod r) G)) (bs : List Byte) (uh : UpdateHint G),
        createVerkleProof (multiOpener ⟨K, chal (over H₀ H)⟩ C Q order) db keys = .ok (.ok p) ∧ writeProof K p = .ok bs ∧
        readProof K bs = .ok (some p) ∧
        check C (multiOpener ⟨K, chal (over H₀ H)⟩ C Q order) p keys (keys.map (Trie.get db)) root = .ok (true, some uh)} ≤
      13 * (9 * 256) * Fintype.card Digest ^ D.card :=
  proofs_of C83_spread C52_scalar_field.2.1 K C Q ho l hb hk hk' hr hs H₀ D hD

/-- C68 for updates with digests (partial: as `C68_update_partial`). -/
theorem C83_honest_update_partial (K : WireCodec (ZMod r) G) (C : Crypto (ZMod r) G) (Q : G)
    {order : List (ProverQuery (ZMod r) G) → List ℕ} (ho : ∀ qs, IsOrder qs (order qs)) {ord : Path → List Stem → List Stem}
    (hord : ∀ p l, (ord p l).Perm l) (l : List (Key × Value)) {db : MemoryDb (ZMod r) G} (hb : build C l = .ok db) {keys : List Key}
    (hk : keys ≠ []) (hnd : keys.Nodup) {updated : List (Option Value)} (hlen : updated.length = keys.length) {root : G}
    (hr : Trie.rootCommitment db = .ok root) (hs : Separated C (lastWrite l) (· ∈ keys))
    (hp : ∀ kv ∈ writes keys updated, PlaceTaken (lastWrite l) kv.1.stem) {db' : MemoryDb (ZMod r) G} {root' : G}
    (hb' : Trie.insert C db (writes keys updated) = .ok db') (hr' : Trie.rootCommitment db' = .ok root') (H₀ : List Byte → Digest)
    (D : Finset (List Byte)) (hD : ∀ s : List Byte, s.length ≤ 99 * (36 * keys.length) + 192 → s ∈ D) :
    Fintype.card Digest * Fintype.card {H : D → Digest // ¬ ∃ p : VerkleProof G (MultiProof (ZMod r) G),
        createVerkleProof (multiOpener ⟨K, chal (over H₀ H)⟩ C Q order) db keys = .ok (.ok p) ∧
        verifyAndUpdate C (multiOpener ⟨K, chal (over H₀ H)⟩ C Q order) ord p root keys (keys.map (Trie.get db)) updated =
          .ok (.ok root')} ≤
      13 * (9 * 256) * Fintype.card Digest ^ D.card :=
  update_of C83_spread C52_scalar_field.2.1 K C Q ho hord l hb hk hnd hlen hr hs hp hb' hr' H₀ D hD

/-- C68 for the byte interface with digests. -/
theorem C83_honest_bytes (K : WireCodec (ZMod r) G) (C : Crypto (ZMod r) G) (Q : G)
    {order : List (ProverQuery (ZMod r) G) → List ℕ} (ho : ∀ qs, IsOrder qs (order qs)) {qs : List (ProverQuery (ZMod r) G)} (hne : qs ≠ [])
    (hq : ∀ q ∈ qs, Formatted q) (ht : ∀ q ∈ qs, TrueOpening (crsOf C Q) q) (H₀ : List Byte → Digest) (D : Finset (List Byte))
    (hD : ∀ s : List Byte, s.length ≤ 99 * qs.length + 196 → s ∈ D) :
    Fintype.card Digest * Fintype.card {H : D → Digest // ¬ ∃ bs : List Byte,
        createProof ⟨K, chal (over H₀ H)⟩ C Q order (qs.flatMap fun q => proverQueryBytes K (K.encE q.commitment) q) = .ok (some bs) ∧
        verifyProof ⟨K, chal (over H₀ H)⟩ C Q (bs ++ qs.flatMap fun q => queryBytes K (q.commitment, asU8 q.point, q.result)) =
          .ok (some true)} ≤
      13 * (9 * 256) * Fintype.card Digest ^ D.card :=
  bytes_of C83_spread C52_scalar_field.2.1 K C Q ho hne hq ht H₀ D hD

end

/-! ### Bandersnatch, the C interface, and numbers -/

/-- C66 for the C interface with digests.  A program that asks SHA-256 at most `N` times, seeing the digests, and makes the C function
`verify_proof` say yes for more than the part `9 (N + 11) (513 + q + 2 (N + 11)) / 2²⁵⁶` of the hashes has runs from which a non-trivial relation
between the generators of the default reference string and `Q`, or vectors that open the commitments sent, are computed. -/
theorem C83_c {N qmax : ℕ} (K : Ark) {ctx : ProofContext} (hctx : ProofContext.new = .ok ctx)
    (S : Sqrt (ZMod Bander.q)) (A : Prog (List Byte) Digest (List Byte)) (hA : A.Within N) (H₀ : List Byte → Digest)
    (D : Finset (List Byte)) (hD : ∀ s : List Byte, s.length ≤ 99 * qmax + 196 → s ∈ D)
    (h : (N + 11) * (9 * (513 + qmax + 2 * (N + 11))) * Fintype.card Digest ^ D.card <
      Fintype.card Digest * Fintype.card {H : D → Digest // ForgesC K ctx S qmax (.ret (A.run (over H₀ H))) (chal (over H₀ H))}) :
    ∃ (xs : List (BElem × Byte × ZMod r)) (qs : List (VerifierQuery (ZMod r) BElem))
      (X : MultiTree (ZMod r) BElem qs.length (256 + qs.length - 1) 8),
      xs ≠ [] ∧ qs = xs.map toQuery ∧ X.Distinct 256 ∧
      (∀ i j u, ∀ p ∈ (X.ipa i j u).leaves, ∃ H : D → Digest, ForgesC K ctx S qmax (.ret (A.run (over H₀ H))) (chal (over H₀ H)) ∧
        A.run (over H₀ H) = multiToBytes codec ⟨p.2, X.D i⟩ ++ xs.flatMap (queryBytes codec) ∧
        drawn ⟨codec, chal (over H₀ H)⟩ (newTranscript (lbl "verkle")) ⟨p.2, X.D i⟩ qs = (X.r i, X.t i j, X.w i j u, p.1)) ∧
      ((∃ ρ ∈ X.rels qs.get 256, ρ ≠ 0 ∧ ∑ i : Fin 256, ρ.1 i • crypto.g i + ρ.2 • genPt = 0) ∨
      ∀ x ∈ xs, ∑ i : Byte, vecOf qs X x.1 i • crypto.g i.val = x.1 ∧ vecOf qs X x.1 x.2.1 = x.2.2) := by
  have e : ∀ P H, ForgesC K ctx S qmax P H ↔ ForgesBytes codec crypto genPt qmax P H := by
    intro P H
    unfold ForgesC ForgesBytes
    rw [C59_verify K H hctx S]
  simp only [e] at h ⊢
  exact C83_ffi codec (fun _ _ _ h => (C52_canonical.1 _ _).1 h)
    (fun _ _ _ h => (C52_canonical.2 _ _).1 h) crypto genPt A hA H₀ D hD h

theorem digest_part_lt {n N : ℕ} (h : Fintype.card Digest * n ≤ 13 * (9 * 256) * N) : 2 ^ 241 * n ≤ N := by
  rw [card_digest] at h
  have h2 : 13 * (9 * 256) * 2 ^ 241 * n ≤ 2 ^ 256 * n := Nat.mul_le_mul_right _ (by norm_num)
  by_contra hc
  have h1 : 13 * (9 * 256) * N < 13 * (9 * 256) * (2 ^ 241 * n) := by omega
  rw [mul_assoc] at h2
  exact absurd (lt_of_lt_of_le h1 (h2.trans h)) (lt_irrefl _)

/-- C68 for the C interface with digests.  For all hashes but a part of 2⁻²⁴¹ the bytes returned by `create_proof` for true openings, followed
by the statements, are accepted by `verify_proof`. -/
theorem C83_honest_c (K : Ark) {ctx : ProofContext} (hctx : ProofContext.new = .ok ctx) (S : Sqrt (ZMod Bander.q))
    {order : List ℕ → List ℕ} (ho : ∀ l, (order l).Nodup ∧ ∀ p, p ∈ order l ↔ p ∈ l) {qs : List (ProverQuery (ZMod r) BElem)}
    (hne : qs ≠ []) (hf : ∀ q ∈ qs, Formatted q) (ht : ∀ q ∈ qs, TrueOpening (crsOf crypto genPt) q) (H₀ : List Byte → Digest)
    (D : Finset (List Byte)) (hD : ∀ s : List Byte, s.length ≤ 99 * qs.length + 196 → s ∈ D) :
    2 ^ 241 * Fintype.card {H : D → Digest // ¬ ∃ bs : List Byte,
        cCreateProof K (chal (over H₀ H)) ctx S order (qs.flatMap fun q => proverQueryBytes codec (codec.encE q.commitment) q) = .ok bs ∧
        cVerifyProof K (chal (over H₀ H)) ctx S (bs ++ qs.flatMap fun q => queryBytes codec (q.commitment, asU8 q.point, q.result)) =
          .ok true} ≤ Fintype.card Digest ^ D.card := by
  have := C83_honest_bytes codec crypto genPt (order := fun qs => order (qs.map ProverQuery.point))
    (fun qs => ⟨(ho _).1, fun p => ((ho _).2 p).trans List.mem_map⟩) hne hf ht H₀ D hD
  refine digest_part_lt (le_trans (Nat.mul_le_mul_left _ (Fintype.card_subtype_mono _ _ fun H hH hex => hH ?_)) this)
  obtain ⟨bs, h1, h2⟩ := hex
  exact ⟨bs, (C59_create K _ hctx S order _ bs).2 h1, (C59_verify K _ hctx S _ true).2 h2⟩

/-- C68 for tries over Bandersnatch with digests (partial: the commitments of the trie that are opened at the same point must differ, as in
`C68_proofs_accepted_partial`). -/
theorem C83_honest_trie_partial {order : List (ProverQuery (ZMod r) BElem) → List ℕ}
    (ho : ∀ qs, IsOrder qs (order qs)) (l : List (Key × Value)) {db : MemoryDb (ZMod r) BElem} (hb : build crypto l = .ok db)
    {keys : List Key} (hk : keys ≠ []) (hk' : 36 * keys.length < 2 ^ 32) {root : BElem} (hr : Trie.rootCommitment db = .ok root)
    (hs : Separated crypto (lastWrite l) (· ∈ keys)) (H₀ : List Byte → Digest) (D : Finset (List Byte))
    (hD : ∀ s : List Byte, s.length ≤ 99 * (36 * keys.length) + 192 → s ∈ D) :
    2 ^ 241 * Fintype.card {H : D → Digest // ¬ ∃ (p : VerkleProof BElem (MultiProof (ZMod r) BElem)) (bs : List Byte)
        (uh : UpdateHint BElem),
        createVerkleProof (multiOpener ⟨codec, chal (over H₀ H)⟩ crypto genPt order) db keys = .ok (.ok p) ∧ writeProof codec p = .ok bs ∧
        readProof codec bs = .ok (some p) ∧
        check crypto (multiOpener ⟨codec, chal (over H₀ H)⟩ crypto genPt order) p keys (keys.map (Trie.get db)) root =
          .ok (true, some uh)} ≤ Fintype.card Digest ^ D.card :=
  digest_part_lt (C83_honest_proofs_partial codec crypto genPt ho l hb hk hk' hr hs H₀ D hD)

/-- The bounds of the theorems above in bits: with at most 2⁸⁰ questions and 2²⁰ keys, the part is less than 2⁻⁹⁰. -/
theorem C83_bits {N m X n : ℕ} (hN : N ≤ 2 ^ 80) (hm : m ≤ 36 * 2 ^ 20) (h : X < 2 ^ 90 * n) :
    2 * ((N + 11) * (9 * (513 + m + 2 * (N + 11)))) * X < Fintype.card Digest * n := by
  have h1 : (N + 11) * (9 * (513 + m + 2 * (N + 11))) ≤ (2 ^ 80 + 11) * (9 * (513 + 36 * 2 ^ 20 + 2 * (2 ^ 80 + 11))) :=
    Nat.mul_le_mul (by omega) (by omega)
  have h2 : 2 * ((N + 11) * (9 * (513 + m + 2 * (N + 11)))) ≤ 2 ^ 166 :=
    (Nat.mul_le_mul_left 2 h1).trans (by norm_num)
  rw [card_digest]
  calc _ ≤ 2 ^ 166 * X := Nat.mul_le_mul_right _ h2
    _ < 2 ^ 166 * (2 ^ 90 * n) := Nat.mul_lt_mul_of_pos_left h (by positivity)
    _ = 2 ^ 256 * n := by rw [← mul_assoc, ← pow_add]

/-- Some challenge comes from more than 8 digests: the challenges are not uniform, and 9 cannot be improved. -/
theorem C83_not_uniform : ¬ Spread digestScalar 8 := by
  intro h
  have : NeZero r := ⟨by decide +kernel⟩
  have h1 : Fintype.card Digest ≤ 8 * (Finset.univ : Finset (ZMod r)).card := by
    refine le_trans (le_of_eq (Finset.card_univ.symm.trans (congrArg Finset.card (Finset.ext fun e => ?_)))) (h.preimage Finset.univ)
    simp only [Finset.mem_filter, Finset.mem_univ, and_self]
  rw [card_digest, Finset.card_univ, ZMod.card] at h1
  exact absurd h1 (by decide +kernel)

section
variable {G : Type} [AddCommGroup G] [Module (ZMod r) G]

attribute [-instance] ZMod.decidableEq

/-- C75 with digests, in bits.  A program that asks the hash at most 2⁸⁰ times and makes `check` accept a false claim about at most 2²⁰ keys
of one stem of a trie, for more than the part 2⁻⁹⁰ of the hashes, has runs from which a relation between the generators, or vectors breaking the
trie's commitments, are computed. -/
theorem C83_one_stem_bits {N n : ℕ} (hN : N ≤ 2 ^ 80) (hn : n ≤ 2 ^ 20) (K : WireCodec (ZMod r) G) (C : Crypto (ZMod r) G) (Q : G)
    (order : List (ProverQuery (ZMod r) G) → List ℕ) (l : List (Key × Value)) {db : MemoryDb (ZMod r) G} (hb : build C l = .ok db) {root : G}
    (hr : Trie.rootCommitment db = .ok root)
    (A : Prog (List Byte) Digest (VerkleProof G (MultiProof (ZMod r) G) × List Key × List (Option Value))) (hA : A.Within N)
    (H₀ : List Byte → Digest) (D : Finset (List Byte)) (hD : ∀ s : List Byte, s.length ≤ 99 * (36 * n) + 192 → s ∈ D)
    (h : Fintype.card Digest ^ D.card < 2 ^ 90 * Fintype.card {H : D → Digest // ForgesOneStem K C Q order db root n (.ret (A.run (over H₀ H))) (chal (over H₀ H))}) :
    ∃ (qs : List (VerifierQuery (ZMod r) G)) (X : MultiTree (ZMod r) G qs.length (255 + qs.length) 8), X.Distinct 256 ∧
      (∀ i j u, ∀ p ∈ (X.ipa i j u).leaves, ∃ H : D → Digest, ForgesOneStem K C Q order db root n (.ret (A.run (over H₀ H))) (chal (over H₀ H)) ∧
        MakesQueries C root (A.run (over H₀ H)) qs ∧ (A.run (over H₀ H)).1.proof = ⟨p.2, X.D i⟩ ∧
        drawn ⟨K, chal (over H₀ H)⟩ (newTranscript (lbl "vt")) ⟨p.2, X.D i⟩ qs = (X.r i, X.t i j, X.w i j u, p.1)) ∧
      ((∃ ρ ∈ X.rels qs.get 256, ρ ≠ 0 ∧ ∑ i : Fin 256, ρ.1 i • C.g i + ρ.2 • Q = 0) ∨
      ProofBreak C (lastWrite l) (vecOf qs X) qs) :=
  C83_one_stem K C Q order l hb hr A hA H₀ D hD (lt_of_le_of_lt (Nat.mul_le_mul_right _ (Nat.le_mul_of_pos_left _ two_pos)) (C83_bits hN (Nat.mul_le_mul_left 36 hn) h))

/-- The same for claims about an account. -/
theorem C83_account_bits {N n : ℕ} (hN : N ≤ 2 ^ 80) (hn : n ≤ 2 ^ 20) (K : WireCodec (ZMod r) G) (C : Crypto (ZMod r) G) (Q : G)
    (order : List (ProverQuery (ZMod r) G) → List ℕ) (H : Hash64) (w : List (Slot × Value))
    (hw : ∀ x ∈ w, x.1.2.Valid) {l : List (Key × Value)} (hl : stateWrites H w = .ok l) {db : MemoryDb (ZMod r) G} (hb : build C l = .ok db)
    {root : G} (hr : Trie.rootCommitment db = .ok root) (A : Prog (List Byte) Digest (AccountClaim (ZMod r) G)) (hA : A.Within N)
    (R₀ : List Byte → Digest) (D : Finset (List Byte)) (hD : ∀ s : List Byte, s.length ≤ 99 * (36 * n) + 192 → s ∈ D)
    (h : Fintype.card Digest ^ D.card < 2 ^ 90 * Fintype.card {R : D → Digest // ForgesAccount K C Q order H w root n (.ret (A.run (over R₀ R))) (chal (over R₀ R))}) :
    ∃ (qs : List (VerifierQuery (ZMod r) G)) (X : MultiTree (ZMod r) G qs.length (255 + qs.length) 8), X.Distinct 256 ∧
      (∀ i j u, ∀ p ∈ (X.ipa i j u).leaves, ∃ R : D → Digest, ForgesAccount K C Q order H w root n (.ret (A.run (over R₀ R))) (chal (over R₀ R)) ∧
        MakesQueries C root (accountCheck H (A.run (over R₀ R))) qs ∧ (A.run (over R₀ R)).1.proof = ⟨p.2, X.D i⟩ ∧
        drawn ⟨K, chal (over R₀ R)⟩ (newTranscript (lbl "vt")) ⟨p.2, X.D i⟩ qs = (X.r i, X.t i j, X.w i j u, p.1)) ∧
      ((∃ ρ ∈ X.rels qs.get 256, ρ ≠ 0 ∧ ∑ i : Fin 256, ρ.1 i • C.g i + ρ.2 • Q = 0) ∨
      ProofBreak C (lastWrite l) (vecOf qs X) qs) :=
  C83_account K C Q order H w hw hl hb hr A hA R₀ D hD (lt_of_le_of_lt (Nat.mul_le_mul_right _ (Nat.le_mul_of_pos_left _ two_pos)) (C83_bits hN (Nat.mul_le_mul_left 36 hn) h))

end

/-! ### The hypotheses can be met -/

section
variable {G : Type} [AddCommGroup G] [DecidableEq G] [Module (ZMod r) G]

/-- The hypotheses of `C83_openings` are met by the honest prover, for all true openings. -/
example {k qmax : ℕ} {crs : CRS G} (hk : k ≤ 31) (hn : crs.n = 2 ^ k) (hg : crs.gens.length = 2 ^ k)
    (hF : Ipa.Distinct (ZMod r) crs.n) {W : Weights (ZMod r)} (hW : Weights.new (ZMod r) crs.n = .ok W) (K : WireCodec (ZMod r) G) (t₀ : Transcript)
    {qs : List (ProverQuery (ZMod r) G)} (hne : qs ≠ []) (hq : qs.length ≤ qmax) (ht : ∀ q ∈ qs, TrueOpening crs q) (H₀ : List Byte → Digest)
    (hbig : (k + 3) * (9 * (crs.n + 1)) + (k + 3 + k + 3) * (9 * (2 * crs.n + qmax + 1 + 2 * (k + 3 + k + 3))) < 2 ^ 256) :
    ∃ (A : Prog (List Byte) Digest (List (VerifierQuery (ZMod r) G) × MultiProof (ZMod r) G)) (D : Finset (List Byte)), A.Within (k + 3) ∧
      (∀ s : List Byte, s.length ≤ t₀.length + 99 * qmax + 190 → s ∈ D) ∧
      (k + 3 + k + 3) * (9 * (2 * crs.n + qmax + 1 + 2 * (k + 3 + k + 3))) * Fintype.card Digest ^ D.card <
        Fintype.card Digest * Fintype.card {H : D → Digest // Forges K t₀ crs W qmax (.ret (A.run (over H₀ H))) (chal (over H₀ H))} := by
  obtain ⟨A, hA, -, hw⟩ := honest_wins_of C83_spread (qmax := qmax) hk hn hg hF hW K t₀ hne hq ht
  refine ⟨A.lift digestScalar, shortStrings (t₀.length + 99 * qmax + 190), hA.lift _, fun s h => mem_shortStrings h, ?_⟩
  refine win_of_lose (le_trans (Nat.mul_le_mul_left _ (Fintype.card_subtype_mono _ _ fun H hH hf => hH ?_))
    (hw H₀ _ fun s h => mem_shortStrings h)) (by rw [card_digest]; exact hbig)
  unfold Forges at hf ⊢
  rw [Prog.lift_run]
  exact hf

/-- Those of `C83_trie_partial` are met if all generators are zero. -/
example (C : Crypto (ZMod r) G) (hC : ∀ i, C.g i = 0) (K : WireCodec (ZMod r) G) (Q : G) (order : List (ProverQuery (ZMod r) G) → List ℕ)
    (H₀ : List Byte → Digest) : ∃ (db : MemoryDb (ZMod r) G) (root : G)
      (A : Prog (List Byte) Digest (VerkleProof G (MultiProof (ZMod r) G) × List Key × List (Option Value))) (D : Finset (List Byte)),
      build C [] = .ok db ∧ Trie.rootCommitment db = .ok root ∧ A.Within 11 ∧ (∀ s : List Byte, s.length ≤ 99 * 6 + 192 → s ∈ D) ∧
      (11 + 11) * (9 * (513 + 6 + 2 * (11 + 11))) * Fintype.card Digest ^ D.card < Fintype.card Digest *
        Fintype.card {H : D → Digest // ForgesClaim K C Q order [] db root 6 (.ret (A.run (over H₀ H))) (chal (over H₀ H))} := by
  obtain ⟨db, root, A, D, h1, h2, h3, -, h5, h6⟩ := forges_zero_of C83_spread (m := 6) le_rfl C52_scalar_field.1 C hC K Q order H₀
    (by rw [card_digest]; norm_num)
  refine ⟨db, root, A.lift digestScalar, D, h1, h2, h3.lift _, h5, lt_of_lt_of_le h6 (Nat.mul_le_mul_left _ (Fintype.card_subtype_mono _ _ ?_))⟩
  intro H hH
  unfold ForgesClaim at hH ⊢
  rw [Prog.lift_run]
  exact hH

/-- Those of `C83_update_partial`, `C83_witness_partial` and `C83_java_partial` are met if all generators are zero. -/
example (C : Crypto (ZMod r) G) (hC : ∀ i, C.g i = 0) (K : WireCodec (ZMod r) G) (Q : G) (order : List (ProverQuery (ZMod r) G) → List ℕ)
    (H₀ : List Byte → Digest) : ∃ (db : MemoryDb (ZMod r) G) (root : G) (rootHex : List Char)
      (A₁ : Prog (List Byte) Digest ((VerkleProof G (MultiProof (ZMod r) G) × List Key × List (Option Value)) × List (Option Value)))
      (A₂ : Prog (List Byte) Digest Json.ExecutionWitness) (A₃ : Prog (List Byte) Digest PreStateArgs) (D : Finset (List Byte)),
      build C [] = .ok db ∧ Trie.rootCommitment db = .ok root ∧ SpellsElem K rootHex root ∧
      A₁.Within 11 ∧ A₂.Within 11 ∧ A₃.Within 11 ∧ (∀ s : List Byte, s.length ≤ 99 * 6 + 192 → s ∈ D) ∧
      (11 + 11) * (9 * (513 + 6 + 2 * (11 + 11))) * Fintype.card Digest ^ D.card < Fintype.card Digest *
        Fintype.card {H : D → Digest // ForgesUpdate K C Q order (fun _ l => l) db root 6 (.ret (A₁.run (over H₀ H))) (chal (over H₀ H))} ∧
      (11 + 11) * (9 * (513 + 6 + 2 * (11 + 11))) * Fintype.card Digest ^ D.card < Fintype.card Digest *
        Fintype.card {H : D → Digest // ForgesWitness K C Q order [] db root rootHex 6 (.ret (A₂.run (over H₀ H))) (chal (over H₀ H))} ∧
      (11 + 11) * (9 * (513 + 6 + 2 * (11 + 11))) * Fintype.card Digest ^ D.card < Fintype.card Digest *
        Fintype.card {H : D → Digest // ForgesJava K C Q order [] db root 6 (.ret (A₃.run (over H₀ H))) (chal (over H₀ H))} := by
  obtain ⟨db, root, rh, A₁, A₂, A₃, D, h1, h2, h3, w1, w2, w3, -, h5, h6, h7, h8⟩ := clients_zero_of C83_spread C52_scalar_field.1 C hC K Q order H₀
    (by rw [card_digest]; norm_num)
  refine ⟨db, root, rh, A₁.lift digestScalar, A₂.lift digestScalar, A₃.lift digestScalar, D, h1, h2, h3, w1.lift _, w2.lift _, w3.lift _, h5,
    lt_of_lt_of_le h6 (Nat.mul_le_mul_left _ (Fintype.card_subtype_mono _ _ fun H hH => ?_)),
    lt_of_lt_of_le h7 (Nat.mul_le_mul_left _ (Fintype.card_subtype_mono _ _ fun H hH => ?_)),
    lt_of_lt_of_le h8 (Nat.mul_le_mul_left _ (Fintype.card_subtype_mono _ _ fun H hH => ?_))⟩
  · unfold ForgesUpdate at hH ⊢
    rw [Prog.lift_run]
    exact hH
  · unfold ForgesWitness at hH ⊢
    rw [Prog.lift_run]
    exact hH
  · unfold ForgesJava at hH ⊢
    rw [Prog.lift_run]
    exact hH

/-- Those of `C83_chain_partial` are met if all generators are zero. -/
example (C : Crypto (ZMod r) G) (hC : ∀ i, C.g i = 0) (K : WireCodec (ZMod r) G) (Q : G) (order : List (ProverQuery (ZMod r) G) → List ℕ)
    (H₀ : List Byte → Digest) : ∃ (db : MemoryDb (ZMod r) G) (root : G)
      (A : Prog (List Byte) Digest (List (Block G (MultiProof (ZMod r) G)))) (D : Finset (List Byte)),
      build C [] = .ok db ∧ Trie.rootCommitment db = .ok root ∧ A.Within 11 ∧ (∀ s : List Byte, s.length ≤ 99 * 6 + 192 → s ∈ D) ∧
      (11 + 11) * (9 * (513 + 6 + 2 * (11 + 11))) * Fintype.card Digest ^ D.card < Fintype.card Digest *
        Fintype.card {H : D → Digest // ForgesChain K C Q order (fun _ l => l) db root 6 (.ret (A.run (over H₀ H))) (chal (over H₀ H))} := by
  obtain ⟨db, root, A, D, h1, h2, h3, h5, h6⟩ := chain_zero_of C83_spread C52_scalar_field.1 C hC K Q order H₀ (by rw [card_digest]; norm_num)
  refine ⟨db, root, A.lift digestScalar, D, h1, h2, h3.lift _, h5, lt_of_lt_of_le h6 (Nat.mul_le_mul_left _ (Fintype.card_subtype_mono _ _ ?_))⟩
  intro H hH
  unfold ForgesChain at hH ⊢
  rw [Prog.lift_run]
  exact hH

end

section
variable {G : Type} [AddCommGroup G] [Module (ZMod r) G]

attribute [-instance] ZMod.decidableEq

/-- Those of `C83_one_stem` are met if all generators are zero. -/
example (C : Crypto (ZMod r) G) (hC : ∀ i, C.g i = 0) (K : WireCodec (ZMod r) G) (Q : G) (order : List (ProverQuery (ZMod r) G) → List ℕ)
    (H₀ : List Byte → Digest) : ∃ (db : MemoryDb (ZMod r) G) (root : G)
      (A : Prog (List Byte) Digest (VerkleProof G (MultiProof (ZMod r) G) × List Key × List (Option Value))) (D : Finset (List Byte)),
      build C [] = .ok db ∧ Trie.rootCommitment db = .ok root ∧ A.Within 11 ∧ (∀ s : List Byte, s.length ≤ 99 * (36 * 1) + 192 → s ∈ D) ∧
      (11 + 11) * (9 * (513 + 36 * 1 + 2 * (11 + 11))) * Fintype.card Digest ^ D.card < Fintype.card Digest *
        Fintype.card {H : D → Digest // ForgesOneStem K C Q order db root 1 (.ret (A.run (over H₀ H))) (chal (over H₀ H))} := by
  obtain ⟨db, root, A, D, h1, h2, h3, h5, h6⟩ := forges_one_stem_of C83_spread C52_scalar_field.1 C hC K Q order H₀ (by rw [card_digest]; norm_num)
  refine ⟨db, root, A.lift digestScalar, D, h1, h2, h3.lift _, h5, lt_of_lt_of_le h6 (Nat.mul_le_mul_left _ (Fintype.card_subtype_mono _ _ ?_))⟩
  intro H hH
  unfold ForgesOneStem at hH ⊢
  rw [Prog.lift_run]
  exact hH

/-- Those of `C83_account` and `C83_state_partial` are met if all generators are zero. -/
example (C : Crypto (ZMod r) G) (hC : ∀ i, C.g i = 0) (K : WireCodec (ZMod r) G) (Q : G) (order : List (ProverQuery (ZMod r) G) → List ℕ)
    (R₀ : List Byte → Digest) (a : Bytes 32) : (∃ (H : Hash64) (db : MemoryDb (ZMod r) G) (root : G)
      (A : Prog (List Byte) Digest (AccountClaim (ZMod r) G)) (D : Finset (List Byte)),
      stateWrites H [] = .ok [] ∧ build C [] = .ok db ∧ Trie.rootCommitment db = .ok root ∧ A.Within 11 ∧
      (∀ s : List Byte, s.length ≤ 99 * (36 * 1) + 192 → s ∈ D) ∧
      (11 + 11) * (9 * (513 + 36 * 1 + 2 * (11 + 11))) * Fintype.card Digest ^ D.card < Fintype.card Digest *
        Fintype.card {R : D → Digest // ForgesAccount K C Q order H [] root 1 (.ret (A.run (over R₀ R))) (chal (over R₀ R))}) ∧
    ∃ (H : Hash64) (db : MemoryDb (ZMod r) G) (root : G) (A : Prog (List Byte) Digest (StateClaim (ZMod r) G)) (D : Finset (List Byte)),
      stateWrites H [] = .ok [] ∧ build C [] = .ok db ∧ Trie.rootCommitment db = .ok root ∧ A.Within 11 ∧
      (∀ s : List Byte, s.length ≤ 99 * (36 * 1) + 192 → s ∈ D) ∧
      (11 + 11) * (9 * (513 + 36 * 1 + 2 * (11 + 11))) * Fintype.card Digest ^ D.card < Fintype.card Digest *
        Fintype.card {R : D → Digest // ForgesState K C Q order H [] root 1 (.ret (A.run (over R₀ R))) (chal (over R₀ R))} := by
  constructor
  · obtain ⟨H, db, root, A, D, h0, h1, h2, h3, h5, h6⟩ := forges_account_of C83_spread C52_scalar_field.1 C hC K Q order R₀ (by rw [card_digest]; norm_num) a
    refine ⟨H, db, root, A.lift digestScalar, D, h0, h1, h2, h3.lift _, h5, lt_of_lt_of_le h6 (Nat.mul_le_mul_left _ (Fintype.card_subtype_mono _ _ ?_))⟩
    intro R hR
    unfold ForgesAccount at hR ⊢
    rw [Prog.lift_run]
    exact hR
  · obtain ⟨H, db, root, A, D, h0, h1, h2, h3, h5, h6⟩ := forges_state_of C83_spread C52_scalar_field.1 C hC K Q order R₀ (by rw [card_digest]; norm_num) a
    refine ⟨H, db, root, A.lift digestScalar, D, h0, h1, h2, h3.lift _, h5, lt_of_lt_of_le h6 (Nat.mul_le_mul_left _ (Fintype.card_subtype_mono _ _ ?_))⟩
    intro R hR
    unfold ForgesState at hR ⊢
    rw [Prog.lift_run]
    exact hR

/-- Those of `C83_pairs` are met if all generators are zero. -/
example (C : Crypto (ZMod r) G) (hC : ∀ i, C.g i = 0) (K : WireCodec (ZMod r) G) (Q : G) (order : List (ProverQuery (ZMod r) G) → List ℕ)
    (H₀ : List Byte → Digest) : ∃ (A : Prog (List Byte) Digest (PairClaim (ZMod r) G)) (D : Finset (List Byte)), A.Within 22 ∧
      (∀ s : List Byte, s.length ≤ 99 * (36 * 1) + 192 → s ∈ D) ∧
      2 * ((22 + 11) * (9 * (513 + 36 * 1 + 2 * (22 + 11)))) * Fintype.card Digest ^ D.card < Fintype.card Digest *
        Fintype.card {H : D → Digest // ForgesPair K C Q order 1 (.ret (A.run (over H₀ H))) (chal (over H₀ H))} := by
  obtain ⟨A, D, h3, h5, h6⟩ := forges_pair_of C83_spread C52_scalar_field.1 C hC K Q order H₀ (by rw [card_digest]; norm_num)
  refine ⟨A.lift digestScalar, D, h3.lift _, h5, lt_of_lt_of_le h6 (Nat.mul_le_mul_left _ (Fintype.card_subtype_mono _ _ ?_))⟩
  intro H hH
  unfold ForgesPair at hH ⊢
  rw [Prog.lift_run]
  exact hH

end

/-- The hypotheses of `C83_c` (so also of `C83_ffi`) are met by the honest prover for the openings of two vectors, and those of `C83_honest_c`. -/
example (H₀ : List Byte → Digest) : ∃ (K : Ark) (ctx : ProofContext) (S : Sqrt (ZMod Bander.q))
    (A : Prog (List Byte) Digest (List Byte)) (D : Finset (List Byte)), ProofContext.new = .ok ctx ∧ A.Within 11 ∧
      (∀ s : List Byte, s.length ≤ 99 * 2 + 196 → s ∈ D) ∧ (11 + 11) * (9 * (513 + 2 + 2 * (11 + 11))) * Fintype.card Digest ^ D.card <
        Fintype.card Digest * Fintype.card {H : D → Digest // ForgesC K ctx S 2 (.ret (A.run (over H₀ H))) (chal (over H₀ H))} ∧
      sampleQueries ≠ [] ∧ (∀ q ∈ sampleQueries, Formatted q) ∧ ∀ q ∈ sampleQueries, TrueOpening (crsOf crypto genPt) q := by
  obtain ⟨K, -⟩ := exists_ark
  obtain ⟨ctx, hctx, -⟩ := C59_context
  obtain ⟨A, hA, hw⟩ := forgesBytes_honest_of C83_spread (qmax := 2) C52_scalar_field.1 codec crypto genPt (qs := sampleQueries)
    (List.cons_ne_nil _ _) (le_of_eq rfl) sampleQueries_ok.2
  refine ⟨K, ctx, someSqrt _, A.lift digestScalar, shortStrings (99 * 2 + 196), hctx, hA.lift _, fun s h => mem_shortStrings h, ?_,
    List.cons_ne_nil _ _, sampleQueries_ok.1, sampleQueries_ok.2⟩
  refine win_of_lose (le_trans (Nat.mul_le_mul_left _ (Fintype.card_subtype_mono _ _ fun H hH hf => hH ?_))
    (hw H₀ _ fun s h => mem_shortStrings h)) (by rw [card_digest]; norm_num)
  unfold ForgesC
  rw [C59_verify K _ hctx _]
  unfold ForgesBytes at hf
  rw [Prog.lift_run]
  exact hf

/-- Those of `C83_ipa_partial` are met by the honest prover, for every vector and the powers of the input point. -/
example (Q : BElem) {a : List (ZMod r)} (ha : a.length = 2 ^ 8) (z : ZMod r) (H₀ : List Byte → Digest) :
    ∃ (A : Prog (List Byte) Digest (IpaStatement (ZMod r) BElem × IpaProof (ZMod r) BElem)) (D : Finset (List Byte)), A.Within (8 + 1) ∧
      (∀ s : List Byte, s.length ≤ ([] : Transcript).length + 124 → s ∈ D) ∧
      (8 + 1 + 8 + 1) * (9 * (4 + 2 * (8 + 1 + 8 + 1))) * Fintype.card Digest ^ D.card < Fintype.card Digest *
        Fintype.card {H : D → Digest // ForgesIpa codec [] (crsOf crypto Q) (fun x => (List.range (2 ^ 8)).map fun i => x.2.1 ^ i)
          (.ret (A.run (over H₀ H))) (chal (over H₀ H))} := by
  obtain ⟨A, hA, -, hw⟩ := ipa_honest_wins_of C83_spread (k := 8) (by norm_num) (crs := crsOf crypto Q) rfl (by simp [crsOf])
    (fun x => (List.range (2 ^ 8)).map fun i => x.2.1 ^ i) (fun x => by rw [List.length_map, List.length_range]) codec [] ha z
    (List.zipWith (· * ·) a ((List.range (2 ^ 8)).map fun i => z ^ i)).sum rfl (by rw [card_digest]; norm_num)
  refine ⟨A.lift digestScalar, shortStrings _, hA.lift _, fun _ h => mem_shortStrings h,
    lt_of_lt_of_le (hw H₀ _ fun _ h => mem_shortStrings h) (Nat.mul_le_mul_left _ (Fintype.card_subtype_mono _ _ fun H hH => ?_))⟩
  unfold ForgesIpa at hH ⊢
  rw [Prog.lift_run]
  exact hH

/-- Those of `C83_honest_trie_partial` are met for a proof of absence of two keys from the empty trie. -/
example : ∃ (db : MemoryDb (ZMod r) BElem) (root : BElem), build crypto [] = .ok db ∧ Trie.rootCommitment db = .ok root ∧
    Separated crypto (lastWrite []) (· ∈ [demoKey 1 5, demoKey 2 5]) :=
  ⟨_, _, build_eq _ _, rootCommitment_spec _ _, empty_separated crypto _⟩

end Verif.Props
