import Verif.Props.Unchecked
import Verif.Vectors.Trie

/-!
# C87: forged proofs of absence

What the forgery of zero values in `Unchecked.lean` means for a trie: the verifier of a trie proof whose hint says "no child at depth one" asks a
single question, whether the root is zero at the first byte of the key.  A client that has the openings checked by
`verify_proof_uncompressed` is made to believe that any key is absent from any trie.
-/

set_option autoImplicit false
set_option linter.constructorNameAsVariable false

namespace Verif.Props
open Verif Verif.Spec Verif.Trie Verif.Proof Verif.Ipa Verif.Wire Verif.Ffi Verif.Bander
open scoped Classical

/-- For a key without a value and the hint that says that nothing is at depth one the verifier of the trie asks whether the root is zero at
the first byte of the key. -/
theorem absence_queries {F G : Type} [Field F] [AddCommGroup G] [Module F G] (C : Crypto F G) (root : G) (key : Key) :
    ∃ (z : Byte) (uh : UpdateHint G), key.1.head? = some z ∧
      createVerifierQueries C ⟨[1], [.none], []⟩ [] [key] [none] root = .ok (some ([toQuery (root, z, 0)], uh)) := by
  obtain ⟨k, hk⟩ := key
  obtain ⟨z, k', rfl⟩ : ∃ z k', k = z :: k' := by
    cases k with
    | nil => exact absurd hk (by simp)
    | cons z k' => exact ⟨z, k', rfl⟩
  obtain ⟨y, k'', rfl⟩ : ∃ y k'', k' = y :: k'' := by
    cases k' with
    | nil => exact absurd hk (by simp)
    | cons y k'' => exact ⟨y, k'', rfl⟩
  refine ⟨z, ⟨[(Key.stem ⟨z :: y :: k'', hk⟩, (.none, 1))], [([], root)], []⟩, rfl, ?_⟩
  have hstem : (Key.stem ⟨z :: y :: k'', hk⟩).1 = z :: (y :: k'').take 30 := rfl
  simp [createVerifierQueries, hintByStem, stemsWithExtension, keyLoop, keyStep, branchLoop, noneStep, assemble, claimedValue,
    BMap.get, BMap.insert, BSet.insert, BSet.ofList, unwrap, bind, Except.bind, pure, Except.pure, hstem, toQuery, BOrd.ltSelf]

/-- **C87** (absence).  For every root of a trie, and every key, in the trie or not: the hint that says that nothing is at depth one makes the verifier
ask a single question about the root, and a program that asks the hash `k + 1` times makes a proof of the answer which
`verify_proof_uncompressed` accepts, for all hashes but a part of `(3/5)ᵏ`.  (If the root is the neutral element, as that of the empty trie, zero is
the value of the vector of zeroes.) -/
theorem C87_absence {root : BElem} (h0 : root ≠ 0) (key : Key) :
    ∃ (z : Byte) (uh : UpdateHint BElem) (c : List Byte),
      createVerifierQueries crypto ⟨[1], [.none], []⟩ [] [key] [none] root = .ok (some ([toQuery (root, z, (0 : ZMod r))], uh)) ∧
      QueryForm c (root, z, 0) ∧ ∀ (K : Ark) (ctx : ProofContext), Formulas K → ProofContext.new = .ok ctx → ∀ k : ℕ, k < 2 ^ 252 →
      ∃ A : Prog (List Byte) Digest (List Byte), A.Within (k + 1) ∧ ∀ (H₀ : List Byte → Digest) (D : Finset (List Byte)),
        (∀ s : List Byte, s.length ≤ 67 → s ∈ D) →
        5 ^ k * Fintype.card {H : D → Digest // ¬ cVerifyProofUncompressed K (chal (over H₀ H)) ctx (A.run (over H₀ H) ++ c) = .ok true} ≤
          3 ^ k * Fintype.card Digest ^ D.card := by
  obtain ⟨z, uh, -, hq⟩ := absence_queries crypto root key
  obtain ⟨b, hb⟩ := exists_denotes root
  exact ⟨z, uh, _, hq, ⟨b, hb, rfl⟩, fun K ctx hK hctx k hk => C87_program hK hctx h0 z ⟨b, hb, rfl⟩ hk⟩

/-- The hypotheses are met by the trie of the test `simple_insert`, in which the key has a value. -/
example : ∃ (db : MemoryDb (ZMod r) BElem) (root : BElem), build crypto [(Vectors.keyA, Vectors.keyA)] = .ok db ∧
    Trie.get db Vectors.keyA = some Vectors.keyA ∧ Trie.rootCommitment db = .ok root ∧ root ≠ 0 := by
  obtain ⟨db, h, hb, hh, hn⟩ := Vectors.simple_insert
  obtain ⟨h1, h2⟩ := C04_root_is_from_scratch crypto _ hb
  refine ⟨db, _, hb, ?_, h1, fun h0 => ?_⟩
  · obtain ⟨db', hb', hget⟩ := C01_reads_return_last_write crypto [(Vectors.keyA, Vectors.keyA)] Vectors.keyA
    rw [Except.ok.inj (hb.symm.trans hb'), hget]
    decide +kernel
  · rw [h2] at hh
    have := Except.ok.inj hh
    rw [h0, crypto.h_zero] at this
    rw [← this] at hn
    revert hn
    decide +kernel

end Verif.Props
