import Verif.Proof.NoPanic
import Verif.Props.Sound

/-!
# Panics of verification: C22
-/

set_option autoImplicit false

namespace Verif.Props
open Verif.Spec Verif.Trie Verif.Proof BOrd
open scoped Classical

variable {F G : Type} [Field F] [AddCommGroup G] [Module F G]

/-- C22 does not hold: whatever the parameters, the opening argument, the root and the rest of the proof, checking panics
for an empty key list; for a hint with too few entries; for an emptiness claim at depth 0; for a depth above 31; for a
displaced stem without the displacing one; for a displaced stem at depth 31; and if there is a superfluous commitment or a
superfluous displacing stem. -/
theorem C22_full_claim_false (C : Crypto F G) (O : Opener F G) (pf : O.Pf) (root c : G) :
    check C O ⟨⟨[], [], []⟩, [], pf⟩ [] [] root = .error "assert commitments.len() == all_paths.len()" ∧
    check C O ⟨⟨[], [], []⟩, [], pf⟩ [soloKey] [none] root = .error "stem not in the hint" ∧
    check C O ⟨⟨[0], [.none], []⟩, [], pf⟩ [soloKey] [none] root = .error "attempt to subtract with overflow" ∧
    check C O ⟨⟨[32], [.none], []⟩, [], pf⟩ [soloKey] [none] root = .error "index out of bounds" ∧
    check C O ⟨⟨[1], [.differentStem], []⟩, [c], pf⟩ [soloKey] [none] root = .error "cannot find the encountered stem" ∧
    check C O ⟨⟨[31], [.differentStem], []⟩, [c], pf⟩ [soloKey] [none] root = .error "assert depth != stem.len()" ∧
    check C O ⟨⟨[1], [.none], []⟩, [c], pf⟩ [soloKey] [none] root = .error "assert commitments.len() == all_paths.len()" ∧
    check C O ⟨⟨[1], [.none], [twinKey.stem]⟩, [], pf⟩ [soloKey] [none] root =
      .error "assert diff_stem_no_proof == other_stems_used" :=
  ⟨rfl, rfl, rfl, rfl, rfl, rfl, rfl, rfl⟩

/-- C22 (partial).  Exactly when checking a proof does not panic, given an opening argument that does not.  Either some claim
is rejected (a value claimed for a stem not claimed present, at depth at most 31) and those before it are fine, or all
claims are fine, the displacing stems listed are exactly those the claims need, and there is one commitment for each
opened path other than the root.  (A `BTreeSet` is ascending, so `hasc` holds for every proof object.)  The missing part is
false: `C22_full_claim_false`. -/
theorem C22_no_panic_iff_partial (C : Crypto F G) (O : Opener F G) (hO : ∀ pf qs, ∃ b, O.check pf qs = .ok b)
    (p : VerkleProof G O.Pf) (hasc : Ascending p.hint.diffStemNoProof) (keys : List Key) (values : List (Option Value)) (root : G) :
    (∃ r, check C O p keys values root = .ok r) ↔
      (∃ pre k v post, keys.zip values = pre ++ (k, v) :: post ∧ (∀ x ∈ pre, Fine p.hint keys x.1 x.2) ∧ Rejected p.hint keys k v) ∨
      ((∀ x ∈ keys.zip values, Fine p.hint keys x.1 x.2) ∧
        (∀ u, u ∈ p.hint.diffStemNoProof ↔ ∃ k v e d, (k, v) ∈ keys.zip values ∧ HintEntry p.hint keys k.stem e d ∧
          claimUses p.hint (stemsWithExtension p.hint (stemsOf keys)) k e d u) ∧
        ∃ P : List Path, P.Nodup ∧ (∀ q, q ∈ P ↔ ∃ k v e d z, (k, v) ∈ keys.zip values ∧ HintEntry p.hint keys k.stem e d ∧
          claimOpens k e d (q, z)) ∧ p.comms.length + 1 = P.length) := by
  rw [← createVerifierQueries_total (C := C) (root := root) hasc]
  simp only [check, bind, Except.bind]
  cases createVerifierQueries C p.hint p.comms keys values root with
  | error e => simp
  | ok o =>
    cases o with
    | none => simp
    | some r =>
      obtain ⟨qs, uh⟩ := r
      obtain ⟨b, hb⟩ := hO p.proof qs
      simp [hb]

/-- An opening argument that does not panic, an ascending set; the claim for `soloKey` of C21 is fine, and a value for a
stem claimed absent is rejected. -/
example : (∀ pf qs, ∃ b, lookupOpener.check pf qs = .ok b) ∧ Ascending (⟨[1], [.present], []⟩ : VerificationHint).diffStemNoProof ∧
    (∀ w, Fine ⟨[1], [.present], []⟩ [soloKey] soloKey (some w)) ∧
    ∀ w, Rejected ⟨[1], [.none], []⟩ [soloKey] soloKey (some w) := by
  refine ⟨fun _ _ => ⟨_, rfl⟩, List.Pairwise.nil, fun w => ?_, fun w => ?_⟩
  · refine ⟨.present, 1, ⟨1, rfl, ?_⟩, by omega, by simp, by simp, by simp⟩
    have : stemsOf [soloKey] = [soloKey.stem] := rfl
    simp [this]
  · refine ⟨.none, 1, ⟨1, rfl, ?_⟩, by omega, by simp, by simp⟩
    have : stemsOf [soloKey] = [soloKey.stem] := rfl
    simp [this]

end Verif.Props
