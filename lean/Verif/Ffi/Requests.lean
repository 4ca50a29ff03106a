import Verif.Ipa.Model

/-!
# The byte interface: scalars, queries and proofs

Sources: `/repo/ffi_interface/src/serialization.rs`, `/repo/ffi_interface/src/lib.rs`.

`Res (Option _)` distinguishes a panic, an `Err(_)` (`none`) and a value.
-/

set_option autoImplicit false

namespace Verif.Ffi
open Wire Proof Ipa

section
variable {F G E : Type} (K : WireCodec F G)

/-- `fr_to_le_bytes`, `serialization.rs:215-220`. -/
def frToLeBytes (x : F) : List Byte := K.encS x

/-- `fr_from_le_bytes`, `serialization.rs:221-225`: arkworks' `deserialize_uncompressed` reads 32 bytes from the front of the slice and
does not look at the rest. -/
def frFromLeBytes (bytes : List Byte) : Option F := do
  let (s, _) ← readExact 32 bytes
  K.decS s

/-- Slicing `&bytes[..n]` and `&bytes[n..]`. -/
def split (n : ℕ) (bytes : List Byte) : Res (List Byte × List Byte) :=
  if n ≤ bytes.length then .ok (bytes.take n, bytes.drop n) else .error "range end index out of range for slice"

/-- `take_group_element`, `serialization.rs:196-200`. -/
def takeGroupElement (bytes : List Byte) : Res (G × List Byte) := do
  let (b, rest) ← split 32 bytes
  let e ← unwrap "could not deserialize element" (K.decE b)
  .ok (e, rest)

/-- `take_uncompressed_group_element`, `serialization.rs:185-193`; `de` is `Element::from_bytes_unchecked_uncompressed`. -/
def takeUncompressed (de : List Byte → Res E) (bytes : List Byte) : Res (E × List Byte) := do
  let (b, rest) ← split 64 bytes
  let e ← de b
  .ok (e, rest)

/-- `take_byte`, `serialization.rs:203-207`. -/
def takeByte : List Byte → Res (ℕ × List Byte)
  | [] => .error "index out of bounds"
  | z :: bytes => .ok (z.val, bytes)

/-- `take_scalar`, `serialization.rs:209-213`. -/
def takeScalar (bytes : List Byte) : Res (F × List Byte) := do
  let (b, rest) ← split 32 bytes
  let y ← unwrap "could not deserialize y_i" (frFromLeBytes K b)
  .ok (y, rest)

/-- The loop `serialization.rs:92-96`. -/
def takeScalars : ℕ → List Byte → Res (List F × List Byte)
  | 0, bytes => .ok ([], bytes)
  | n + 1, bytes => do
    let (x, bytes) ← takeScalar K bytes
    let (xs, bytes) ← takeScalars n bytes
    .ok (x :: xs, bytes)

/-- `deserialize_proof_query`, `serialization.rs:85-112`, and `deserialize_proof_query_uncompressed`, `:115-142`: they differ in the
function `head` which takes the commitment. -/
def deserializeProofQuery (head : List Byte → Res (E × List Byte)) (bytes : List Byte) : Res (ProverQuery F E) := do
  let (commitment, bytes) ← head bytes
  let (poly, bytes) ← takeScalars K 256 bytes
  let (z, bytes) ← takeByte bytes
  let (y, bytes) ← takeScalar K bytes
  if bytes ≠ [] then .error "we should have consumed all the bytes" else .ok ⟨commitment, poly, z, y⟩

/-- `deserialize_verifier_query`, `serialization.rs:145-162`, and `deserialize_verifier_query_uncompressed`, `:165-182`. -/
def deserializeVerifierQuery [NatCast F] (head : List Byte → Res (E × List Byte)) (bytes : List Byte) : Res (VerifierQuery F E) := do
  let (commitment, bytes) ← head bytes
  let (z, bytes) ← takeByte bytes
  let (y, bytes) ← takeScalar K bytes
  if bytes ≠ [] then .error "we should have consumed all the bytes" else .ok ⟨commitment, (z : F), y⟩

/-- The queries of `create_proof`, `lib.rs:294-318`. -/
def proverQueries (input : List Byte) : Res (Option (List (ProverQuery F G))) :=
  if input.length % 8257 ≠ 0 then .ok none
  else do .ok (some (← (chunksExact 8257 input).mapM (deserializeProofQuery K (takeGroupElement K))))

/-- The proof and the queries of `verify_proof`, `lib.rs:347-375`. -/
def verifierInput [NatCast F] (input : List Byte) : Res (Option (MultiProof F G × List (VerifierQuery F G))) := do
  let (proofBytes, queryBytes) ← split 576 input
  let proof ← unwrap "called unwrap on Err" (← multiFromBytes K proofBytes 256)
  if queryBytes.length % 65 ≠ 0 then .ok none
  else do .ok (some (proof, ← (chunksExact 65 queryBytes).mapM (deserializeVerifierQuery K (takeGroupElement K))))

/-- `deserialize_update_commitment_sparse`, `serialization.rs:22-64`: the commitment, the indices, the old and the new scalars. -/
def deserializeUpdateCommitmentSparse (input : List Byte) : Res (Option (List Byte × List ℕ × List (List Byte) × List (List Byte))) := do
  let (commitment, rest) ← split 64 input
  if rest.length % 65 ≠ 0 then .ok none
  else do
    let items ← (chunksExact 65 rest).mapM fun chunk => do
      let (old, chunk) ← split 32 chunk
      let (new, chunk) ← split 32 chunk
      let (i, _) ← takeByte chunk
      .ok (i, old, new)
    .ok (some (commitment, items.map (·.1), items.map (·.2.1), items.map (·.2.2)))

end

section
variable {F G : Type} [Field F] [DecidableEq F] [AddCommGroup G] [DecidableEq G] [Module F G] (O : Oracle F G)

/-- `create_proof`, `lib.rs:287-333`.  `order` stands for the iteration order of the hash map of groups. -/
def createProof (C : Crypto F G) (Q : G) (order : List (ProverQuery F G) → List ℕ) (input : List Byte) : Res (Option (List Byte)) := do
  let W ← Weights.new F 256
  match ← proverQueries O.K input with
  | none => .ok none
  | some qs =>
    let r ← openMulti O (crsOf C Q) W (newTranscript (lbl "verkle")) qs (order qs)
    .ok (some (multiToBytes O.K r.1))

/-- `verify_proof`, `lib.rs:343-389`: `some true` is `Ok(())`, `some false` is `Err(ProofVerificationFailed)`, `none` the error about
the length. -/
def verifyProof (C : Crypto F G) (Q : G) (input : List Byte) : Res (Option Bool) := do
  let W ← Weights.new F 256
  match ← verifierInput O.K input with
  | none => .ok none
  | some (proof, qs) =>
    let r ← checkMulti O proof (crsOf C Q) W qs (newTranscript (lbl "verkle"))
    .ok (some r.1)

end

end Verif.Ffi
