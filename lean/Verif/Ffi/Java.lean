import Verif.Ffi.Witness
import Verif.Ffi.Commitments

/-!
# The Java binding

Source: `/repo/bindings/java/rust_code/src/lib.rs`, `parsers.rs`, `utils.rs` in the same directory.

The JNI is modelled by its effect on values: a reference to a `byte[]` is `null` or the array's bytes, a reference to a `byte[][]` is `null` or
the array of its references.  `convert_byte_array` and `get_array_length` give `Err` on `null`; the class of the elements is guaranteed by the
signatures of the Java class.  Allocating the result does not fail.  In the functions which return an array `none` stands for the
`IllegalArgumentException`.
-/

set_option autoImplicit false

namespace Verif.Ffi
open Wire Proof Ipa Bander

/-- A reference to a `byte[]`. -/
abbrev JBytes := Option (List Byte)

/-- A reference to a `byte[][]`. -/
abbrev JArray := Option (List JBytes)

/-- `TryFrom<Vec<u8>> for [u8; N]`. -/
def toFixed (n : ℕ) (b : List Byte) : Option (Bytes n) := if h : b.length = n then some ⟨b, h⟩ else none

/-! ### Commitments -/

/-- `parse_scalars`, `parsers.rs:5-14`. -/
def parseScalars (values : JBytes) : Option (List Byte) := do
  let input ← values
  if input.length % 32 ≠ 0 then none else some input

/-- `parse_indices`, `parsers.rs:16-21`. -/
def parseIndices (values : JBytes) : Option (List ℕ) := do
  let input ← values
  some (input.map (·.val))

/-- `parse_commitment`, `parsers.rs:23-34`. -/
def parseCommitment (commitment : JBytes) : Option (List Byte) := do
  let bytes ← commitment
  let c ← toFixed 64 bytes
  some c.1

/-- `parse_commitments`, `parsers.rs:36-49`. -/
def parseCommitments (commitments : JBytes) : Option (List Byte) := do
  let bytes ← commitments
  if bytes.length % 64 ≠ 0 then none else some bytes

noncomputable section
variable (ctx : Context)

/-- `commit`, `lib.rs:42-74`. -/
def jCommit (values : JBytes) : Res (Option (List Byte)) :=
  match parseScalars values with
  | none => .ok none
  | some input => commitToScalars ctx input

/-- `commitAsCompressed`, `lib.rs:77-109`. -/
def jCommitAsCompressed (values : JBytes) : Res (Option (List Byte)) :=
  match parseScalars values with
  | none => .ok none
  | some input => do
    match ← commitToScalars ctx input with
    | none => .ok none
    | some commitment => .ok (some (← serializeCommitment commitment))

/-- `updateSparse`, `lib.rs:112-187`. -/
def jUpdateSparse (commitment indices oldValues newValues : JBytes) : Res (Option (List Byte)) :=
  match parseCommitment commitment with
  | none => .ok none
  | some commitment =>
  match parseIndices indices with
  | none => .ok none
  | some pos =>
  match parseScalars oldValues with
  | none => .ok none
  | some old =>
  match parseScalars newValues with
  | none => .ok none
  | some new => do
    .ok (some (← updateCommitmentSparse ctx commitment pos (chunksExact 32 old) (chunksExact 32 new)))

/-- `compress`, `lib.rs:190-217`. -/
def jCompress (commitment : JBytes) : Res (Option (List Byte)) :=
  match parseCommitment commitment with
  | none => .ok none
  | some commitment => do .ok (some (← serializeCommitment commitment))

/-- `compressMany`, `lib.rs:220-250`. -/
def jCompressMany (commitments : JBytes) : Res (Option (List Byte)) :=
  match parseCommitments commitments with
  | none => .ok none
  | some commitments => do .ok (some (← (chunksExact 64 commitments).mapM serializeCommitment).flatten)

/-- `hash`, `lib.rs:253-279`. -/
def jHash (commitment : JBytes) : Res (Option (List Byte)) :=
  match parseCommitment commitment with
  | none => .ok none
  | some commitment => do .ok (some (← hashCommitment commitment))

/-- `addCommitment`, `lib.rs:282-321`. -/
def jAddCommitment (lhs rhs : JBytes) : Res (Option (List Byte)) :=
  match parseCommitment lhs with
  | none => .ok none
  | some lhs =>
  match parseCommitment rhs with
  | none => .ok none
  | some rhs => do .ok (some (← addCommitment ctx lhs rhs))

/-- `hashMany`, `lib.rs:324-360`. -/
def jHashMany (commitments : JBytes) : Res (Option (List Byte)) :=
  match parseCommitments commitments with
  | none => .ok none
  | some input => do .ok (some (← hashCommitments (chunksExact 64 input)).flatten)

end

/-! ### `verifyPreStateRoot` -/

/-- `jobject_array_to_2d_byte_array`, `utils.rs:248-276`: `null` in place of the array or of one of its elements makes an `unwrap` panic. -/
def to2d : JArray → Res (List (List Byte))
  | none => .error "called unwrap on Err"
  | some l => l.mapM (unwrap "called unwrap on Err")

/-- `get_array`, `utils.rs:148-168`. -/
def getArray (array : JArray) (i : ℕ) : Res (Option (Bytes 32)) := do
  let v ← to2d array
  match v[i]? with
  | none => .ok none
  | some bytes => .ok (toFixed 32 bytes)

/-- `get_optional_array`, `utils.rs:186-209`: the inner `none` for every array which does not have 32 bytes. -/
def getOptionalArray (array : JArray) (i : ℕ) : Res (Option (Option (Bytes 32))) := do
  let v ← to2d array
  .ok (v[i]?.map (toFixed 32))

/-- The loop `lib.rs:385-394`, from position `i` on: `n` positions are left; `none` is `return false`. -/
def readKeys (stemsKeys currentValues : JArray) : ℕ → ℕ → Res (Option (List (Key × Option Value)))
  | 0, _ => .ok (some [])
  | n + 1, i => do
    match ← getArray stemsKeys i with
    | none => .ok none
    | some key =>
    match ← getOptionalArray currentValues i with
    | none => .ok none
    | some value =>
    match ← readKeys stemsKeys currentValues n (i + 1) with
    | none => .ok none
    | some rest => .ok (some ((key, value) :: rest))

/-- `byte_to_depth_extension_present`, `utils.rs:56-66`. -/
def jByteToDepthExt (value : Byte) : ExtPresent × Byte :=
  match value.val &&& 3 with
  | 0 => (.none, asU8 (value.val >>> 3))
  | 1 => (.differentStem, asU8 (value.val >>> 3))
  | 2 => (.present, asU8 (value.val >>> 3))
  | _ => (.none, 0)

/-- `convert_to_btree_set`, `utils.rs:226-246`. -/
def toStemSet (array : JArray) : Res (Option (BSet Stem)) := do
  let v ← to2d array
  .ok ((v.mapM (toFixed 31)).map BSet.ofList)

/-- `convert_byte_array_to_fixed_array`, `utils.rs:120-131`. -/
def toFixedArray (b : JBytes) : Option (Bytes 32) := do
  let bytes ← b
  toFixed 32 bytes

section
variable {F G : Type} (K : WireCodec F G)

/-- `jobjectarray_to_vec(_, _, bytes32_to_element)`, `utils.rs:89-103`, `:19-21`. -/
def toElements (array : JArray) : Res (Option (List G)) := do
  let v ← to2d array
  .ok (do
    let arrs ← v.mapM (toFixed 32)
    arrs.mapM fun b => K.decE b.1)

/-- `bytes32_to_scalar`, `utils.rs:36-40`. -/
def jBytes32ToScalar (bytes : Bytes 32) : Option F := K.decS bytes.1.reverse

end

/-- The arguments of `verifyPreStateRoot`, `lib.rs:366-375`. -/
structure PreStateArgs where
  stemsKeys : JArray
  currentValues : JArray
  commitmentsByPath : JArray
  cl : JArray
  cr : JArray
  otherStems : JArray
  d : JBytes
  depthsExtensionPresentStems : JBytes
  finalEvaluation : JBytes
  prestateRoot : JBytes

section
variable {F G : Type} [Field F] [DecidableEq F] [AddCommGroup G] [DecidableEq G] [Module F G] (O : Oracle F G)

/-- `verifyPreStateRoot`, `lib.rs:363-478`. -/
def verifyPreStateRoot (C : Crypto F G) (Q : G) (order : List (ProverQuery F G) → List ℕ) (A : PreStateArgs) : Res Bool :=
  match A.stemsKeys with
  | none => .ok false
  | some ks => do
  match ← readKeys A.stemsKeys A.currentValues ks.length 0 with
  | none => .ok false
  | some kvs =>
  match ← toElements O.K A.commitmentsByPath with
  | none => .ok false
  | some comms =>
  match ← toElements O.K A.cl with
  | none => .ok false
  | some cl =>
  match ← toElements O.K A.cr with
  | none => .ok false
  | some cr =>
  match toFixedArray A.d with
  | none => .ok false
  | some d =>
  match toFixedArray A.finalEvaluation with
  | none => .ok false
  | some fe =>
  match jBytes32ToScalar O.K fe with
  | none => .ok false
  | some a =>
  match O.K.decE d.1 with
  | none => .ok false
  | some gx =>
  match A.depthsExtensionPresentStems with
  | none => .ok false
  | some depthsBytes =>
  match ← toStemSet A.otherStems with
  | none => .ok false
  | some others =>
  match (do O.K.decE (← toFixedArray A.prestateRoot).1) with
  | none => .ok false
  | some root =>
    let de := depthsBytes.map jByteToDepthExt
    let r ← check C (multiOpener O C Q order) ⟨⟨de.map (·.2), de.map (·.1), others⟩, comms, (⟨⟨cl, cr, a⟩, gx⟩ : MultiProof F G)⟩
      (kvs.map (·.1)) (kvs.map (·.2)) root
    .ok r.1

end

end Verif.Ffi
