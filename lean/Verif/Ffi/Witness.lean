import Verif.Ipa.Model

/-!
# Execution witnesses

Sources: `/repo/verkle-trie/src/proof/golang_proof_format.rs`, `/repo/ffi_interface/src/lib.rs:391-412`.

The model starts from the record of strings (`serde_conversions`); `Json.lean` and `JsonText.lean` have the JSON before it.  A string is a list of
characters.  `hex::decode` works on the bytes of the string; a character outside ASCII has no byte which is a digit, so it is an error as
in the model.
-/

set_option autoImplicit false

namespace Verif.Ffi
open Wire Proof Ipa

/-! ### Strings -/

/-- A hexadecimal digit of either case (`val` in the crate `hex`). -/
def hexVal (c : Char) : Option ℕ :=
  if 48 ≤ c.toNat ∧ c.toNat ≤ 57 then some (c.toNat - 48)
  else if 97 ≤ c.toNat ∧ c.toNat ≤ 102 then some (c.toNat - 97 + 10)
  else if 65 ≤ c.toNat ∧ c.toNat ≤ 70 then some (c.toNat - 65 + 10)
  else none

/-- `hex::decode`. -/
def hexDecode : List Char → Option (List Byte)
  | [] => some []
  | [_] => none
  | a :: b :: cs => do
    let x ← hexVal a
    let y ← hexVal b
    let bs ← hexDecode cs
    some (asU8 (16 * x + y) :: bs)

/-- `str::trim_start_matches("0x")`: the prefix is removed as often as it occurs. -/
def trim0x : List Char → List Char
  | a :: b :: cs => if a = '0' ∧ b = 'x' then trim0x cs else a :: b :: cs
  | cs => cs

/-- `hex_to_bytes`, `golang_proof_format.rs:211-217`. -/
def hexToBytes (hex : List Char) : Res (List Byte) := unwrap "called unwrap on Err" (hexDecode (trim0x hex))

/-- `hex_to_fixed_size_array`, `golang_proof_format.rs:204-210`; `hex_to_bytes32` and `hex_to_bytes31`, `:198-203`. -/
def hexToArray (n : ℕ) (hex : List Char) : Res (Bytes n) := do
  let b ← hexToBytes hex
  if h : b.length = n then .ok ⟨b, h⟩ else .error "source slice length does not match destination slice length"

/-! ### The record of strings -/

namespace Json

/-- `SuffixDiff`, `golang_proof_format.rs:313-319`. -/
structure SuffixDiff where
  suffix : Byte
  currentValue : Option (List Char)
  newValue : Option (List Char)

/-- `StateDiff`, `golang_proof_format.rs:306-310`. -/
structure StateDiff where
  stem : List Char
  suffixDiffs : List SuffixDiff

/-- `IpaProof`, `golang_proof_format.rs:335-340`. -/
structure IpaProof where
  cl : List (List Char)
  cr : List (List Char)
  finalEvaluation : List Char

/-- `VerkleProof`, `golang_proof_format.rs:322-332`. -/
structure VerkleProof where
  otherStems : List (List Char)
  depthExtensionPresent : List Char
  commitmentsByPath : List (List Char)
  d : List Char
  ipaProof : IpaProof

/-- `ExecutionWitness`, `golang_proof_format.rs:298-303`. -/
structure ExecutionWitness where
  stateDiffs : List StateDiff
  verkleProof : VerkleProof

end Json

/-! ### The record of bytes -/

/-- `SuffixDiff`, `golang_proof_format.rs:9-13`. -/
structure SuffixDiff where
  suffix : Byte
  currentValue : Option Value
  newValue : Option Value

/-- `StateDiff`, `golang_proof_format.rs:15-18`. -/
structure StateDiff where
  stem : Stem
  suffixDiffs : List SuffixDiff

/-- `MultiPointProofGo`, `golang_proof_format.rs:191-196`. -/
structure MultiPointProofGo where
  d : Bytes 32
  cl : List (Bytes 32)
  cr : List (Bytes 32)
  finalEvaluation : Bytes 32

/-- `VerkleProofGo`, `golang_proof_format.rs:48-54`. -/
structure VerkleProofGo where
  stateDiffs : List StateDiff
  commitmentsByPath : List (Bytes 32)
  otherStems : List Stem
  proof : MultiPointProofGo
  depthsExtensionPresent : List Byte

/-- `KeysValues`, `golang_proof_format.rs:56-60`. -/
structure KeysValues where
  keys : List Key
  currentValues : List (Option Value)
  newValues : List (Option Value)

/-- `Option::map` with a function which may panic. -/
def mapOpt {α β : Type} (f : α → Res β) : Option α → Res (Option β)
  | none => .ok none
  | some x => do .ok (some (← f x))

/-- `from_json_str`, `golang_proof_format.rs:123-188`, after the JSON parser. -/
def fromJson (w : Json.ExecutionWitness) : Res VerkleProofGo := do
  let stateDiffs ← w.stateDiffs.mapM fun d => do
    let stem ← hexToArray 31 d.stem
    let suffixDiffs ← d.suffixDiffs.mapM fun s => do
      let cur ← mapOpt (hexToArray 32) s.currentValue
      let new ← mapOpt (hexToArray 32) s.newValue
      Except.ok (SuffixDiff.mk s.suffix cur new)
    Except.ok (StateDiff.mk stem suffixDiffs)
  let otherStems ← w.verkleProof.otherStems.mapM (hexToArray 31)
  let comms ← w.verkleProof.commitmentsByPath.mapM (hexToArray 32)
  let d ← hexToArray 32 w.verkleProof.d
  let cl ← w.verkleProof.ipaProof.cl.mapM (hexToArray 32)
  let cr ← w.verkleProof.ipaProof.cr.mapM (hexToArray 32)
  let final ← hexToArray 32 w.verkleProof.ipaProof.finalEvaluation
  let depths ← hexToBytes w.verkleProof.depthExtensionPresent
  .ok ⟨stateDiffs, comms, otherStems, ⟨d, cl, cr, final⟩, depths⟩

/-- `keys_with_current_values`, `golang_proof_format.rs:23-45`. -/
def StateDiff.keysWithCurrentValues (d : StateDiff) : List Key × List (Option Value) × List (Option Value) :=
  (d.suffixDiffs.map fun s => mkKey d.stem s.suffix, d.suffixDiffs.map (·.currentValue), d.suffixDiffs.map (·.newValue))

/-- `byte_to_depth_extension_present`, `golang_proof_format.rs:226-236`. -/
def byteToDepthExt (value : Byte) : Res (ExtPresent × Byte) := do
  let e ← match value.val &&& 3 with
    | 0 => Except.ok ExtPresent.none
    | 1 => .ok .differentStem
    | 2 => .ok .present
    | _ => .error "unexpected ext status number"
  .ok (e, asU8 (value.val >>> 3))

section
variable {F G : Type} (K : WireCodec F G)

/-- `bytes32_to_scalar`, `golang_proof_format.rs:221-224`: most significant byte first. -/
def bytes32ToScalar (bytes : Bytes 32) : Res F := unwrap "called unwrap on Err" (K.decS bytes.1.reverse)

/-- `from_verkle_proof_go_to_verkle_proof`, `golang_proof_format.rs:63-121`; `none` is the `None` of `?`. -/
def VerkleProofGo.toVerkleProof (p : VerkleProofGo) : Res (Option (VerkleProof G (MultiProof F G) × KeysValues)) := do
  let de ← p.depthsExtensionPresent.mapM byteToDepthExt
  let kv := p.stateDiffs.map StateDiff.keysWithCurrentValues
  match p.commitmentsByPath.mapM (fun b => K.decE b.1), p.proof.cl.mapM (fun b => K.decE b.1), p.proof.cr.mapM (fun b => K.decE b.1) with
  | some comms, some l, some r => do
    let a ← bytes32ToScalar K p.proof.finalEvaluation
    match K.decE p.proof.d.1 with
    | none => .ok none
    | some gx => .ok (some (⟨⟨de.map (·.2), de.map (·.1), BSet.ofList p.otherStems⟩, comms, ⟨⟨l, r, a⟩, gx⟩⟩,
        ⟨kv.flatMap (·.1), kv.flatMap (·.2.1), kv.flatMap (·.2.2)⟩))
  | _, _, _ => .ok none
end

section
variable {F G : Type} [Field F] [DecidableEq F] [AddCommGroup G] [DecidableEq G] [Module F G] (O : Oracle F G)

/-- `verify_execution_witness`, `/repo/ffi_interface/src/lib.rs:397-412`. -/
def verifyExecutionWitness (C : Crypto F G) (Q : G) (order : List (ProverQuery F G) → List ℕ) (root : List Char)
    (w : Json.ExecutionWitness) : Res Bool := do
  match ← (← fromJson w).toVerkleProof O.K with
  | none => .ok false
  | some (proof, kv) =>
    match O.K.decE (← hexToArray 32 root).1 with
    | none => .ok false
    | some root =>
      let r ← check C (multiOpener O C Q order) proof kv.keys kv.currentValues root
      .ok r.1
end

end Verif.Ffi
