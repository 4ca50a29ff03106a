import Verif.Ffi.Witness

/-!
# The JSON of execution witnesses

Source: the derived `Serialize` and `Deserialize` of `/repo/verkle-trie/src/proof/golang_proof_format.rs:298-340` and their use in
`:123-126`.

The derived code is `serde`'s, from the definitions of the structs and the attributes `rename`.  An object is read field by field:
unknown fields are skipped, a repeated field is an error, a missing field is an error unless its type is an `Option`, which is then
`None`.  An array is read as the fields in order, all of them and no more (`visit_seq`).  Every error makes `unwrap` panic (`:125`), so
the order in which errors are found is left out.

The text is `Ffi/JsonText.lean`'s.
-/

set_option autoImplicit false

namespace Verif.Ffi
open Wire Proof Ipa

/-- A JSON value as `serde_json` sees it.  The fields of an object keep their order and may be repeated.  Values that no field of the records
takes are `other`: numbers with a sign, a fraction or an exponent, strings with half of a surrogate pair and objects with such a name. -/
inductive JValue where
  | null
  | bool (b : Bool)
  | num (n : ℕ)
  | other
  | str (s : List Char)
  | arr (l : List JValue)
  | obj (fs : List (List Char × JValue))

namespace Json

/-- The derived `visit_map` for one field: its value, or an error if it is repeated. -/
def takeField (name : List Char) : List (List Char × JValue) → Res (Option JValue)
  | [] => .ok none
  | f :: fs => do
    match ← takeField name fs with
    | none => .ok (if f.1 = name then some f.2 else none)
    | some v => if f.1 = name then .error "duplicate field" else .ok (some v)

/-- A field whose type is no `Option`. -/
def required {α : Type} (read : JValue → Res α) (name : List Char) (fs : List (List Char × JValue)) : Res α := do
  match ← takeField name fs with
  | none => .error "missing field"
  | some v => read v

/-- `Option<String>`. -/
def readOptString : JValue → Res (Option (List Char))
  | .null => .ok none
  | .str s => .ok (some s)
  | _ => .error "invalid type"

/-- A field of type `Option<String>`. -/
def optional (name : List Char) (fs : List (List Char × JValue)) : Res (Option (List Char)) := do
  match ← takeField name fs with
  | none => .ok none
  | some v => readOptString v

/-- `u8`. -/
def readU8 : JValue → Res Byte
  | .num n => if h : n < 256 then .ok ⟨n, h⟩ else .error "invalid value"
  | _ => .error "invalid type"

/-- `String`. -/
def readString : JValue → Res (List Char)
  | .str s => .ok s
  | _ => .error "invalid type"

/-- `Vec<T>`. -/
def readVec {α : Type} (read : JValue → Res α) : JValue → Res (List α)
  | .arr l => l.mapM read
  | _ => .error "invalid type"

/-- `SuffixDiff`, `golang_proof_format.rs:312-319`. -/
def readSuffixDiff : JValue → Res SuffixDiff
  | .arr [a, b, c] => do .ok ⟨← readU8 a, ← readOptString b, ← readOptString c⟩
  | .obj fs => do
    .ok ⟨← required readU8 "suffix".toList fs, ← optional "currentValue".toList fs, ← optional "newValue".toList fs⟩
  | _ => .error "invalid type or length"

/-- `StateDiff`, `golang_proof_format.rs:305-310`. -/
def readStateDiff : JValue → Res StateDiff
  | .arr [a, b] => do .ok ⟨← readString a, ← readVec readSuffixDiff b⟩
  | .obj fs => do .ok ⟨← required readString "stem".toList fs, ← required (readVec readSuffixDiff) "suffixDiffs".toList fs⟩
  | _ => .error "invalid type or length"

/-- `IpaProof`, `golang_proof_format.rs:334-340`. -/
def readIpaProof : JValue → Res IpaProof
  | .arr [a, b, c] => do .ok ⟨← readVec readString a, ← readVec readString b, ← readString c⟩
  | .obj fs => do
    .ok ⟨← required (readVec readString) "cl".toList fs, ← required (readVec readString) "cr".toList fs,
      ← required readString "finalEvaluation".toList fs⟩
  | _ => .error "invalid type or length"

/-- `VerkleProof`, `golang_proof_format.rs:321-332`. -/
def readVerkleProof : JValue → Res VerkleProof
  | .arr [a, b, c, d, e] => do
    .ok ⟨← readVec readString a, ← readString b, ← readVec readString c, ← readString d, ← readIpaProof e⟩
  | .obj fs => do
    .ok ⟨← required (readVec readString) "otherStems".toList fs, ← required readString "depthExtensionPresent".toList fs,
      ← required (readVec readString) "commitmentsByPath".toList fs, ← required readString "d".toList fs,
      ← required readIpaProof "ipaProof".toList fs⟩
  | _ => .error "invalid type or length"

/-- `ExecutionWitness`, `golang_proof_format.rs:297-303`. -/
def readWitness : JValue → Res ExecutionWitness
  | .arr [a, b] => do .ok ⟨← readVec readStateDiff a, ← readVerkleProof b⟩
  | .obj fs => do
    .ok ⟨← required (readVec readStateDiff) "stateDiff".toList fs, ← required readVerkleProof "verkleProof".toList fs⟩
  | _ => .error "invalid type or length"

/-! ### The derived `Serialize` -/

/-- `Option<String>`. -/
def writeOptString : Option (List Char) → JValue
  | none => .null
  | some s => .str s

/-- `Vec<String>`. -/
def writeStrings (l : List (List Char)) : JValue := .arr (l.map .str)

/-- `SuffixDiff`, `golang_proof_format.rs:312-319`. -/
def writeSuffixDiff (s : SuffixDiff) : JValue :=
  .obj [("suffix".toList, .num s.suffix.val), ("currentValue".toList, writeOptString s.currentValue),
    ("newValue".toList, writeOptString s.newValue)]

/-- `StateDiff`, `golang_proof_format.rs:305-310`. -/
def writeStateDiff (d : StateDiff) : JValue :=
  .obj [("stem".toList, .str d.stem), ("suffixDiffs".toList, .arr (d.suffixDiffs.map writeSuffixDiff))]

/-- `IpaProof`, `golang_proof_format.rs:334-340`. -/
def writeIpaProof (p : IpaProof) : JValue :=
  .obj [("cl".toList, writeStrings p.cl), ("cr".toList, writeStrings p.cr), ("finalEvaluation".toList, .str p.finalEvaluation)]

/-- `VerkleProof`, `golang_proof_format.rs:321-332`. -/
def writeVerkleProof (p : VerkleProof) : JValue :=
  .obj [("otherStems".toList, writeStrings p.otherStems), ("depthExtensionPresent".toList, .str p.depthExtensionPresent),
    ("commitmentsByPath".toList, writeStrings p.commitmentsByPath), ("d".toList, .str p.d), ("ipaProof".toList, writeIpaProof p.ipaProof)]

/-- `ExecutionWitness`, `golang_proof_format.rs:297-303`. -/
def writeWitness (w : ExecutionWitness) : JValue :=
  .obj [("stateDiff".toList, .arr (w.stateDiffs.map writeStateDiff)), ("verkleProof".toList, writeVerkleProof w.verkleProof)]

end Json

end Verif.Ffi
