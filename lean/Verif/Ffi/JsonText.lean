import Verif.Ffi.Json

/-!
# The text of JSON

Source: `serde_json::from_str` and `to_string` as used for `/repo/verkle-trie/src/proof/golang_proof_format.rs:123-125` and
`/repo/ffi_interface/src/lib.rs:397-399`.  The crate `serde_json` is not in the repository; this is its grammar (RFC 8259) as a parser.

- The limit of `serde_json` on nesting (128) is left out: the fields of the records lie at most six deep, and fields that are skipped are
  skipped without a limit.
- `serde_json` refuses a `\u` escape that is half of a surrogate pair (`parse_str`), but not inside of skipped fields (`ignore_str`).  Here such
  a string, or an object with such a name, is `JValue.other`, which may be skipped and not read.
- A text is a list of characters; `from_str` takes a `&str`, so its bytes are valid UTF-8.
-/

set_option autoImplicit false

namespace Verif.Ffi
open Wire Proof Ipa

namespace Json

/-- `parse_whitespace`. -/
def isBlank (c : Char) : Bool := c = ' ' || c = '\n' || c = '\t' || c = '\r'

def skip (s : List Char) : List Char := s.dropWhile isBlank

/-- `decode_hex_escape`: four digits. -/
def hex4 : List Char → Option (ℕ × List Char)
  | a :: b :: c :: d :: r => do
    let w ← hexVal a
    let x ← hexVal b
    let y ← hexVal c
    let z ← hexVal d
    some (4096 * w + 256 * x + 16 * y + z, r)
  | _ => none

/-- The escapes of one letter. -/
def shortEscapes : List (Char × Char) :=
  [('"', '"'), ('\\', '\\'), ('/', '/'), ('b', Char.ofNat 8), ('f', Char.ofNat 12), ('n', '\n'), ('r', '\r'), ('t', '\t')]

/-- `parse_unicode_escape`, after `\u`. -/
def unicodeEscape (s : List Char) : Option (Char × List Char) := do
  let (n, r) ← hex4 s
  if 0xDC00 ≤ n ∧ n ≤ 0xDFFF then none
  else if 0xD800 ≤ n ∧ n ≤ 0xDBFF then
    match r with
    | '\\' :: 'u' :: r' => do
      let (m, r'') ← hex4 r'
      if 0xDC00 ≤ m ∧ m ≤ 0xDFFF then some (Char.ofNat ((n - 0xD800) * 1024 + (m - 0xDC00) + 0x10000), r'') else none
    | _ => none
  else some (Char.ofNat n, r)

/-- `parse_escape`, after the backslash. -/
def escape : List Char → Option (Char × List Char)
  | [] => none
  | c :: r => if c = 'u' then unicodeEscape r else (shortEscapes.lookup c).map fun d => (d, r)

/-- `parse_str`, after the quotation mark; the first argument bounds the number of characters. -/
def parseStr : ℕ → List Char → Option (List Char × List Char)
  | 0, _ => none
  | _ + 1, [] => none
  | n + 1, c :: r =>
    if c = '"' then some ([], r)
    else if c = '\\' then do
      let (d, r') ← escape r
      let (s, r'') ← parseStr n r'
      some (d :: s, r'')
    else if c.toNat < 32 then none
    else do
      let (s, r') ← parseStr n r
      some (c :: s, r')

/-- `ignore_escape`, after the backslash: the characters of the escape. -/
def rawEscape : List Char → Option (List Char × List Char)
  | [] => none
  | c :: r =>
    if c = 'u' then if (hex4 r).isSome then some ('u' :: r.take 4, r.drop 4) else none
    else if (shortEscapes.lookup c).isSome then some ([c], r) else none

/-- `ignore_str`, after the quotation mark: the characters before the closing one; the first argument bounds their number. -/
def rawStr : ℕ → List Char → Option (List Char × List Char)
  | 0, _ => none
  | _ + 1, [] => none
  | n + 1, c :: r =>
    if c = '"' then some ([], r)
    else if c = '\\' then do
      let (e, r') ← rawEscape r
      let (s, r'') ← rawStr n r'
      some ('\\' :: e ++ s, r'')
    else if c.toNat < 32 then none
    else do
      let (s, r') ← rawStr n r
      some (c :: s, r')

/-- A string, after the quotation mark: its characters, if no surrogate stands alone. -/
def stringAt (r : List Char) : Option (Option (List Char) × List Char) := do
  let (p, r') ← rawStr r.length r
  some ((parseStr (p.length + 1) (p ++ ['"'])).map Prod.fst, r')

/-- The value of a string. -/
def strValue : Option (List Char) → JValue
  | none => .other
  | some s => .str s

/-- The fields of an object, if all names are strings. -/
def named : List (Option (List Char) × JValue) → Option (List (List Char × JValue))
  | [] => some []
  | (k, v) :: fs => do some ((← k, v) :: (← named fs))

/-- The value of an object. -/
def objValue (fs : List (Option (List Char) × JValue)) : JValue :=
  match named fs with
  | none => .other
  | some fs => .obj fs

/-- A decimal digit. -/
def isDec (c : Char) : Bool := 48 ≤ c.toNat && c.toNat ≤ 57

/-- The value of decimal digits. -/
def decValue (ds : List Char) : ℕ := ds.foldl (fun n c => 10 * n + (c.toNat - 48)) 0

/-- A fraction, if one is there (`parse_decimal`). -/
def fraction : List Char → Option (Bool × List Char)
  | '.' :: r => if r.takeWhile isDec = [] then none else some (true, r.dropWhile isDec)
  | r => some (false, r)

/-- The sign of an exponent. -/
def expSign : List Char → List Char
  | '+' :: r => r
  | '-' :: r => r
  | r => r

/-- An exponent, if one is there (`parse_exponent`). -/
def exponent : List Char → Option (Bool × List Char)
  | [] => some (false, [])
  | c :: r =>
    if c = 'e' ∨ c = 'E' then if (expSign r).takeWhile isDec = [] then none else some (true, (expSign r).dropWhile isDec)
    else some (false, c :: r)

/-- The digits before a fraction: no zero stands before other digits (`parse_integer`). -/
def parseNat (s : List Char) : Option (List Char × List Char) :=
  match s.takeWhile isDec with
  | [] => none
  | ['0'] => some (['0'], s.dropWhile isDec)
  | '0' :: _ :: _ => none
  | d :: ds => some (d :: ds, s.dropWhile isDec)

/-- `parse_any_number`. -/
def parseNum (s : List Char) : Option (JValue × List Char) := do
  let neg := s.head? = some '-'
  let (ds, r) ← parseNat (if neg then s.tail else s)
  let (f, r) ← fraction r
  let (e, r) ← exponent r
  some (if neg ∨ f ∨ e then .other else .num (decValue ds), r)

mutual

/-- `deserialize_any`: whitespace and a value; the first argument bounds the number of calls. -/
def parseValue : ℕ → List Char → Option (JValue × List Char)
  | 0, _ => none
  | n + 1, s =>
    match skip s with
    | [] => none
    | c :: r =>
      if c = 'n' then if r.take 3 = ['u', 'l', 'l'] then some (.null, r.drop 3) else none
      else if c = 't' then if r.take 3 = ['r', 'u', 'e'] then some (.bool true, r.drop 3) else none
      else if c = 'f' then if r.take 4 = ['a', 'l', 's', 'e'] then some (.bool false, r.drop 4) else none
      else if c = '"' then (stringAt r).map fun p => (strValue p.1, p.2)
      else if c = '[' then
        if (skip r).head? = some ']' then some (.arr [], (skip r).tail) else (parseItems n r).map fun p => (.arr p.1, p.2)
      else if c = '{' then
        if (skip r).head? = some '}' then some (.obj [], (skip r).tail) else (parseFields n r).map fun p => (objValue p.1, p.2)
      else parseNum (c :: r)

/-- The items of an array and the bracket that closes it. -/
def parseItems : ℕ → List Char → Option (List JValue × List Char)
  | 0, _ => none
  | n + 1, s => do
    let (v, r) ← parseValue n s
    match skip r with
    | [] => none
    | c :: r' =>
      if c = ']' then some ([v], r')
      else if c = ',' then (parseItems n r').map fun p => (v :: p.1, p.2)
      else none

/-- The fields of an object and the brace that closes it. -/
def parseFields : ℕ → List Char → Option (List (Option (List Char) × JValue) × List Char)
  | 0, _ => none
  | n + 1, s =>
    match skip s with
    | [] => none
    | q :: r =>
      if q = '"' then do
        let (k, r) ← stringAt r
        match skip r with
        | [] => none
        | q :: r =>
          if q = ':' then do
            let (v, r) ← parseValue n r
            match skip r with
            | [] => none
            | c :: r' =>
              if c = '}' then some ([(k, v)], r')
              else if c = ',' then (parseFields n r').map fun p => ((k, v) :: p.1, p.2)
              else none
          else none
      else none

end

/-- `serde_json::from_str` up to the value: a value, and nothing but whitespace after it. -/
def parseText (s : List Char) : Option JValue := do
  let (v, r) ← parseValue (2 * s.length + 2) s
  if skip r = [] then some v else none

/-- `serde_json::from_str::<ExecutionWitness>(..).unwrap()`, `golang_proof_format.rs:124-125`. -/
def readText (s : List Char) : Res ExecutionWitness := do
  readWitness (← unwrap "called unwrap on Err" (parseText s))

/-! ### `to_string` -/

/-- A hexadecimal digit in lower case. -/
def lowerHex (n : ℕ) : Char := Char.ofNat (if n < 10 then 48 + n else 87 + n)

/-- `format_escaped_str_contents` on one character. -/
def charText (c : Char) : List Char :=
  if c = '"' then ['\\', '"']
  else if c = '\\' then ['\\', '\\']
  else if c.toNat = 8 then ['\\', 'b']
  else if c.toNat = 12 then ['\\', 'f']
  else if c = '\n' then ['\\', 'n']
  else if c = '\r' then ['\\', 'r']
  else if c = '\t' then ['\\', 't']
  else if c.toNat < 32 then ['\\', 'u', '0', '0', lowerHex (c.toNat / 16), lowerHex (c.toNat % 16)]
  else [c]

/-- `format_escaped_str`. -/
def strText (s : List Char) : List Char := '"' :: (s.map charText).flatten ++ ['"']

/-- Texts between commas. -/
def commas : List (List Char) → List Char
  | [] => []
  | [t] => t
  | t :: ts => t ++ ',' :: commas ts

/-- `Vec<T>` (`serialize_seq`). -/
def arrText (ts : List (List Char)) : List Char := '[' :: commas ts ++ [']']

/-- A struct (`serialize_struct`). -/
def objText (fs : List (String × List Char)) : List Char := '{' :: commas (fs.map fun f => strText f.1.toList ++ ':' :: f.2) ++ ['}']

/-- `Option<String>`. -/
def optText : Option (List Char) → List Char
  | none => ['n', 'u', 'l', 'l']
  | some s => strText s

/-- `u8`. -/
def byteText (b : Byte) : List Char :=
  if b.val < 10 then [Char.ofNat (48 + b.val)]
  else if b.val < 100 then [Char.ofNat (48 + b.val / 10), Char.ofNat (48 + b.val % 10)]
  else [Char.ofNat (48 + b.val / 100), Char.ofNat (48 + b.val / 10 % 10), Char.ofNat (48 + b.val % 10)]

/-- `SuffixDiff`, `golang_proof_format.rs:312-319`. -/
def suffixDiffText (s : SuffixDiff) : List Char :=
  objText [("suffix", byteText s.suffix), ("currentValue", optText s.currentValue), ("newValue", optText s.newValue)]

/-- `StateDiff`, `golang_proof_format.rs:305-310`. -/
def stateDiffText (d : StateDiff) : List Char :=
  objText [("stem", strText d.stem), ("suffixDiffs", arrText (d.suffixDiffs.map suffixDiffText))]

/-- `IpaProof`, `golang_proof_format.rs:334-340`. -/
def ipaProofText (p : IpaProof) : List Char :=
  objText [("cl", arrText (p.cl.map strText)), ("cr", arrText (p.cr.map strText)), ("finalEvaluation", strText p.finalEvaluation)]

/-- `VerkleProof`, `golang_proof_format.rs:321-332`. -/
def verkleProofText (p : VerkleProof) : List Char :=
  objText [("otherStems", arrText (p.otherStems.map strText)), ("depthExtensionPresent", strText p.depthExtensionPresent),
    ("commitmentsByPath", arrText (p.commitmentsByPath.map strText)), ("d", strText p.d), ("ipaProof", ipaProofText p.ipaProof)]

/-- `ExecutionWitness`, `golang_proof_format.rs:297-303`. -/
def witnessText (w : ExecutionWitness) : List Char :=
  objText [("stateDiff", arrText (w.stateDiffs.map stateDiffText)), ("verkleProof", verkleProofText w.verkleProof)]

end Json

section
variable {F G : Type} [Field F] [DecidableEq F] [AddCommGroup G] [DecidableEq G] [Module F G] (O : Oracle F G)

/-- `verify_execution_witness`, `/repo/ffi_interface/src/lib.rs:397-412`, from its two strings on. -/
def verifyWitnessText (C : Crypto F G) (Q : G) (order : List (ProverQuery F G) → List ℕ) (root text : List Char) : Res Bool := do
  verifyExecutionWitness O C Q order root (← Json.readText text)
end

end Verif.Ffi
