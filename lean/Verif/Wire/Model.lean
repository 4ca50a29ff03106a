import Verif.Proof.Model
import Mathlib.Data.Nat.Log

/-!
# Byte formats of proofs

Sources: `/repo/verkle-trie/src/proof.rs:71-159,183-230`, `/repo/ipa-multipoint/src/ipa.rs:14-118,224-226`,
`/repo/ipa-multipoint/src/multiproof.rs:163-213`.

A `Read` is a byte list with what is left of it; a `Write` is the list of bytes written (writing to a `Vec` does not fail).
`Res (Option _)` distinguishes a panic, an `Err(_)` (`none`) and a value.  The encodings of one point and one scalar are the
parameters `WireCodec`.
-/

set_option autoImplicit false

namespace Verif

/-- `IPAProof`, `ipa.rs:14-22`. -/
structure IpaProof (F G : Type) where
  L : List G
  R : List G
  a : F
deriving DecidableEq

/-- `MultiPointProof`, `multiproof.rs:163-171`. -/
structure MultiProof (F G : Type) where
  openProof : IpaProof F G
  gx : G
deriving DecidableEq

/-- 32-byte encodings: `Element::to_bytes`/`from_bytes` (`/repo/banderwagon/src/element.rs:36-104`) and the canonical
little-endian scalar encoding of arkworks, on 32-byte inputs. -/
structure WireCodec (F G : Type) where
  encE : G → List Byte
  decE : List Byte → Option G
  encS : F → List Byte
  decS : List Byte → Option F
  encE_len : ∀ x, (encE x).length = 32
  encS_len : ∀ x, (encS x).length = 32
  dec_encE : ∀ x, decE (encE x) = some x
  dec_encS : ∀ x, decS (encS x) = some x

namespace Wire
open Proof

/-- `u32::to_le_bytes` and the like: the low `n` bytes, least significant first. -/
def leBytes : ℕ → ℕ → List Byte
  | 0, _ => []
  | n + 1, x => asU8 x :: leBytes n (x / 256)

/-- `Read::read_exact` on a byte slice. -/
def readExact (n : ℕ) (bs : List Byte) : Option (List Byte × List Byte) :=
  if n ≤ bs.length then some (bs.take n, bs.drop n) else none

/-! ### The verification hint -/

/-- The loop over the stems, `proof.rs:78-82`; `n` is the number of iterations left. -/
def readStems : ℕ → List Byte → BSet Stem → Option (BSet Stem × List Byte)
  | 0, bs, s => some (s, bs)
  | n + 1, bs, s =>
    if h : 31 ≤ bs.length then readStems n (bs.drop 31) (BSet.insert ⟨bs.take 31, by simp [h]⟩ s) else none

/-- The extension status in the low two bits, `proof.rs:98-104`. -/
def readStatus (b : Byte) : Res ExtPresent :=
  match 3 &&& b.val with
  | 0 => .ok .none
  | 1 => .ok .differentStem
  | 2 => .ok .present
  | _ => .error "unexpected ext status number"

/-- The loop over the packed bytes, `proof.rs:95-109`. -/
def readPacked : List Byte → Res (List Byte × List ExtPresent)
  | [] => .ok ([], [])
  | b :: bs => do
    let e ← readStatus b
    let r ← readPacked bs
    .ok (asU8 (b.val >>> 3) :: r.1, e :: r.2)

/-- `VerificationHint::read`, `proof.rs:71-116`.  The allocation of `num_depths` bytes at line 92 is modelled in
`Verif.Wire.Memory`. -/
def readHint (bs : List Byte) : Res (Option (VerificationHint × List Byte)) :=
  match readExact 4 bs with
  | none => .ok none
  | some (n, bs) =>
    match readStems (leNat n) bs [] with
    | none => .ok none
    | some (stems, bs) =>
      match readExact 4 bs with
      | none => .ok none
      | some (k, bs) =>
        match readExact (leNat k) bs with
        | none => .ok none
        | some (buf, bs) => do
          let r ← readPacked buf
          .ok (some (⟨r.1, r.2, stems⟩, bs))

/-- The number standing for an extension status, `proof.rs:132-147`. -/
def statusNum : ExtPresent → ℕ
  | .none => 0
  | .differentStem => 1
  | .present => 2

/-- One packed byte, `proof.rs:130-156`; `debug_assert!` is an assertion. -/
def packByte (d : Byte) (e : ExtPresent) : Res Byte :=
  if 32 < d.val then .error "debug_assert depth <= 32"
  else .ok (asU8 (statusNum e ||| (d.val <<< 3) % 256))

/-- The packed bytes. -/
def writePacked : List (Byte × ExtPresent) → Res (List Byte)
  | [] => .ok []
  | (d, e) :: l => do
    let b ← packByte d e
    let r ← writePacked l
    .ok (b :: r)

/-- `VerificationHint::write`, `proof.rs:117-159`. -/
def writeHint (h : VerificationHint) : Res (List Byte) := do
  let r ← writePacked (h.depths.zip h.extensionPresent)
  .ok (leBytes 4 h.diffStemNoProof.length ++ h.diffStemNoProof.flatMap Subtype.val ++ leBytes 4 h.depths.length ++ r)

/-! ### Opening proofs -/

section
variable {F G : Type} (K : WireCodec F G)

/-- `slice::chunks_exact`. -/
def chunksExact (n : ℕ) (bs : List Byte) : List (List Byte) :=
  (List.range (bs.length / n)).map fun i => (bs.drop (i * n)).take n

/-- The loops `ipa.rs:44-56`. -/
def readElems : ℕ → List (List Byte) → Res (Option (List G × List (List Byte)))
  | 0, cs => .ok (some ([], cs))
  | _ + 1, [] => .error "called unwrap on None"
  | n + 1, c :: cs =>
    match K.decE c with
    | none => .ok none
    | some x => do
      match ← readElems n cs with
      | none => .ok none
      | some (xs, r) => .ok (some (x :: xs, r))

/-- `IPAProof::from_bytes`, `ipa.rs:32-64`.  `log2` (`ipa.rs:224-226`) is `next_power_of_two().trailing_zeros()`.  The length
is compared after `as u32`. -/
def ipaFromBytes (bs : List Byte) (deg : ℕ) : Res (Option (IpaProof F G)) :=
  if (Nat.clog 2 deg * 2 + 1) * 32 ≠ bs.length % 2 ^ 32 then .error "assertion left == right"
  else if bs.length % 32 ≠ 0 then .error "assertion bytes.len() % 32 == 0"
  else do
    match ← readElems K (Nat.clog 2 deg) (chunksExact 32 bs) with
    | none => .ok none
    | some (l, cs) =>
      match ← readElems K (Nat.clog 2 deg) cs with
      | none => .ok none
      | some (r, cs) =>
        match cs with
        | [] => .error "called unwrap on None"
        | c :: _ =>
          match K.decS c with
          | none => .ok none
          | some a => .ok (some ⟨l, r, a⟩)

/-- `IPAProof::to_bytes`, `ipa.rs:102-118`. -/
def ipaToBytes (p : IpaProof F G) : List Byte := p.L.flatMap K.encE ++ p.R.flatMap K.encE ++ K.encS p.a

/-- `MultiPointProof::from_bytes`, `multiproof.rs:174-188`. -/
def multiFromBytes (bs : List Byte) (deg : ℕ) : Res (Option (MultiProof F G)) :=
  if bs.length < 32 then .error "slice index out of range"
  else
    match K.decE (bs.take 32) with
    | none => .ok none
    | some g => do
      match ← ipaFromBytes K (bs.drop 32) deg with
      | none => .ok none
      | some p => .ok (some ⟨p, g⟩)

/-- `MultiPointProof::to_bytes`, `multiproof.rs:207-213`. -/
def multiToBytes (p : MultiProof F G) : List Byte := K.encE p.gx ++ ipaToBytes K p.openProof

/-! ### Whole proofs -/

/-- The loop over the commitments, `proof.rs:192-201`. -/
def readComms : ℕ → List Byte → Option (List G × List Byte)
  | 0, bs => some ([], bs)
  | n + 1, bs => do
    let (c, bs) ← readExact 32 bs
    let x ← K.decE c
    let (xs, bs) ← readComms n bs
    return (x :: xs, bs)

/-- `VerkleProof::read`, `proof.rs:184-211`. -/
def readProof (bs : List Byte) : Res (Option (VerkleProof G (MultiProof F G))) := do
  match ← readHint bs with
  | none => .ok none
  | some (hint, bs) =>
    match readExact 4 bs with
    | none => .ok none
    | some (n, bs) =>
      match readComms K (leNat n) bs with
      | none => .ok none
      | some (cs, bs) => do
        match ← multiFromBytes K bs 256 with
        | none => .ok none
        | some p => .ok (some ⟨hint, cs, p⟩)

/-- `VerkleProof::write`, `proof.rs:213-230`. -/
def writeProof (p : VerkleProof G (MultiProof F G)) : Res (List Byte) := do
  let h ← writeHint p.hint
  .ok (h ++ leBytes 4 p.comms.length ++ p.comms.flatMap K.encE ++ multiToBytes K p.proof)

end
end Wire
end Verif
