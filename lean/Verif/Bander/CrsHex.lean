import Verif.Bander.DefaultCrs
import Verif.Ffi.Witness

/-!
# The reference string as hexadecimal strings

Sources: `/repo/ipa-multipoint/src/crs.rs:52-59,70-72`, `/repo/ipa-multipoint/src/default_crs.rs`; the crate `hex`.
-/

set_option autoImplicit false

namespace Verif.Bander
open Wire

/-- A digit of `hex::encode`: lower case. -/
def hexDigit (n : ℕ) : Char := if n < 10 then Char.ofNat (48 + n) else Char.ofNat (87 + n)

/-- `hex::encode`. -/
def hexEncode : List Byte → List Char
  | [] => []
  | b :: bs => hexDigit (b.val / 16) :: hexDigit (b.val % 16) :: hexEncode bs

/-- One entry of `CRS::from_hex`, `crs.rs:53-57`: `hex::decode(hex).unwrap()`, then `try_into::<[u8; 64]>().unwrap()`. -/
def crsEntry (hex : List Char) : Res (List Byte) := do
  let bytes ← unwrap "called `Result::unwrap()` on an `Err` value" (Ffi.hexDecode hex)
  if bytes.length = 64 then .ok bytes else .error "called `Result::unwrap()` on an `Err` value"

section
variable {q : ℕ} [Fact q.Prime]

/-- `CRS::from_hex`, `crs.rs:52-59`. -/
def Crs.fromHex (hexEncodedCrs : List (List Char)) : Res (Crs q) := do
  let bytes ← hexEncodedCrs.mapM crsEntry
  Crs.fromBytes bytes

/-- `CRS::to_hex`, `crs.rs:70-72`. -/
def Crs.toHex (crs : Crs q) : Res (List (List Char)) := do
  let bytes ← crs.toBytes
  .ok (bytes.map hexEncode)

end

/-- The 128 hexadecimal digits of a number, most significant first: the text of an entry of `default_crs.rs`. -/
def digits128 (n : ℕ) : List Char := (List.range 128).map fun i => hexDigit (n / 16 ^ (127 - i) % 16)

end Verif.Bander
