import Verif.Bander.Concrete

/-!
# The points of the default reference string outside the subgroup of order `r`
-/

set_option autoImplicit false

namespace Verif.Bander

/-- Is `r` times the point of this entry neutral?  Double and add on its coordinates. -/
def entryEven (n : ℕ) : Bool :=
  let l := ladder 253 (entryX n) (entryY n) 1 0 1 1 r
  l.2.1 % q == l.2.2 % q

/-- The entries whose point is outside the subgroup of order `r`, as the bits of a number: 126 of the 257. -/
def crsOddBits : ℕ := 0xc27e0beff8ae8159b8e4771a91189154a3c5c3268c62b35a9f1c7511d04bcd9d

theorem crs_parity : (crsHex.zipIdx.all fun x => entryEven x.1 == !crsOddBits.testBit x.2) = true := by decide +kernel

end Verif.Bander
