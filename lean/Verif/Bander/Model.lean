import Verif.Wire.Model
import Mathlib.Data.ZMod.Basic
import Mathlib.Algebra.Field.ZMod

/-!
# Group elements: equality, encodings, maps to the fields

Source: `/repo/banderwagon/src/element.rs`.

The base field is `ZMod q` for a prime `q`, the curve `a x² + y² = 1 + d x² y²`; both are parameters (the values for Bandersnatch
are in `Verif.Bander.Params`).  Arkworks is taken by contract: field arithmetic (division by zero panics), comparison of
field elements by their canonical representatives, 32-byte little-endian serialization of a field element, `sqrt` (some root of a
square, `None` otherwise), `legendre`, `batch_inversion` (zeros are left in place).
-/

set_option autoImplicit false

namespace Verif.Bander
open Wire

/-- `EdwardsProjective`: extended coordinates, the affine point is `(x / z, y / z)` and `t = x y / z`.  `Element`
(`element.rs:9`) wraps it. -/
structure Proj (K : Type) where
  x : K
  y : K
  t : K
  z : K

/-- `Fq::sqrt` of arkworks, by contract. -/
structure Sqrt (K : Type) [Field K] where
  f : K → Option K
  sound : ∀ {a b : K}, f a = some b → b * b = a
  complete : ∀ {a : K}, IsSquare a → ∃ b, f a = some b

section
variable {q : ℕ} [Fact q.Prime] (a d : ZMod q)

/-- `PartialEq for Element`, `element.rs:11-34`. -/
def Proj.eq (p p' : Proj (ZMod q)) : Bool :=
  if p.x = 0 ∧ p.y = 0 then false
  else if p'.x = 0 ∧ p'.y = 0 then false
  else decide (p.x * p'.y = p'.x * p.y)

/-- `is_positive`, `element.rs:185-187`. -/
def isPositive (c : ZMod q) : Bool := decide ((-c).val < c.val)

/-- Division in the field: `inverse().unwrap()` panics for zero. -/
def divide (x y : ZMod q) : Res (ZMod q) := if y = 0 then .error "division by zero" else .ok (x / y)

/-- `EdwardsAffine::from(EdwardsProjective)` (arkworks): the neutral element is recognised first, otherwise divide by `z`. -/
def Proj.toAffine (p : Proj (ZMod q)) : Res (ZMod q × ZMod q) :=
  if p.x = 0 ∧ p.y = p.z ∧ p.y ≠ 0 ∧ p.t = 0 then .ok (0, 1)
  else do .ok (← divide p.x p.z, ← divide p.y p.z)

/-- `Fq::serialize_compressed` into 32 bytes (arkworks): the canonical representative, least significant byte first. -/
def serFq (x : ZMod q) : List Byte := leBytes 32 x.val

/-- `Fq::deserialize_compressed` from a slice (arkworks): reads the first 32 bytes, refuses representatives from `q` on. -/
def deFq (bytes : List Byte) : Option (ZMod q) :=
  match readExact 32 bytes with
  | none => none
  | some (b, _) => if leNat b < q then some (leNat b : ZMod q) else none

/-- `Element::to_bytes`, `element.rs:37-55`. -/
def Proj.toBytes (p : Proj (ZMod q)) : Res (List Byte) := do
  let affine ← p.toAffine
  let x := if isPositive affine.2 then affine.1 else -affine.1
  .ok (serFq x).reverse

/-- `Element::get_point_from_x`, `element.rs:114-126`. -/
def getPointFromX (S : Sqrt (ZMod q)) (x : ZMod q) (chooseLargest : Bool) : Res (Option (ZMod q × ZMod q)) := do
  let dxSquaredMinusOne := d * (x * x) - 1
  let axSquaredMinusOne := a * (x * x) - 1
  let ySquared ← divide axSquaredMinusOne dxSquaredMinusOne
  match S.f ySquared with
  | none => .ok none
  | some y =>
    let isLargest := isPositive y
    let y := if isLargest && chooseLargest then y else -y
    .ok (some (x, y))

open Classical in
/-- `legendre_check_point`, `element.rs:189-192`: `is_qr` means a square other than zero. -/
noncomputable def legendreCheck (x : ZMod q) : Bool := decide (IsSquare (1 - a * (x * x)) ∧ 1 - a * (x * x) ≠ 0)

/-- `Element::from_bytes`, `element.rs:77-104`. -/
noncomputable def fromBytes (S : Sqrt (ZMod q)) (bytes : List Byte) : Res (Option (Proj (ZMod q))) :=
  match deFq bytes.reverse with
  | none => .ok none
  | some x => do
    match ← getPointFromX a d S x true with
    | none => .ok none
    | some point =>
      let element : Proj (ZMod q) := ⟨point.1, point.2, point.1 * point.2, 1⟩
      if legendreCheck a element.x then .ok (some element) else .ok none

/-- `Element::map_to_field`, `element.rs:128-130`. -/
def Proj.mapToField (p : Proj (ZMod q)) : Res (ZMod q) := divide p.x p.y

variable (F : Type) [Field F]

/-- `Element::map_to_scalar_field`, `element.rs:133-143`: `from_le_bytes_mod_order` of the 32 bytes. -/
def Proj.mapToScalarField (p : Proj (ZMod q)) : Res F := do
  let baseField ← p.mapToField
  .ok (frLe F (serFq baseField))

/-- `Element::batch_map_to_scalar_field`, `element.rs:145-169`. -/
def batchMapToScalarField (elements : List (Proj (ZMod q))) : List F :=
  -- `batch_inversion` (arkworks): every nonzero entry is inverted, zeros stay (`0⁻¹ = 0` in Lean)
  let inverses := elements.map fun e => e.y⁻¹
  let xDivY := List.zipWith (fun i e => i * e.x) inverses elements
  xDivY.map fun e => frLe F (serFq e)

end

/-- `try_reduce_to_element`, `banderwagon/src/lib.rs:32-47`. -/
noncomputable def tryReduce {q : ℕ} [Fact q.Prime] (a d : ZMod q) (S : Sqrt (ZMod q)) (bytes : List Byte) :
    Res (Option (Proj (ZMod q))) :=
  let xCoord : ZMod q := (leNat bytes.reverse : ZMod q)
  fromBytes a d S (serFq xCoord).reverse

end Verif.Bander
