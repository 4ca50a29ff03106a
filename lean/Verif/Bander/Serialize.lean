import Verif.Bander.Torsion

/-!
# The serialisation traits of group elements

Source: `/repo/banderwagon/src/trait_impls/serialize.rs`, `Hash for Element` of `/repo/banderwagon/src/trait_impls/ops.rs`.  A
reader is the list of the bytes it still has; the error values are not distinguished.
-/

set_option autoImplicit false

namespace Verif.Bander
open Wire

/-- `serialize_with_mode`, `serialize.rs:6-18`. -/
def serializeWithMode (p : Proj (ZMod q)) (compress : Bool) : Res (List Byte) :=
  if compress then p.toBytes else p.toBytesUncompressed

/-- `serialized_size`, `serialize.rs:20-25`, `compressed_serialized_size`, `element.rs:106-108`. -/
def serializedSize (compress : Bool) : ℕ := if compress then 32 else 64

/-- `deserialize_with_mode`, `serialize.rs:37-68`: the validation asked for is ignored. -/
noncomputable def deserializeWithMode (V : PointCheck) (S : Sqrt (ZMod q)) (compress _validate : Bool) (reader : List Byte) :
    Res (Option (Proj (ZMod q) × List Byte)) :=
  if compress then
    match readExact 32 reader with
    | none => .ok none
    | some (bytes, rest) => do
      match ← fromBytes coeffA coeffD S bytes with
      | none => .ok none
      | some element => .ok (some (element, rest))
  else
    match readExact 64 reader with
    | none => .ok none
    | some (bytes, rest) =>
      match decPt V bytes with
      | none => .ok none
      | some point => .ok (some (⟨point.x, point.y, point.x * point.y, 1⟩, rest))

/-- `hash`, `ops.rs:57-61`: the hasher is fed the compressed encoding. -/
def Proj.hashWith {α : Type} (hasher : List Byte → α) (p : Proj (ZMod q)) : Res α := do
  let bytes ← p.toBytes
  .ok (hasher bytes)

end Verif.Bander
