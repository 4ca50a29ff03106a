import Verif.Ffi.Requests
import Verif.Eip.Model
import Verif.Msm.Model
import Verif.Bander.Crs
import Verif.Bander.Concrete

/-!
# The byte interface: commitments

Source: `/repo/ffi_interface/src/lib.rs`, `/repo/ffi_interface/src/serialization.rs`, for the elements of Bandersnatch.

A commitment crosses the interface as the 64 bytes of one of the two affine points which represent it; which one depends on the
computation.  The two operations of arkworks are parameters with their contracts: the addition of points (`Arith`), and the
committer (`PointCommitter`), which returns some representative of what the model of the committer (`Verif/Msm/Model.lean`) computes.
-/

set_option autoImplicit false

namespace Verif.Ffi
open Wire Bander

/-- Points in extended coordinates over the base field of Bandersnatch. -/
abbrev Point := Proj (ZMod q)

/-- The addition of arkworks (`banderwagon/src/trait_impls/ops.rs:24-30`), by contract: on representatives of elements it is the
affine addition law. -/
structure Arith where
  add : Point → Point → Point
  add_spec : ∀ (p p' : Point) (e e' : BElem), Represents p e → Represents p' e' → Valid coeffA coeffD (add p p') ∧
    (add p p').x / (add p p').z = addX coeffD (p.x / p.z) (p.y / p.z) (p'.x / p'.z) (p'.y / p'.z) ∧
    (add p p').y / (add p p').z = addY coeffA coeffD (p.x / p.z) (p.y / p.z) (p'.x / p'.z) (p'.y / p'.z)

/-- `DefaultCommitter` on points. -/
structure PointCommitter where
  commitLagrange : List (ZMod r) → Res Point
  scalarMul : ZMod r → ℕ → Res Point

/-- A computation on points follows a computation on elements: it panics when that panics, and gives a representative of its value. -/
def Follows (x : Res Point) : Res BElem → Prop
  | .ok e => ∃ p, x = .ok p ∧ Represents p e
  | .error m => x = .error m

/-- The contract of the committer. -/
def PointCommitter.Implements (P : PointCommitter) (D : Msm.Committer BElem) : Prop :=
  (∀ v, Follows (P.commitLagrange v) (D.commitLagrange ZMod.val v)) ∧ ∀ a i, Follows (P.scalarMul a i) (D.scalarMul ZMod.val a i)

/-- `Context`, `lib.rs:33-38` (the weights and the reference string are those of `Ffi.createProof`). -/
structure Context where
  A : Arith
  P : PointCommitter

/-- `Element::zero()`. -/
def zeroPoint : Point := ⟨0, 1, 0, 1⟩

noncomputable section
variable (ctx : Context)

/-- `Committer::commit_sparse`, `/repo/ipa-multipoint/src/committer.rs:14-22`. -/
def commitSparse (valIndices : List (ZMod r × ℕ)) : Res Point :=
  valIndices.foldlM (fun result x => do .ok (ctx.A.add result (← ctx.P.scalarMul x.1 x.2))) zeroPoint

/-- The loop `lib.rs:168-171`; `none` is the error of `?`. -/
def readScalars (scalars : List Byte) : Option (List (ZMod r)) := (chunksExact 32 scalars).mapM (frFromLeBytes codec)

/-- `_commit_to_scalars`, `lib.rs:150-174`. -/
def commitToScalarsElem (scalars : List Byte) : Res (Option Point) :=
  if scalars.length % 32 ≠ 0 then .ok none
  else if 256 < scalars.length / 32 then .ok none
  else match readScalars scalars with
    | none => .ok none
    | some inputs => do .ok (some (← ctx.P.commitLagrange inputs))

/-- `commit_to_scalars`, `lib.rs:179-182`. -/
def commitToScalars (scalars : List Byte) : Res (Option (List Byte)) := do
  match ← commitToScalarsElem ctx scalars with
  | none => .ok none
  | some commitment => .ok (some (← commitment.toBytesUncompressed))

/-- `add_commitment`, `lib.rs:185-189`. -/
def addCommitment (lhs rhs : List Byte) : Res (List Byte) := do
  let l ← fromBytesUnchecked lhs
  let r ← fromBytesUnchecked rhs
  (ctx.A.add l r).toBytesUncompressed

/-- `update_commitment`, `lib.rs:199-221`. -/
def updateCommitment (oldCommitment : List Byte) (index : Byte) (oldScalar newScalar : List Byte) : Res (Option (List Byte)) := do
  let old ← fromBytesUnchecked oldCommitment
  match frFromLeBytes codec oldScalar, frFromLeBytes codec newScalar with
  | some v, some w =>
    let delta ← ctx.P.scalarMul (w - v) index.val
    .ok (some (← (ctx.A.add delta old).toBytesUncompressed))
  | _, _ => .ok none

/-- The loop `lib.rs:237-243`, from position `i` on: `n` positions are left. -/
def deltas (indices : List ℕ) (olds news : List (List Byte)) : ℕ → ℕ → Res (List (ZMod r × ℕ))
  | 0, _ => .ok []
  | n + 1, i => do
    let v ← unwrap "called unwrap on Err" (frFromLeBytes codec (← unwrap "index out of bounds" olds[i]?))
    let w ← unwrap "called unwrap on Err" (frFromLeBytes codec (← unwrap "index out of bounds" news[i]?))
    let k ← unwrap "index out of bounds" indices[i]?
    .ok ((w - v, k) :: (← deltas indices olds news n (i + 1)))

/-- `update_commitment_sparse`, `lib.rs:224-248`. -/
def updateCommitmentSparse (oldCommitment : List Byte) (indices : List ℕ) (olds news : List (List Byte)) : Res (List Byte) := do
  let old ← fromBytesUnchecked oldCommitment
  let ds ← deltas indices olds news indices.length 0
  let delta ← commitSparse ctx ds
  (ctx.A.add delta old).toBytesUncompressed

/-- `hash_commitment`, `lib.rs:255-260`. -/
def hashCommitment (commitment : List Byte) : Res (List Byte) := do
  let p : Point ← fromBytesUnchecked commitment
  .ok (frToLeBytes codec (← p.mapToScalarField (ZMod r)))

/-- `hash_commitments`, `lib.rs:266-276`. -/
def hashCommitments (commitments : List (List Byte)) : Res (List (List Byte)) := do
  let elements : List Point ← commitments.mapM fromBytesUnchecked
  .ok ((batchMapToScalarField (ZMod r) elements).map (frToLeBytes codec))

/-- `serialize_commitment`, `serialization.rs:69-71`. -/
def serializeCommitment (commitment : List Byte) : Res (List Byte) := do
  let p : Point ← fromBytesUnchecked commitment
  p.toBytes

/-- `deserialize_commitment`, `serialization.rs:75-82`. -/
def deserializeCommitment (S : Sqrt (ZMod q)) (bytes : List Byte) : Res (Option (List Byte)) := do
  match ← fromBytes coeffA coeffD S bytes with
  | none => .ok none
  | some p => .ok (some (← p.toBytesUncompressed))

/-- `get_tree_key_hash_flat_input`, `lib.rs:121-123` (`hash64`, `/repo/verkle-spec/src/lib.rs:44-57`). -/
def getTreeKeyHashFlat (input : Bytes 64) : Res (List Byte) := do
  let p ← ctx.P.commitLagrange ((Eip.chunk64 input).map fun x => ((x : ℕ) : ZMod r))
  .ok (codec.encS (← p.mapToScalarField (ZMod r)))

/-- `get_tree_key_hash`, `lib.rs:102-112`, and `pedersen_hash`, `:146-148`. -/
def getTreeKeyHash (address treeIndexLe : Bytes 32) : Res (List Byte) :=
  getTreeKeyHashFlat ctx ⟨address.1 ++ treeIndexLe.1, by rw [List.length_append, address.2, treeIndexLe.2]⟩

/-- `get_tree_key`, `lib.rs:127-138`. -/
def getTreeKey (address treeIndexLe : Bytes 32) (subIndex : Byte) : Res (List Byte) := do
  let hash ← getTreeKeyHash ctx address treeIndexLe
  if hash.length ≤ 31 then .error "index out of bounds" else .ok (hash.set 31 subIndex)

end

end Verif.Ffi
