import Verif.Ffi.Commitments
import Verif.Ipa.Points

/-!
# The C binding

Source: `/repo/bindings/c/src/lib.rs`, with the uncompressed proof format of `/repo/ipa-multipoint/src/ipa.rs` and `multiproof.rs` in the same
directory.

The functions are modelled on points of Bandersnatch.  A pointer with a length is a byte string of that length; that the memory behind
the pointers is readable and writable is the caller's part of the contract (the functions are unsafe to call otherwise).
The operations of arkworks on points are a parameter with a contract for representatives of elements (`Ark`); SHA-256 with the reduction
to a scalar is the parameter `H`.
-/

set_option autoImplicit false

namespace Verif.Ffi
open Wire Proof Ipa Bander

/-- The operations of arkworks on points (`/repo/banderwagon/src/trait_impls/ops.rs:10-51`, `/repo/banderwagon/src/element.rs:194-204`), by
contract: on representatives of elements they give representatives of what the group gives. -/
structure Ark where
  A : Arith
  sub : Point → Point → Point
  mul : ZMod r → Point → Point
  msm : List (ZMod r) → List Point → Point
  sub_spec : ∀ {p p' : Point} {e e' : BElem}, Represents p e → Represents p' e' → Represents (sub p p') (e - e')
  mul_spec : ∀ (c : ZMod r) {p : Point} {e : BElem}, Represents p e → Represents (mul c p) (c • e)
  msm_spec : ∀ (s : List (ZMod r)) {ps : List Point} {es : List BElem}, s.length = ps.length →
    List.Forall₂ (fun p e => Represents p (e : BElem)) ps es → Represents (msm s ps) (lin s es)

noncomputable section

/-- The operations which the arguments use; `is_zero`, `/repo/banderwagon/src/element.rs:175-177`. -/
def Ark.ops (K : Ark) (H : List Byte → ZMod r) : PointOps (ZMod r) Point where
  add := K.A.add
  sub := K.sub
  smul := K.mul
  msm := K.msm
  isZero p := p.eq zeroPoint
  toBytes p := p.toBytes
  encS := codec.encS
  H := H

/-- The part of `Context` (`/repo/ffi_interface/src/lib.rs:33-38`) used for proofs. -/
structure ProofContext where
  crs : CRS Point
  W : Weights (ZMod r)

/-- `Context::new`, `/repo/ffi_interface/src/lib.rs:47-57`, without the committer: the default reference string
(`/repo/ipa-multipoint/src/default_crs.rs`) and the weights. -/
def ProofContext.new : Res ProofContext := do
  let crs ← Crs.fromBytes (q := q) (crsHex.map hexBytes)
  let W ← Weights.new (ZMod r) 256
  .ok ⟨⟨crs.n, crs.G, crs.Q⟩, W⟩

/-! ### Formats -/

/-- `take_group_element`, `/repo/ffi_interface/src/serialization.rs:196-200`, on points. -/
def takePoint (S : Sqrt (ZMod q)) (bytes : List Byte) : Res (Point × List Byte) := do
  let (b, rest) ← split 32 bytes
  let e ← unwrap "could not deserialize element" (← fromBytes coeffA coeffD S b)
  .ok (e, rest)

/-- The loops `ipa.rs:44-56`, on points. -/
def readPoints (S : Sqrt (ZMod q)) : ℕ → List (List Byte) → Res (Option (List Point × List (List Byte)))
  | 0, cs => .ok (some ([], cs))
  | _ + 1, [] => .error "called unwrap on None"
  | n + 1, c :: cs => do
    match ← fromBytes coeffA coeffD S c with
    | none => .ok none
    | some x =>
      match ← readPoints S n cs with
      | none => .ok none
      | some (xs, r) => .ok (some (x :: xs, r))

/-- `IPAProof::from_bytes`, `ipa.rs:32-64`, on points. -/
def pIpaFromBytes (S : Sqrt (ZMod q)) (bs : List Byte) (deg : ℕ) : Res (Option (IpaProof (ZMod r) Point)) :=
  if (Nat.clog 2 deg * 2 + 1) * 32 ≠ bs.length % 2 ^ 32 then .error "assertion left == right"
  else if bs.length % 32 ≠ 0 then .error "assertion bytes.len() % 32 == 0"
  else do
    match ← readPoints S (Nat.clog 2 deg) (chunksExact 32 bs) with
    | none => .ok none
    | some (l, cs) =>
      match ← readPoints S (Nat.clog 2 deg) cs with
      | none => .ok none
      | some (r, cs) =>
        match cs with
        | [] => .error "called unwrap on None"
        | c :: _ =>
          match codec.decS c with
          | none => .ok none
          | some a => .ok (some ⟨l, r, a⟩)

/-- `MultiPointProof::from_bytes`, `multiproof.rs:174-188`, on points. -/
def pMultiFromBytes (S : Sqrt (ZMod q)) (bs : List Byte) (deg : ℕ) : Res (Option (MultiProof (ZMod r) Point)) :=
  if bs.length < 32 then .error "slice index out of range"
  else do
    match ← fromBytes coeffA coeffD S (bs.take 32) with
    | none => .ok none
    | some g =>
      match ← pIpaFromBytes S (bs.drop 32) deg with
      | none => .ok none
      | some p => .ok (some ⟨p, g⟩)

/-- The loops `ipa.rs:83-95`. -/
def readUncompressed : ℕ → List (List Byte) → Res (List Point × List (List Byte))
  | 0, cs => .ok ([], cs)
  | _ + 1, [] => .error "called unwrap on None"
  | n + 1, c :: cs => do
    let x ← fromBytesUnchecked c
    let (xs, r) ← readUncompressed n cs
    .ok (x :: xs, r)

/-- `IPAProof::from_bytes_unchecked_uncompressed`, `ipa.rs:65-101`: nothing is checked about the points but that the coordinates are
canonical. -/
def ipaFromBytesUncompressed (bs : List Byte) (deg : ℕ) : Res (Option (IpaProof (ZMod r) Point)) :=
  if Nat.clog 2 deg * 2 * 64 + 32 ≠ bs.length % 2 ^ 32 then .error "assertion left == right"
  else do
    let (points, a) ← split (bs.length - 32) bs
    let (l, cs) ← readUncompressed (Nat.clog 2 deg) (chunksExact 64 points)
    let (r, _) ← readUncompressed (Nat.clog 2 deg) cs
    match codec.decS a with
    | none => .ok none
    | some a => .ok (some ⟨l, r, a⟩)

/-- `MultiPointProof::from_bytes_unchecked_uncompressed`, `multiproof.rs:190-206`. -/
def multiFromBytesUncompressed (bs : List Byte) (deg : ℕ) : Res (Option (MultiProof (ZMod r) Point)) := do
  let (g, ipa) ← split 64 bs
  let gx ← fromBytesUnchecked g
  match ← ipaFromBytesUncompressed ipa deg with
  | none => .ok none
  | some p => .ok (some ⟨p, gx⟩)

/-- `MultiPointProof::to_bytes`, `multiproof.rs:207-213`, `IPAProof::to_bytes`, `ipa.rs:102-118`, on points. -/
def pMultiToBytes (p : MultiProof (ZMod r) Point) : Res (List Byte) := do
  let g ← p.gx.toBytes
  let l ← p.openProof.L.mapM Proj.toBytes
  let r ← p.openProof.R.mapM Proj.toBytes
  .ok (g ++ (l.flatten ++ r.flatten ++ codec.encS p.openProof.a))

/-- `MultiPointProof::to_bytes_uncompressed`, `multiproof.rs:214-220`, `IPAProof::to_bytes_uncompressed`, `ipa.rs:119-134`. -/
def multiToBytesUncompressed (p : MultiProof (ZMod r) Point) : Res (List Byte) := do
  let g ← p.gx.toBytesUncompressed
  let l ← p.openProof.L.mapM Proj.toBytesUncompressed
  let r ← p.openProof.R.mapM Proj.toBytesUncompressed
  .ok (g ++ (l.flatten ++ r.flatten ++ codec.encS p.openProof.a))

/-- `copy_from_slice` into a slice of length `n`. -/
def copyTo (n : ℕ) (bytes : List Byte) : Res (List Byte) :=
  if bytes.length ≠ n then .error "source slice length does not match destination slice length" else .ok bytes

/-! ### Proofs -/

section
variable (K : Ark) (H : List Byte → ZMod r) (ctx : ProofContext)

/-- `create_proof`, `/repo/bindings/c/src/lib.rs:96-142`: the bytes written to `out`.  `order` stands for the iteration order of the hash map of groups, which
is keyed by the points of the queries. -/
def cCreateProof (S : Sqrt (ZMod q)) (order : List ℕ → List ℕ) (input : List Byte) : Res (List Byte) :=
  if input.length % 8257 ≠ 0 then .error "There should be no left over bytes when chunking the proof"
  else do
    let qs ← (chunksExact 8257 input).mapM (deserializeProofQuery codec (takePoint S))
    let p ← pOpenMulti (K.ops H) ctx.crs ctx.W (newTranscript (lbl "verkle")) qs (order (qs.map ProverQuery.point))
    copyTo 576 (← pMultiToBytes p.1)

/-- `create_proof_uncompressed`, `/repo/bindings/c/src/lib.rs:146-200`. -/
def cCreateProofUncompressed (order : List ℕ → List ℕ) (input : List Byte) : Res (List Byte) :=
  if input.length % 8289 ≠ 0 then .error "There should be no left over bytes when chunking the proof"
  else do
    let qs ← (chunksExact 8289 input).mapM (deserializeProofQuery codec (takeUncompressed fromBytesUnchecked))
    let p ← pOpenMulti (K.ops H) ctx.crs ctx.W (newTranscript (lbl "verkle")) qs (order (qs.map ProverQuery.point))
    copyTo 1120 (← multiToBytesUncompressed p.1)

/-- `verify_proof`, `/repo/bindings/c/src/lib.rs:204-252`. -/
def cVerifyProof (S : Sqrt (ZMod q)) (input : List Byte) : Res Bool := do
  let (proofBytes, queryBytes) ← split 576 input
  if queryBytes.length % 65 ≠ 0 then .error "There should be no left over bytes when chunking the verifier queries"
  else do
    let qs ← (chunksExact 65 queryBytes).mapM (deserializeVerifierQuery codec (takePoint S))
    let proof ← unwrap "called unwrap on Err" (← pMultiFromBytes S proofBytes 256)
    let r ← pCheckMulti (K.ops H) proof ctx.crs ctx.W qs (newTranscript (lbl "verkle"))
    .ok r.1

/-- `verify_proof_uncompressed`, `/repo/bindings/c/src/lib.rs:256-309`. -/
def cVerifyProofUncompressed (input : List Byte) : Res Bool := do
  let (proofBytes, queryBytes) ← split 1120 input
  if queryBytes.length % 97 ≠ 0 then .error "There should be no left over bytes when chunking the verifier queries"
  else do
    let qs ← (chunksExact 97 queryBytes).mapM (deserializeVerifierQuery codec (takeUncompressed fromBytesUnchecked))
    let proof ← unwrap "called unwrap on Err" (← multiFromBytesUncompressed proofBytes 256)
    let r ← pCheckMulti (K.ops H) proof ctx.crs ctx.W qs (newTranscript (lbl "verkle"))
    .ok r.1

end

/-! ### Commitments -/

/-- `multi_scalar_mul`, `/repo/bindings/c/src/lib.rs:67-92`: the bytes written to `out`. -/
def cMultiScalarMul (ctx : Context) (scalars : List Byte) : Res (List Byte) := do
  let inputs ← (chunksExact 32 scalars).mapM fun c => unwrap "called unwrap on Err" (frFromLeBytes codec c)
  let data ← ctx.P.commitLagrange inputs
  data.toBytes

/-- `pedersen_hash`, `/repo/bindings/c/src/lib.rs:33-63`: a null pointer among the arguments makes it return without writing, which is `none`. -/
def cPedersenHash (ctx : Option Context) (address treeIndexLe : Option (Bytes 32)) (out : Bool) : Res (Option (List Byte)) :=
  match ctx, address, treeIndexLe, out with
  | some ctx, some address, some treeIndexLe, true => do .ok (some (← getTreeKeyHash ctx address treeIndexLe))
  | _, _, _, _ => .ok none

end

end Verif.Ffi
