import Verif.Wire.Model

/-!
# Multi-scalar multiplication with precomputed tables, and the committer

Sources: `/repo/banderwagon/src/msm_windowed_sign.rs`, `/repo/banderwagon/src/msm.rs`, `/repo/ipa-multipoint/src/committer.rs`.

Scalars are elements of the field `F`; `rep` is the conversion to `BigInteger256` (the canonical representative).  Bases are
elements of the module `G`; conversions between affine and projective coordinates do not change the element.
Machine integers are natural numbers with their wrap-around and overflow checks written out.
-/

set_option autoImplicit false

namespace Verif.Msm
open Wire

/-- `Fr::MODULUS_BIT_SIZE` of the scalar field of Bandersnatch (used at `msm_windowed_sign.rs:19`). -/
def modulusBits : ℕ := 253

/-- `get_booth_index`, `msm_windowed_sign.rs:114-156`. -/
def boothIndex (windowIndex windowSize : ℕ) (el : List Byte) : Res ℤ :=
  let skipBits := windowIndex * windowSize - 1
  let skipBytes := skipBits / 8
  -- lines 128-133: at most four bytes, the rest of the `u32` is zero
  let tmp := leNat ((el.drop skipBytes).take 4)
  -- lines 136-138: `<<=` on a `u32` drops the top bit
  let tmp := if windowIndex = 0 then tmp * 2 % 2 ^ 32 else tmp
  let tmp := tmp >>> (skipBits - skipBytes * 8)
  if 32 ≤ windowSize + 1 then .error "attempt to shift left with overflow"
  else
    let tmp := tmp &&& (2 ^ (windowSize + 1) - 1)
    let sign := tmp &&& 2 ^ windowSize = 0
    let tmp := (tmp + 1) >>> 1
    if sign then .ok (tmp : ℤ)
    else if tmp = 0 then .error "attempt to subtract with overflow"
    else .ok (-(((2 ^ 32 - 1 - (tmp - 1)) &&& (2 ^ windowSize - 1) : ℕ) : ℤ))

section
variable {F G : Type} [Field F] [AddCommGroup G] [SMul F G]

/-- `MSMPrecompWindowSigned`, `msm_windowed_sign.rs:8-13`. -/
structure Signed (G : Type) where
  tables : List (List G)
  numWindows : ℕ
  windowSize : ℕ

variable (F) in
/-- `Fr::from(1 << window_size)`, `msm_windowed_sign.rs:44`: the literal is an `i32`. -/
def windowScalar (windowSize : ℕ) : F := if windowSize = 31 then -(2 ^ 31) else 2 ^ windowSize

variable (F) in
/-- `precompute_points`, `msm_windowed_sign.rs:39-66`: for each window the multiples `1, …, 2^(w-1)` of the scaled point. -/
def precomputePoints (windowSize numberOfWindows : ℕ) (point : G) : List G :=
  (List.range numberOfWindows).flatMap fun windowIndex =>
    let p := windowScalar F windowSize ^ windowIndex • point
    (List.range (2 ^ (windowSize - 1))).map fun k => (k + 1) • p

variable (F) in
/-- `MSMPrecompWindowSigned::new`, `msm_windowed_sign.rs:16-37`. -/
def Signed.new (bases : List G) (windowSize : ℕ) : Res (Signed G) :=
  if windowSize = 0 then .error "attempt to divide by zero"
  else if 32 ≤ windowSize ∧ bases ≠ [] then .error "attempt to shift left with overflow"
  else
    let n := modulusBits / windowSize + 1
    .ok ⟨bases.map (precomputePoints F windowSize n), n, windowSize⟩

/-- The body of the double loop of `mul`, `msm_windowed_sign.rs:80-101`: the points pushed for one window and one scalar. -/
def Signed.windowPoint (T : Signed G) (windowIdx scalarIdx : ℕ) (bytes : List Byte) : Res (List G) := do
  let sub ← unwrap "index out of bounds" T.tables[scalarIdx]?
  let d ← boothIndex windowIdx T.windowSize bytes
  if d = 0 then .ok []
  else do
    let p ← unwrap "index out of bounds" sub[windowIdx * 2 ^ (T.windowSize - 1) + (d.natAbs - 1)]?
    .ok [if 0 < d then p else -p]

/-- `MSMPrecompWindowSigned::mul`, `msm_windowed_sign.rs:68-110`. -/
def Signed.mul (T : Signed G) (rep : F → ℕ) (scalars : List F) : Res G := do
  let bytes := scalars.map fun a => leBytes 32 (rep a)
  let points ← (List.range T.numWindows).mapM fun i => do
    let row ← bytes.zipIdx.mapM fun x => T.windowPoint i x.2 x.1
    .ok row.flatten
  .ok (points.flatten.foldl (· + ·) 0)

/-- `MSMPrecompWnaf`, `msm.rs:8-11`.  The tables are those of arkworks' `WnafContext` (`msm.rs:15-19`), which are not modelled:
`mul_with_table(&table(base), scalar)` is `Some(scalar * base)` by the contract of that library, so the base itself stands for its
table. -/
structure Wnaf (G : Type) where
  tables : List G

/-- `MSMPrecompWnaf::mul_index`, `msm.rs:28-35`. -/
def Wnaf.mulIndex (W : Wnaf G) (scalar : F) (index : ℕ) : Res G := do
  let b ← unwrap "index out of bounds" W.tables[index]?
  .ok (scalar • b)

open Classical in
/-- The sequential pipeline `filter`, `map`, `sum` over pairs of a scalar and a table, `msm.rs:42-44` and `msm.rs:55-57`. -/
noncomputable def Wnaf.sumOf (l : List (F × G)) : G :=
  ((l.filter fun x => decide (x.1 ≠ 0)).map fun x => x.1 • x.2).sum

/-- `MSMPrecompWnaf::mul`, `msm.rs:37-47`. -/
noncomputable def Wnaf.mul (W : Wnaf G) (scalars : List F) : G := Wnaf.sumOf (scalars.zip W.tables)

/-- A way for the thread pool of `rayon` to share out a parallel iterator: a piece is worked through by one thread, or cut after
some number of items into two pieces whose results are added.  Which way is taken depends on the number of threads and on their
load, so it is not determined by the program. -/
inductive Split where
  | one
  | cut (at_ : ℕ) (left right : Split)

/-- The pipeline `zip`, `filter`, `map`, `sum` of `MSMPrecompWnaf::mul_par`, `msm.rs:52-57`, shared out in a given way. -/
noncomputable def Wnaf.sumPar : Split → List (F × G) → G
  | .one, l => Wnaf.sumOf l
  | .cut n a b, l => Wnaf.sumPar a (l.take n) + Wnaf.sumPar b (l.drop n)

/-- `MSMPrecompWnaf::mul_par`, `msm.rs:50-60`. -/
noncomputable def Wnaf.mulPar (W : Wnaf G) (s : Split) (scalars : List F) : G := Wnaf.sumPar s (scalars.zip W.tables)

/-- `DefaultCommitter`, `committer.rs:26-29`. -/
structure Committer (G : Type) where
  firstFive : Signed G
  precomp : Wnaf G

variable (F) in
/-- `DefaultCommitter::new`, `committer.rs:32-44`. -/
def Committer.new (points : List G) : Res (Committer G) := do
  if points.length < 5 then .error "mid > len"
  else
    let five ← Signed.new F (points.take 5) 16
    .ok ⟨five, ⟨points⟩⟩

/-- `DefaultCommitter::commit_lagrange`, `committer.rs:48-59`, the parallel sum being shared out in a given way. -/
noncomputable def Committer.commitLagrangeBy (s : Split) (D : Committer G) (rep : F → ℕ) (evaluations : List F) : Res G :=
  if evaluations.length ≤ 5 then D.firstFive.mul rep evaluations
  else if 64 ≤ evaluations.length then .ok (D.precomp.mulPar s evaluations)
  else .ok (D.precomp.mul evaluations)

/-- `DefaultCommitter::commit_lagrange`, `committer.rs:48-59`, on a single thread; `C37_parallel` is about any sharing out. -/
noncomputable def Committer.commitLagrange (D : Committer G) (rep : F → ℕ) (evaluations : List F) : Res G :=
  D.commitLagrangeBy .one rep evaluations

/-- `DefaultCommitter::scalar_mul`, `committer.rs:61-69`. -/
def Committer.scalarMul (D : Committer G) (rep : F → ℕ) (value : F) (index : ℕ) : Res G :=
  if index < 5 then D.firstFive.mul rep ((List.replicate 5 0).set index value)
  else D.precomp.mulIndex value index

/-- `Committer::commit_sparse`, `committer.rs:14-22`. -/
def Committer.commitSparse (D : Committer G) (rep : F → ℕ) (valIndices : List (F × ℕ)) : Res G :=
  valIndices.foldlM (fun result x => do .ok (result + (← D.scalarMul rep x.1 x.2))) 0

end

end Verif.Msm
