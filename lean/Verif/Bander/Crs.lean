import Verif.Bander.Lemmas

/-!
# The common reference string

Source: `/repo/ipa-multipoint/src/crs.rs`, `/repo/banderwagon/src/element.rs:57-75`.  SHA-256 is a parameter.
-/

set_option autoImplicit false

namespace Verif.Bander
open Wire

section
variable {q : ℕ} [Fact q.Prime] (a d : ZMod q)

/-- `Element::to_bytes_uncompressed`, `element.rs:63-69` (arkworks: both affine coordinates, 32 bytes each). -/
def Proj.toBytesUncompressed (p : Proj (ZMod q)) : Res (List Byte) := do
  let affine ← p.toAffine
  .ok (serFq affine.1 ++ serFq affine.2)

/-- `Element::from_bytes_unchecked_uncompressed`, `element.rs:71-75`: nothing is checked but that the coordinates are
canonical. -/
def fromBytesUnchecked (bytes : List Byte) : Res (Proj (ZMod q)) :=
  match deFq (bytes.take 32), deFq (bytes.drop 32) with
  | some x, some y => .ok ⟨x, y, x * y, 1⟩
  | _, _ => .error "could not deserialize byte array into a point"

/-- `CRS`, `crs.rs:6-10`. -/
structure Crs (q : ℕ) where
  n : ℕ
  G : List (Proj (ZMod q))
  Q : Proj (ZMod q)

/-- `CRS::from_bytes`, `crs.rs:39-51`; the entries have 64 bytes. -/
def Crs.fromBytes (bytes : List (List Byte)) : Res (Crs q) :=
  match bytes.getLast? with
  | none => .error "bytes vector should not be empty"
  | some qBytes => do
    let Q ← fromBytesUnchecked qBytes
    let G ← bytes.dropLast.mapM fromBytesUnchecked
    .ok ⟨G.length, G, Q⟩

/-- `CRS::to_bytes`, `crs.rs:61-68`. -/
def Crs.toBytes (crs : Crs q) : Res (List (List Byte)) := do
  let bytes ← crs.G.mapM fun point => point.toBytesUncompressed
  .ok (bytes ++ [← crs.Q.toBytesUncompressed])

/-- The body of `generate_random_elements`, `crs.rs:96-115`, from index `i` on; `fuel` is the number of indices left before the
`u64` counter overflows. -/
noncomputable def generateFrom (S : Sqrt (ZMod q)) (sha : List Byte → List Byte) (seed : List Byte) :
    ℕ → ℕ → ℕ → Res (List (Proj (ZMod q)))
  | _, _, 0 => .ok []
  | 0, _, _ + 1 => .error "attempt to add with overflow"
  | fuel + 1, i, n + 1 => do
    match ← tryReduce a d S (sha (seed ++ (leBytes 8 i).reverse)) with
    | none => generateFrom S sha seed fuel (i + 1) (n + 1)
    | some p => .ok (p :: (← generateFrom S sha seed fuel (i + 1) n))

/-- `generate_random_elements`, `crs.rs:96-115`. -/
noncomputable def generateRandomElements (S : Sqrt (ZMod q)) (sha : List Byte → List Byte) (n : ℕ) (seed : List Byte) :
    Res (List (Proj (ZMod q))) := generateFrom a d S sha seed (2 ^ 64) 0 n

/-- `CRS::assert_dedup`, `crs.rs:75-82`: `seen` is the set of encodings so far. -/
def assertDedup : List (List Byte) → List (Proj (ZMod q)) → Res Unit
  | _, [] => .ok ()
  | seen, point :: points => do
    let b ← point.toBytes
    if b ∈ seen then .error "crs has duplicated points" else assertDedup (b :: seen) points

/-- `CRS::new`, `crs.rs:20-30`; `gen` is the generator of arkworks. -/
noncomputable def Crs.new (S : Sqrt (ZMod q)) (sha : List Byte → List Byte) (gen : Proj (ZMod q)) (n : ℕ) (seed : List Byte) :
    Res (Crs q) := do
  let G ← generateRandomElements a d S sha n seed
  assertDedup [] G
  .ok ⟨n, G, gen⟩

end

end Verif.Bander
