import Verif.Trie.Model

/-!
# Byte encodings of node records and the row keys of the disk database

Sources: `/repo/verkle-trie/src/database/meta.rs`, `/repo/verkle-trie/src/database/generic.rs`.

The encodings of a single point (64 bytes, `Element::serialize_uncompressed`) and of a single scalar (32 bytes) belong to
arkworks and are parameters (`NodeCodec`).  `Element::deserialize_uncompressed`
(`/repo/banderwagon/src/trait_impls/serialize.rs:60-63`) goes through `EdwardsProjective::deserialize_uncompressed`, which
validates the point (on the curve and in the prime-order subgroup); `valid` stands for that validation, it is not assumed
to hold of every point.
-/

set_option autoImplicit false

namespace Verif

/-- Encodings of a single point and a single scalar. -/
structure NodeCodec (F G : Type) where
  encP : G → List Byte
  decP : List Byte → Option G
  valid : G → Prop
  [dec : DecidablePred valid]
  encS : F → List Byte
  decS : List Byte → Option F
  encP_len : ∀ x, (encP x).length = 64
  encS_len : ∀ x, (encS x).length = 32
  dec_encP : ∀ x, decP (encP x) = if valid x then some x else none
  dec_encS : ∀ x, decS (encS x) = some x

namespace Db
variable {F G : Type} (K : NodeCodec F G)

/-! Outcome of decoding, `Res (Option α)`: a panic, `Err(_)` (`none`) or a value. -/

/-- `StemMeta::to_bytes`, `meta.rs:101-113`. -/
def stemToBytes (m : StemMeta F G) : List Byte :=
  K.encP m.c1 ++ K.encP m.c2 ++ K.encP m.stemComm ++ K.encS m.hashC1 ++ K.encS m.hashC2 ++ K.encS m.hashStem

/-- `bytes[a..b]`, panicking when out of range. -/
def slice (bytes : List Byte) (a b : ℕ) : Res (List Byte) :=
  if a ≤ b ∧ b ≤ bytes.length then .ok ((bytes.take b).drop a) else .error "slice index out of range"

/-- `StemMeta::from_bytes`, `meta.rs:70-97`. -/
def stemFromBytes (bytes : List Byte) : Res (Option (StemMeta F G)) :=
  if bytes.length ≠ 64 * 3 + 32 * 3 then .ok none
  else do
    let pb ← slice bytes 0 (64 * 3)
    let p0 ← slice pb 0 64
    let p1 ← slice pb 64 128
    let p2 ← slice pb 128 192
    let sb ← slice bytes (64 * 3) bytes.length
    let s0 ← slice sb 0 32
    let s1 ← slice sb 32 64
    let s2 ← slice sb 64 96
    .ok (do
      let c1 ← K.decP p0
      let c2 ← K.decP p1
      let sc ← K.decP p2
      let h1 ← K.decS s0
      let h2 ← K.decS s1
      let hs ← K.decS s2
      return { c1 := c1, hashC1 := h1, c2 := c2, hashC2 := h2, stemComm := sc, hashStem := hs })

/-- `BranchMeta::to_bytes`, `meta.rs:167-176`. -/
def branchToBytes (m : BranchMeta F G) : List Byte := K.encP m.comm ++ K.encS m.hash

/-- `BranchMeta::from_bytes`, `meta.rs:148-164`.  The guard is `if !len == 32 + 64` where `!` is the bitwise complement of
a 64-bit `usize`. -/
def branchFromBytes (bytes : List Byte) : Res (Option (BranchMeta F G)) :=
  if 2 ^ 64 - 1 - bytes.length = 32 + 64 then .ok none
  else do
    let pb ← slice bytes 0 64
    let sb ← slice bytes 64 (64 + 32)
    .ok (do
      let c ← K.decP pb
      let h ← K.decS sb
      return { comm := c, hash := h })

/-- `BranchChild::to_bytes`, `meta.rs:225-232`. -/
def childToBytes : BranchChild F G → List Byte
  | .stem s => s.1
  | .branch m => branchToBytes K m

/-- `BranchChild::from_bytes`, `meta.rs:234-242`. -/
def childFromBytes (bytes : List Byte) : Res (Option (BranchChild F G)) :=
  if h : bytes.length = 31 then .ok (some (.stem ⟨bytes, h⟩))
  else do
    let m ← branchFromBytes K bytes
    .ok (m.map .branch)

/-! ### Row keys, `generic.rs:9-12,22-61` -/

/-- Row key of a leaf: marker `0`. -/
def leafRow (k : Key) : List Byte := 0 :: k.1
/-- Row key of a stem: marker `1`. -/
def stemRow (s : Stem) : List Byte := 1 :: s.1
/-- Row key of a branch or of a child pointer: marker `2`. -/
def branchRow (p : Path) : List Byte := 2 :: p

/-- The items stored by the database. -/
inductive Item where
  | leaf (k : Key)
  | stem (s : Stem)
  | branch (p : Path)

/-- The row of an item. -/
def Item.row : Item → List Byte
  | .leaf k => leafRow k
  | .stem s => stemRow s
  | .branch p => branchRow p

end Db
end Verif
