import Verif.Db.Codec

/-!
# Model of the cached, batched disk database

Sources: `/repo/verkle-trie/src/database/default.rs`, `/repo/verkle-trie/src/database/generic.rs`.

The disk is modelled twice: as typed tables (`storage`, used to run the trie) and as byte rows (`Rows`, used for the
statements about flush).  `rowsOf` relates the two; that reading a row gives back the typed entry is C14,
and holds only for records whose points the decoder accepts (C61).
A disk row holding a stem pointer makes `get_branch_meta` panic (31 bytes are fewer than 96, `C15_short_branch_record_panics`),
as it does on the in-memory tables.
-/

set_option autoImplicit false

namespace Verif

/-- `VerkleDb`, `default.rs:17-27`. -/
@[ext] structure VerkleDb (F G : Type) where
  storage : MemoryDb F G
  batch : MemoryDb F G
  cache : MemoryDb F G

namespace VerkleDb
variable {F G : Type}

/-- `CACHE_DEPTH`, `default.rs:14`. -/
def cacheDepth : ℕ := 4

/-- `from_path` on an empty directory, `default.rs:30-39`. -/
def new : VerkleDb F G := ⟨.new, .new, .new⟩

/-- `from_path` on an existing disk, `default.rs:30-39`. -/
def reopen (disk : MemoryDb F G) : VerkleDb F G := ⟨disk, .new, .new⟩

/-- Entries of `a` over entries of `b`. -/
def overlay {α β : Type} (a b : α → Option β) : α → Option β := fun x => (a x).orElse fun _ => b x

/-- Tables of `a` over tables of `b`. -/
def overlayDb (a b : MemoryDb F G) : MemoryDb F G :=
  ⟨overlay a.leaf b.leaf, overlay a.stem b.stem, overlay a.branch b.branch⟩

/-- `flush`, `default.rs:44-80`: every batch entry is put, then the batch is cleared. -/
def flush (db : VerkleDb F G) : VerkleDb F G := ⟨overlayDb db.batch db.storage, .new, db.cache⟩

/-- `get_leaf`, `default.rs:84-95`. -/
def getLeaf (db : VerkleDb F G) (k : Key) : Option Value :=
  overlay db.cache.leaf (overlay db.batch.leaf db.storage.leaf) k

/-- `get_stem_meta`, `default.rs:97-108`. -/
def getStemMeta (db : VerkleDb F G) (s : Stem) : Option (StemMeta F G) :=
  overlay db.cache.stem (overlay db.batch.stem db.storage.stem) s

/-- `get_branch_meta`, `default.rs:110-121`. -/
def getBranchMeta (db : VerkleDb F G) (p : Path) : Res (Option (BranchMeta F G)) := do
  match ← db.cache.getBranchMeta p with
  | some m => .ok (some m)
  | none =>
    match ← db.batch.getBranchMeta p with
    | some m => .ok (some m)
    | none => db.storage.getBranchMeta p

/-- `get_branch_child`, `default.rs:123-134`. -/
def getBranchChild (db : VerkleDb F G) (p : Path) (i : Byte) : Option (BranchChild F G) :=
  overlay db.cache.branch (overlay db.batch.branch db.storage.branch) (p ++ [i])

/-- `get_branch_children`, `default.rs:136-158`.  The merged children come out of a `HashMap`, so their order is
unspecified; the model lists them in ascending order, and C16 is stated up to permutation. -/
def getBranchChildren (db : VerkleDb F G) (p : Path) : List (Byte × BranchChild F G) :=
  if p.length % 256 ≤ cacheDepth then db.cache.getBranchChildren p
  else MemoryDb.getBranchChildren (overlayDb db.batch db.storage) p

/-- `get_stem_children`, `default.rs:160-186`; order as for `getBranchChildren`. -/
def getStemChildren (db : VerkleDb F G) (s : Stem) : List (Byte × Value) :=
  let children := db.cache.getStemChildren s
  if children ≠ [] then children
  else MemoryDb.getStemChildren (overlayDb db.batch db.storage) s

/-- `insert_leaf`, `default.rs:191-196`. -/
def insertLeaf (db : VerkleDb F G) (k : Key) (v : Value) (depth : ℕ) : VerkleDb F G × Option Value :=
  ({ db with
      cache := if depth ≤ cacheDepth then (db.cache.insertLeaf k v depth).1 else db.cache
      batch := (db.batch.insertLeaf k v depth).1 }, (db.batch.insertLeaf k v depth).2)

/-- `insert_stem`, `default.rs:198-203`. -/
def insertStem (db : VerkleDb F G) (s : Stem) (m : StemMeta F G) (depth : ℕ) :
    VerkleDb F G × Option (StemMeta F G) :=
  ({ db with
      cache := if depth ≤ cacheDepth then (db.cache.insertStem s m depth).1 else db.cache
      batch := (db.batch.insertStem s m depth).1 }, (db.batch.insertStem s m depth).2)

/-- `add_stem_as_branch_child`, `default.rs:205-217`. -/
def addStemAsBranchChild (db : VerkleDb F G) (p : Path) (s : Stem) (depth : ℕ) :
    VerkleDb F G × Option (BranchChild F G) :=
  ({ db with
      cache := if depth ≤ cacheDepth then (db.cache.addStemAsBranchChild p s depth).1 else db.cache
      batch := (db.batch.addStemAsBranchChild p s depth).1 }, (db.batch.addStemAsBranchChild p s depth).2)

/-- `insert_branch`, `default.rs:219-224`. -/
def insertBranch (db : VerkleDb F G) (p : Path) (m : BranchMeta F G) (depth : ℕ) :
    VerkleDb F G × Option (BranchMeta F G) :=
  ({ db with
      cache := if depth ≤ cacheDepth then (db.cache.insertBranch p m depth).1 else db.cache
      batch := (db.batch.insertBranch p m depth).1 }, (db.batch.insertBranch p m depth).2)

instance : HigherDb (VerkleDb F G) F G where
  getStemMeta := getStemMeta
  getBranchMeta := getBranchMeta
  getBranchChildren := getBranchChildren
  getBranchChild := getBranchChild
  getStemChildren := getStemChildren
  getLeaf := getLeaf
  insertLeaf := insertLeaf
  insertStem := insertStem
  addStemAsBranchChild := addStemAsBranchChild
  insertBranch := insertBranch

end VerkleDb

namespace Db
variable {F G : Type} (K : NodeCodec F G)

/-- The disk as byte rows: `BareMetalKVDb::fetch`, `/repo/verkle-db/src/lib.rs:17`. -/
abbrev Rows := List Byte → Option (List Byte)

/-- The bytes stored for an item of the typed tables. -/
def itemBytes (db : MemoryDb F G) : Item → Option (List Byte)
  | .leaf k => (db.leaf k).map (·.1)
  | .stem s => (db.stem s).map (stemToBytes K)
  | .branch p => (db.branch p).map (childToBytes K)

/-- A `WriteBatch` is a list of puts applied in order by the underlying database (`rocksdb_impl.rs:29-46`). -/
def putAll (disk : Rows) : List (List Byte × List Byte) → Rows
  | [] => disk
  | (k, v) :: rest => putAll (Function.update disk k (some v)) rest

/-- The puts issued by `flush` for a list of items of the batch, `default.rs:51-71`. -/
def putsOf (batch : MemoryDb F G) (items : List Item) : List (List Byte × List Byte) :=
  items.filterMap fun it => (itemBytes K batch it).map fun v => (it.row, v)

/-- `GenericBatchDB::get_leaf`, `generic.rs:97-105`. -/
def fetchLeaf (disk : Rows) (k : Key) : Res (Option Value) :=
  match disk (leafRow k) with
  | none => .ok none
  | some b => if h : b.length = 32 then .ok (some ⟨b, h⟩) else .error "try_into().unwrap()"

/-- `Result::unwrap` of a decoded record. -/
def unwrapRec {α : Type} (r : Res (Option α)) : Res (Option α) := do
  match ← r with
  | some a => .ok (some a)
  | none => .error "from_bytes(..).unwrap()"

/-- `GenericBatchDB::get_stem_meta`, `generic.rs:107-115`. -/
def fetchStem (disk : Rows) (s : Stem) : Res (Option (StemMeta F G)) :=
  match disk (stemRow s) with
  | none => .ok none
  | some b => unwrapRec (stemFromBytes K b)

/-- `GenericBatchDB::get_branch_meta`, `generic.rs:138-146`. -/
def fetchBranchMeta (disk : Rows) (p : Path) : Res (Option (BranchMeta F G)) :=
  match disk (branchRow p) with
  | none => .ok none
  | some b => unwrapRec (branchFromBytes K b)

/-- `GenericBatchDB::get_branch_child`, `generic.rs:148-156`. -/
def fetchChild (disk : Rows) (p : Path) (i : Byte) : Res (Option (BranchChild F G)) :=
  match disk (branchRow (p ++ [i])) with
  | none => .ok none
  | some b => unwrapRec (childFromBytes K b)

end Db
end Verif
