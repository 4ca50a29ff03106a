import Verif.Basic

/-!
# Model of the trie and of the in-memory database

Sources: `/repo/verkle-trie/src/trie.rs`, `/repo/verkle-trie/src/database.rs`,
`/repo/verkle-trie/src/database/memory_db.rs`, `/repo/verkle-trie/src/database/meta.rs`.

Simplifications: a `HashMap` is a partial function; the depth arguments (`u8`, at most 32 in this code) are natural
numbers; `Vec::push` on the instruction list is list append.
-/

set_option autoImplicit false

namespace Verif

/-- `StemMeta`, `/repo/verkle-trie/src/database/meta.rs:7-16`. -/
@[ext] structure StemMeta (F G : Type) where
  c1 : G
  hashC1 : F
  c2 : G
  hashC2 : F
  stemComm : G
  hashStem : F
deriving DecidableEq

/-- `BranchMeta`, `/repo/verkle-trie/src/database/meta.rs:117-120`. -/
@[ext] structure BranchMeta (F G : Type) where
  comm : G
  hash : F
deriving DecidableEq

/-- `BranchMeta::zero`, `/repo/verkle-trie/src/database/meta.rs:136-142`. -/
def BranchMeta.zero (F G : Type) [Field F] [AddCommGroup G] : BranchMeta F G := ⟨0, 0⟩

/-- `BranchChild`, `/repo/verkle-trie/src/database/meta.rs:220-223`. -/
inductive BranchChild (F G : Type) where
  | stem (s : Stem)
  | branch (m : BranchMeta F G)

/-- `ReadOnlyHigherDb` and `WriteOnlyHigherDb`, `/repo/verkle-trie/src/database.rs:30-69`.  The reads of branch
metadata may panic (`memory_db.rs:51-54`). -/
class HigherDb (σ : Type) (F G : outParam Type) where
  getStemMeta : σ → Stem → Option (StemMeta F G)
  getBranchMeta : σ → Path → Res (Option (BranchMeta F G))
  getBranchChildren : σ → Path → List (Byte × BranchChild F G)
  getBranchChild : σ → Path → Byte → Option (BranchChild F G)
  getStemChildren : σ → Stem → List (Byte × Value)
  getLeaf : σ → Key → Option Value
  insertLeaf : σ → Key → Value → ℕ → σ × Option Value
  insertStem : σ → Stem → StemMeta F G → ℕ → σ × Option (StemMeta F G)
  addStemAsBranchChild : σ → Path → Stem → ℕ → σ × Option (BranchChild F G)
  insertBranch : σ → Path → BranchMeta F G → ℕ → σ × Option (BranchMeta F G)

/-- `MemoryDb`, `/repo/verkle-trie/src/database/memory_db.rs:6-11`. -/
@[ext] structure MemoryDb (F G : Type) where
  leaf : Key → Option Value
  stem : Stem → Option (StemMeta F G)
  branch : Path → Option (BranchChild F G)

namespace MemoryDb
variable {F G : Type}

/-- `MemoryDb::new`, `memory_db.rs:14-20`. -/
def new : MemoryDb F G := ⟨fun _ => none, fun _ => none, fun _ => none⟩

/-- `get_branch_meta`, `memory_db.rs:44-57`. -/
def getBranchMeta (db : MemoryDb F G) (p : Path) : Res (Option (BranchMeta F G)) :=
  match db.branch p with
  | none => .ok none
  | some (.stem _) => .error "expected branch meta data, however under this path there is a stem"
  | some (.branch m) => .ok (some m)

/-- The indices `0u8..=255` in ascending order, as iterated at `memory_db.rs:66,87`. -/
def allBytes : List Byte := List.finRange 256

/-- `get_branch_children`, `memory_db.rs:63-82`. -/
def getBranchChildren (db : MemoryDb F G) (p : Path) : List (Byte × BranchChild F G) :=
  allBytes.filterMap fun i => (db.branch (p ++ [i])).map fun c => (i, c)

/-- `get_stem_children`, `memory_db.rs:84-100`. -/
def getStemChildren (db : MemoryDb F G) (s : Stem) : List (Byte × Value) :=
  allBytes.filterMap fun i => (db.leaf (mkKey s i)).map fun v => (i, v)

/-- `get_branch_child`, `memory_db.rs:102-108`. -/
def getBranchChild (db : MemoryDb F G) (p : Path) (i : Byte) : Option (BranchChild F G) :=
  db.branch (p ++ [i])

/-- `insert_leaf`, `memory_db.rs:127-131`. -/
def insertLeaf (db : MemoryDb F G) (k : Key) (v : Value) (_depth : ℕ) : MemoryDb F G × Option Value :=
  ({ db with leaf := Function.update db.leaf k (some v) }, db.leaf k)

/-- `insert_stem`, `memory_db.rs:112-114`. -/
def insertStem (db : MemoryDb F G) (s : Stem) (m : StemMeta F G) (_depth : ℕ) :
    MemoryDb F G × Option (StemMeta F G) :=
  ({ db with stem := Function.update db.stem s (some m) }, db.stem s)

/-- `add_stem_as_branch_child`, `memory_db.rs:133-141`. -/
def addStemAsBranchChild (db : MemoryDb F G) (p : Path) (s : Stem) (_depth : ℕ) :
    MemoryDb F G × Option (BranchChild F G) :=
  ({ db with branch := Function.update db.branch p (some (.stem s)) }, db.branch p)

/-- `insert_branch`, `memory_db.rs:116-125`. -/
def insertBranch (db : MemoryDb F G) (p : Path) (m : BranchMeta F G) (_depth : ℕ) :
    MemoryDb F G × Option (BranchMeta F G) :=
  ({ db with branch := Function.update db.branch p (some (.branch m)) },
    match db.branch p with
    | some (.branch m') => some m'
    | _ => none)

instance : HigherDb (MemoryDb F G) F G where
  getStemMeta db s := db.stem s
  getBranchMeta := getBranchMeta
  getBranchChildren := getBranchChildren
  getBranchChild := getBranchChild
  getStemChildren := getStemChildren
  getLeaf db k := db.leaf k
  insertLeaf := insertLeaf
  insertStem := insertStem
  addStemAsBranchChild := addStemAsBranchChild
  insertBranch := insertBranch

end MemoryDb

namespace Trie

/-- `Ins`, `/repo/verkle-trie/src/trie.rs:67-127`.  `old_child_value` is kept as the branch metadata that
`child.branch().map(Meta::from)` produces (always `Some` on a branch child). -/
inductive Ins (F G : Type) where
  | updateLeaf (key : Key) (value : Value) (depth : ℕ) (branchId : Path) (branchChildIndex : Byte)
  | chainInsert (startingDepth : ℕ) (chainInsertPath : List Byte) (parent : Path) (childIndex : Byte)
      (oldLeafIndex : Byte) (newLeafKey : Key) (newLeafValue : Value) (newLeafIndex : Byte)
  | fallThrough (branchId : Path) (branchChildIndex : Byte) (child : Path)
      (oldChild : Option (BranchMeta F G)) (depth : ℕ)

/-- `LeafUpdated`, `trie.rs:493-497`. -/
structure LeafUpdated where
  oldVal : Option Value
  newValue : Value
  key : Key

/-- `StemUpdated`, `trie.rs:499-503`. -/
structure StemUpdated (F : Type) where
  oldVal : Option F
  newVal : F
  stem : Stem

/-- `path_difference`, `trie.rs:732-745`. -/
def pathDifference : List Byte → List Byte → List Byte × Option Byte × Option Byte
  | a :: as, b :: bs =>
    if a ≠ b then ([], some a, some b)
    else
      let r := pathDifference as bs
      (a :: r.1, r.2)
  | _, _ => ([], none, none)

/-- `expand_path`, `trie.rs:758-765`. -/
def expandPath (base rel : List Byte) : List Path :=
  (List.range rel.length).map fun idx => base ++ rel.take (idx + 1)

section
variable {σ F G : Type} [Field F] [AddCommGroup G] [SMul F G] [HigherDb σ F G]
open HigherDb

/-- The loop of `create_insert_instructions`, `trie.rs:165-292`.  `loopIndex` is the 1-based index, `cur` is
`current_node_index`, `rest` the key bytes not yet consumed, `acc` the instructions pushed so far. -/
def createGo (db : σ) (key : Key) (value : Value) :
    ℕ → Path → List Byte → List (Ins F G) → Res (List (Ins F G))
  | _, _, [], acc => .ok acc
  | loopIndex, cur, i :: rest, acc =>
    match getBranchChild db cur i with
    | none => .ok (acc ++ [.updateLeaf key value loopIndex cur i])
    | some (.branch m) =>
      let nodePath := cur ++ [i]
      createGo db key value (loopIndex + 1) nodePath rest
        (acc ++ [.fallThrough cur i nodePath (some m) loopIndex])
    | some (.stem s) =>
      let d := pathDifference s.1 key.stem.1
      if d.1.length = 31 then
        let leafVal := getLeaf db key
        let oldLeafVal : Value := leafVal.getD ⟨List.replicate 32 0, by simp⟩
        let present := leafVal.isSome
        if d.2.1 = none ∧ ¬ d.2.2 = none then .error "assert path_diff_new.is_none()"
        else if d.2.1 = none ∧ oldLeafVal = value ∧ present = true then .ok []
        else .ok (acc ++ [.updateLeaf key value loopIndex cur i])
      else
        if d.1.length < loopIndex - 1 then .error "slice start out of range"
        else do
          let relative := d.1.drop (loopIndex - 1)
          let pOld ← unwrap "path_diff_old" d.2.1
          let pNew ← unwrap "path_diff_new" d.2.2
          .ok (acc ++ [.chainInsert loopIndex relative cur i pOld key value pNew])

/-- `create_insert_instructions`, `trie.rs:157-295`. -/
def createInsertInstructions (db : σ) (key : Key) (value : Value) : Res (List (Ins F G)) :=
  createGo db key value 1 [] key.1 []

/-- `update_leaf_table`, `trie.rs:510-535`. -/
def updateLeafTable (db : σ) (key : Key) (value : Value) (depth : ℕ) : σ × Option LeafUpdated :=
  let r := insertLeaf db key value depth
  match r.2 with
  | some old => if old = value then (r.1, none) else (r.1, some ⟨some old, value, key⟩)
  | none => (r.1, some ⟨none, value, key⟩)

/-- The scalars of the previous value, `trie.rs:552-558`. -/
def oldHalves (F : Type) [Field F] : Option Value → F × F
  | some v => (frLe F (v.1.take 16) + twoPow128 F, frLe F (v.1.drop 16))
  | none => (0, 0)

/-- The previous stem record `(c_1, old_hash_c1, c_2, old_hash_c2, stem_comm, old_hash_stem_comm)`, or that of a fresh
stem, `trie.rs:589-616`. -/
def prevStem (C : Crypto F G) (db : σ) (stem : Stem) : G × F × G × F × G × Option F :=
  match getStemMeta db stem with
  | some m => (m.c1, m.hashC1, m.c2, m.hashC2, m.stemComm, some m.hashStem)
  | none =>
    let stemComm := C.g 0 + C.scalarMul (frLe F stem.1) 1
    (0, C.h 0, 0, C.h 0, stemComm, none)

/-- `update_stem_table`, `trie.rs:537-675`. -/
def updateStemTable (C : Crypto F G) (db : σ) (u : LeafUpdated) (depth : ℕ) : σ × StemUpdated F :=
  let newLow := u.newValue.1.take 16
  let newHigh := u.newValue.1.drop 16
  let old := oldHalves F u.oldVal
  let deltaLow := frLe F newLow + twoPow128 F - old.1
  let deltaHigh := frLe F newHigh - old.2
  let position := u.key.suffix
  let posMod128 := position.val % 128
  let lowIndex := 2 * posMod128
  let highIndex := lowIndex + 1
  let genLow := C.scalarMul deltaLow lowIndex
  let genHigh := C.scalarMul deltaHigh highIndex
  let stem := u.key.stem
  let prev := prevStem C db stem
  let c1 := prev.1
  let oldHashC1 := prev.2.1
  let c2 := prev.2.2.1
  let oldHashC2 := prev.2.2.2.1
  let stemComm := prev.2.2.2.2.1
  let oldHashStem := prev.2.2.2.2.2
  let upd : G × F × G × F × G :=
    if position.val < 128 then
      let c1' := c1 + genLow + genHigh
      let h1' := C.h c1'
      let pt := C.scalarMul (h1' - oldHashC1) 2
      (c1', h1', c2, oldHashC2, stemComm + pt)
    else
      let c2' := c2 + genLow + genHigh
      let h2' := C.h c2'
      let pt := C.scalarMul (h2' - oldHashC2) 3
      (c1, oldHashC1, c2', h2', stemComm + pt)
  let hashStem := C.h upd.2.2.2.2
  let r := insertStem db stem
    { c1 := upd.1, hashC1 := upd.2.1, c2 := upd.2.2.1, hashC2 := upd.2.2.2.1,
      stemComm := upd.2.2.2.2, hashStem := hashStem } depth
  (r.1, ⟨oldHashStem, hashStem, stem⟩)

/-- `update_branch_table`, `trie.rs:677-716`. -/
def updateBranchTable (C : Crypto F G) (db : σ) (u : StemUpdated F) (branchId : Path) (index : Byte)
    (depth : ℕ) : Res (σ × F) := do
  let delta := u.newVal - u.oldVal.getD 0
  let old ← getBranchMeta db branchId
  let old ← unwrap "update_branch_table: branch missing" old
  let comm := old.comm + C.scalarMul delta index.val
  let hash := C.h comm
  let r := insertBranch db branchId ⟨comm, hash⟩ depth
  let r2 := addStemAsBranchChild r.1 (branchId ++ [index]) u.stem depth
  .ok (r2.1, hash)

/-- The loop of `ChainInsert` creating the inner nodes above the bottom one, `trie.rs:443-463`. -/
def chainLoop (C : Crypto F G) : σ → List (Byte × Path) → F → σ × F
  | db, [], below => (db, below)
  | db, (childPath, parent) :: rest, below =>
    let comm := C.scalarMul below childPath.val
    let hash := C.h comm
    let r := insertBranch db parent ⟨comm, hash⟩ parent.length
    chainLoop C r.1 rest hash

/-- One iteration of `process_instructions`, `trie.rs:299-487`.  The Boolean is `true` when the function returns early
(`trie.rs:350-353`). -/
def processIns (C : Crypto F G) (db : σ) : Ins F G → Res (σ × Bool)
  | .fallThrough branchId idx child oldChild depth => do
    let new ← unwrap "child missing" (← getBranchMeta db child)
    let oldHash : F := match oldChild with
      | some m => m.hash
      | none => 0
    let delta := new.hash - oldHash
    let parent ← unwrap "parent missing" (← getBranchMeta db branchId)
    let comm := parent.comm + C.scalarMul delta idx.val
    .ok ((insertBranch db branchId ⟨comm, C.h comm⟩ depth).1, false)
  | .updateLeaf key value depth branchId idx =>
    match updateLeafTable db key value depth with
    | (db1, none) => .ok (db1, true)
    | (db1, some lu) => do
      let r := updateStemTable C db1 lu depth
      let r2 ← updateBranchTable C r.1 r.2 branchId idx depth
      .ok (r2.1, false)
  | .chainInsert startingDepth chain parent childIndex oldLeafIndex newKey newValue newLeafIndex => do
    if chain = [] then .error "assert !chain_insert_path.is_empty()" else
    let paths := (expandPath parent chain).reverse
    let oldChild ← unwrap "old child missing" (getBranchChild db parent childIndex)
    let oldStem ← match oldChild with
      | .stem s => (.ok s : Res Stem)
      | .branch _ => .error "old child is not a stem"
    let bottom ← unwrap "no bottom path" paths.head?
    let bdepth := bottom.length
    let db1 := (insertBranch db bottom (BranchMeta.zero F G) bdepth).1
    let lt := updateLeafTable db1 newKey newValue bdepth
    let lu ← unwrap "leaf not updated" lt.2
    let st := updateStemTable C lt.1 lu bdepth
    let bt ← updateBranchTable C st.1 st.2 bottom newLeafIndex bdepth
    let sm ← unwrap "old stem missing" (getStemMeta bt.1 oldStem)
    let bt2 ← updateBranchTable C bt.1 ⟨none, sm.hashStem, oldStem⟩ bottom oldLeafIndex bdepth
    let cl := chainLoop C bt2.1 (chain.reverse.zip paths.tail) bt2.2
    let delta := cl.2 - sm.hashStem
    let top ← unwrap "top parent missing" (← getBranchMeta cl.1 parent)
    let comm := top.comm + C.scalarMul delta childIndex.val
    .ok ((insertBranch cl.1 parent ⟨comm, C.h comm⟩ startingDepth).1, false)

/-- `process_instructions` over the already reversed list, `trie.rs:297-489`. -/
def processRev (C : Crypto F G) : σ → List (Ins F G) → Res σ
  | db, [] => .ok db
  | db, i :: rest => do
    let r ← processIns C db i
    if r.2 then .ok r.1 else processRev C r.1 rest

/-- `process_instructions`, `trie.rs:297-489`. -/
def processInstructions (C : Crypto F G) (db : σ) (ins : List (Ins F G)) : Res σ :=
  processRev C db ins.reverse

/-- One iteration of `insert`, `trie.rs:20-23`. -/
def insertSingle (C : Crypto F G) (db : σ) (kv : Key × Value) : Res σ := do
  let ins ← createInsertInstructions db kv.1 kv.2
  processInstructions C db ins

/-- `TrieTrait::insert`, `trie.rs:19-24`. -/
def insert (C : Crypto F G) : σ → List (Key × Value) → Res σ
  | db, [] => .ok db
  | db, kv :: rest => do
    let db' ← insertSingle C db kv
    insert C db' rest

/-- `Trie::new`, `trie.rs:131-149`. -/
def new (db : σ) : Res σ := do
  let root ← getBranchMeta db []
  match root with
  | some _ => .ok db
  | none =>
    let r := insertBranch db [] (BranchMeta.zero F G) 0
    match r.2 with
    | none => .ok r.1
    | some _ => .error "assert old_val.is_none()"

/-- `TrieTrait::get`, `trie.rs:26-28`. -/
def get (db : σ) (k : Key) : Option Value := getLeaf db k

/-- `TrieTrait::root_hash`, `trie.rs:30-38`. -/
def rootHash (db : σ) : Res F := do
  let m ← unwrap "root missing" (← getBranchMeta db [])
  .ok m.hash

/-- `TrieTrait::root_commitment`, `trie.rs:48-52`. -/
def rootCommitment (db : σ) : Res G := do
  let m ← unwrap "root missing" (← getBranchMeta db [])
  .ok m.comm

end

end Trie
end Verif
