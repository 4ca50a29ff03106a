import Verif.Proof.Model

/-!
# The stateless updater

`/repo/verkle-trie/src/proof/stateless_updater.rs`; line numbers below refer to that file unless stated otherwise.

A `HashSet<[u8; 31]>` is the list of its elements in insertion order.  Its iteration order is not specified by the standard
library, so the loop over it takes the elements in an order `ord prefix set` that is a parameter of the model.  `usize` has
64 bits.  A result is a panic (`Except.error`), an `Err(_)` or an `Ok(_)`.
-/

set_option autoImplicit false

namespace Verif.Proof
open BOrd

/-- `VerificationError`, `/repo/verkle-trie/src/errors.rs:14-27`. -/
inductive VerificationError
  | invalidProof
  | unexpectedUpdatedLength (values updated : ℕ)
  | mismatchedKeyLength
  | duplicateKeys
  | oldValueIsPopulated
  | emptyPrefix
deriving DecidableEq

/-- `!n` for `n : usize`: the bitwise complement, lines 41 and 47. -/
def usizeNot (n : ℕ) : ℕ := 2 ^ 64 - 1 - n

/-- `SuffixUpdate`, line 72: from suffixes to old and new values. -/
abbrev SuffixUpdate := BMap Byte (Option Value × Value)

/-- `updated_stems`, lines 74-96. -/
def collectUpdates : List ((Key × Option Value) × Option Value) → BMap Stem SuffixUpdate → BMap Stem SuffixUpdate
  | [], us => us
  | (_, none) :: r, us => collectUpdates r us
  | ((k, old), some v) :: r, us =>
    collectUpdates r (BMap.insert k.stem (BMap.insert k.suffix (old, v) ((BMap.get k.stem us).getD [])) us)

/-- `entry(prefix).or_default().insert(stem)`, lines 105-108 and 190-193. -/
def addStem (p : Path) (s : Stem) (bp : BMap Path (List Stem)) : BMap Path (List Stem) :=
  let l := (BMap.get p bp).getD []
  BMap.insert p (if s ∈ l then l else l ++ [s]) bp

section
variable {F G : Type} [Field F] [AddCommGroup G] [Module F G]

/-- The contribution of one suffix to `c_1` or `c_2`, lines 136-151 and 213-228. -/
def addSuffix (C : Crypto F G) (low high : F) (suffix : Byte) (c : G × G) : G × G :=
  let lowIndex := 2 * (suffix.val % 128)
  let highIndex := lowIndex + 1
  let d := C.scalarMul low lowIndex + C.scalarMul high highIndex
  if suffix.val < 128 then (c.1 + d, c.2) else (c.1, c.2 + d)

/-- `c_1_delta_update` and `c_2_delta_update`, lines 113-152; `valueHalves` is the `match` of lines 122-128. -/
def suffixDeltas (C : Crypto F G) (u : SuffixUpdate) : G × G :=
  u.foldl (fun c e =>
    let old := valueHalves F e.2.1
    let new := valueHalves F (some e.2.2)
    addSuffix C (new.1 - old.1) (new.2 - old.2) e.1 c) (0, 0)

/-- `hash_c1_delta` and `hash_c2_delta`, lines 154-175. -/
def hashDelta [DecidableEq G] (C : Crypto F G) (comms : BMap Path G) (path : Path) (delta : G) : Res F :=
  if delta = 0 then .ok 0
  else do
    let old ← unwrap "no entry found for key" (BMap.get path comms)
    .ok (C.h (old + delta) - C.h old)

/-- The new commitment of a stem that is in the trie, lines 111-183. -/
def presentComm [DecidableEq G] (C : Crypto F G) (comms : BMap Path G) (extPath : Path) (u : SuffixUpdate) : Res G := do
  let d := suffixDeltas C u
  let h1 ← hashDelta C comms (extPath ++ [2]) d.1
  let h2 ← hashDelta C comms (extPath ++ [3]) d.2
  let upd := (0 : G) + C.scalarMul h1 2 + C.scalarMul h2 3
  let old ← unwrap "no entry found for key" (BMap.get extPath comms)
  .ok (old + upd)

/-- `c_1` and `c_2` of a stem that is not in the trie, lines 199-229; `none` is `Err(OldValueIsPopulated)`. -/
def newSuffixes (C : Crypto F G) : SuffixUpdate → G × G → Option (G × G)
  | [], c => some c
  | (suffix, old, new) :: r, c =>
    if old.isSome then none
    else newSuffixes C r (addSuffix C (valueHalves F (some new)).1 (valueHalves F (some new)).2 suffix c)

/-- `Committer::commit_sparse`, `/repo/ipa-multipoint/src/committer.rs:14-22`. -/
def sparseCommit (C : Crypto F G) (l : List (F × ℕ)) : G := l.foldl (fun r x => r + C.scalarMul x.1 x.2) 0

/-- The commitment of a stem that is not in the trie, lines 231-240. -/
def newStemComm (C : Crypto F G) (stem : Stem) (c : G × G) : G :=
  sparseCommit C [(1, 0), (frLe F stem.1, 1), (C.h c.1, 2), (C.h c.2, 3)]

/-- `updated_stems_by_prefix` and `updated_commitents_by_stem`, lines 99-100. -/
structure StemState (F G : Type) where
  byPrefix : BMap Path (List Stem)
  byStem : BMap Stem (G × F)

/-- One iteration of the loop over the updated stems, lines 102-247. -/
def stemStep [DecidableEq G] (C : Crypto F G) (hint : UpdateHint G) (stem : Stem) (u : SuffixUpdate)
    (st : StemState F G) : Res (Except VerificationError (StemState F G)) := do
  let e ← unwrap "no entry found for key" (BMap.get stem hint.depthsAndExt)
  let depth := e.2.val
  if 31 < depth then .error "range end index out of range"
  else
    let p := stem.1.take depth
    let bp := addStem p stem st.byPrefix
    match e.1 with
    | .present => do
      let c ← presentComm C hint.commsByPath p u
      .ok (.ok ⟨bp, BMap.insert stem (c, C.h c) st.byStem⟩)
    | .differentStem => do
      let other ← unwrap "no entry found for key" (BMap.get p hint.otherStems)
      match newSuffixes C u (0, 0) with
      | none => .ok (.error .oldValueIsPopulated)
      | some c =>
        let sc := newStemComm C stem c
        .ok (.ok ⟨addStem p other bp, BMap.insert stem (sc, C.h sc) st.byStem⟩)
    | .none => .ok (.ok ⟨bp, st.byStem⟩)

/-- The loop over the updated stems, lines 102-247. -/
def stemLoop [DecidableEq G] (C : Crypto F G) (hint : UpdateHint G) :
    BMap Stem SuffixUpdate → StemState F G → Res (Except VerificationError (StemState F G))
  | [], st => .ok (.ok st)
  | (s, u) :: r, st => do
    match ← stemStep C hint s u st with
    | .error e => .ok (.error e)
    | .ok st' => stemLoop C hint r st'

/-! ### `build_subtree` -/

/-- `Node`, lines 333-346. -/
inductive SubNode (G : Type)
  | inner (commitment : G)
  | stem (id : Stem) (commitment : G)
deriving DecidableEq

/-- `Node::inner`, lines 355-366. -/
def SubNode.getInner : SubNode G → Res G
  | .inner c => .ok c
  | .stem _ _ => .error "found stem"

/-- The walk from the root, lines 377-389.  The first argument is `stem[depth..]`, so that reading `stem[depth]` panics when
it is empty; the result also has the remaining bytes. -/
def descend (tree : BMap Path (SubNode G)) : List Byte → Path → SubNode G → Res (List Byte × Path × SubNode G)
  | rest, path, .stem id c => .ok (rest, path, .stem id c)
  | [], _, .inner _ => .error "index out of bounds"
  | i :: rest, path, .inner c =>
    match BMap.get (path ++ [i]) tree with
    | some n => descend tree rest (path ++ [i]) n
    | none => .ok (rest, path ++ [i], .inner c)

/-- The loop that adds inner nodes for the indices shared by the old and the new stem, lines 418-426; the first two arguments
are `old_stem.id[depth..]` and `stem[depth..]`.  Returns the tree, the path and the two indices that differ. -/
def splitLoop : List Byte → List Byte → Path → BMap Path (SubNode G) → Res (BMap Path (SubNode G) × Path × Byte × Byte)
  | a :: as, b :: bs, path, tree =>
    if a = b then splitLoop as bs (path ++ [b]) (BMap.insert (path ++ [b]) (.inner 0) tree)
    else .ok (tree, path, a, b)
  | _, _, _, _ => .error "index out of bounds"

/-- The change of a parent on behalf of one child, lines 463-470, 475-482 and 489-496: returns the tree and the new values of
`child_old_value` and `child_new_value`. -/
def bump (C : Crypto F G) (tree : BMap Path (SubNode G)) (path : Path) (childIndex : Byte) (old new : F) :
    Res (BMap Path (SubNode G) × F × F) := do
  let n ← unwrap "called `Option::unwrap()` on a `None` value" (BMap.get path tree)
  let c ← n.getInner
  let c' := c + C.scalarMul (new - old) childIndex.val
  .ok (BMap.insert path (.inner c') tree, C.h c, C.h c')

/-- The loop over the chain of new inner nodes, lines 460-471.  The path is given reversed, so that `pop` removes its head;
`stop` is the reversed `stem_to_innernode_path`. -/
def chainClimb (C : Crypto F G) (stop : List Byte) : List Byte → BMap Path (SubNode G) → F → F →
    Res (List Byte × BMap Path (SubNode G) × F × F)
  | [], tree, old, new =>
    if stop = [] then .ok ([], tree, old, new) else .error "called `Option::unwrap()` on a `None` value"
  | i :: rp, tree, old, new =>
    if i :: rp = stop then .ok (i :: rp, tree, old, new)
    else do
      let r ← bump C tree rp.reverse i old new
      chainClimb C stop rp r.1 r.2.1 r.2.2

/-- The loop up to the root of the subtree, lines 488-497; the path is reversed. -/
def climb (C : Crypto F G) : List Byte → BMap Path (SubNode G) → F → F → Res (BMap Path (SubNode G))
  | [], tree, _, _ => .ok tree
  | i :: rp, tree, old, new => do
    let r ← bump C tree rp.reverse i old new
    climb C rp r.1 r.2.1 r.2.2

/-- One iteration of the loop over the elements, lines 369-498. -/
def subtreeStep (C : Crypto F G) (pre : Path) (stem : Stem) (commitment : G) (tree : BMap Path (SubNode G)) :
    Res (BMap Path (SubNode G)) :=
  if 31 < pre.length then .error "range start index out of range"
  else do
    let root ← unwrap "no entry found for key" (BMap.get [] tree)
    let w ← descend tree (stem.1.drop pre.length) [] root
    match w with
    | (_, path, .inner _) =>
      climb C path.reverse (BMap.insert path (.stem stem commitment) tree) 0 (C.h commitment)
    | (rest, path, .stem oldId oldComm) => do
      let tree := BMap.insert path (.inner 0) tree
      let s ← splitLoop (oldId.1.drop (31 - rest.length)) rest path tree
      let tree := BMap.insert (s.2.1 ++ [s.2.2.1]) (.stem oldId oldComm) s.1
      let tree := BMap.insert (s.2.1 ++ [s.2.2.2]) (.stem stem commitment) tree
      let n ← unwrap "called `Option::unwrap()` on a `None` value" (BMap.get s.2.1 tree)
      let c ← n.getInner
      let comm := c + (C.scalarMul (C.h oldComm) s.2.2.1.val + C.scalarMul (C.h commitment) s.2.2.2.val)
      let tree := BMap.insert s.2.1 (.inner comm) tree
      let r ← chainClimb C path.reverse s.2.1.reverse tree 0 (C.h comm)
      match r.1 with
      | [] => .error "called `Option::unwrap()` on a `None` value"
      | i :: rp => do
        let r' ← bump C r.2.1 rp.reverse i (C.h oldComm) r.2.2.2
        climb C rp r'.1 r'.2.1 r'.2.2

/-- The loop over the elements, lines 369-498. -/
def subtreeLoop (C : Crypto F G) (pre : Path) : List (Stem × G) → BMap Path (SubNode G) → Res (BMap Path (SubNode G))
  | [], tree => .ok tree
  | (s, c) :: r, tree => do
    let tree ← subtreeStep C pre s c tree
    subtreeLoop C pre r tree

/-- `build_subtree`, lines 318-501. -/
def buildSubtree (C : Crypto F G) (pre : Path) (elements : List (Stem × G)) : Res G := do
  let tree ← subtreeLoop C pre elements (BMap.insert [] (.inner 0) [])
  let n ← unwrap "called `Option::unwrap()` on a `None` value" (BMap.get [] tree)
  n.getInner

/-! ### `SparseVerkleTree` -/

/-- `SparseVerkleTree`, lines 503-506. -/
structure SparseTree (G : Type) where
  root : G
  updated : BMap Path G

/-- The loop of `update_prefix`, lines 534-555; the path is reversed. -/
def updateLoop (C : Crypto F G) (comms : BMap Path G) : List Byte → F → BMap Path G → Option G →
    Res (BMap Path G × Option G)
  | [], _, up, cur => .ok (up, cur)
  | i :: rp, delta, up, _ => do
    let old ← match BMap.get rp.reverse up with
      | some c => .ok c
      | none => unwrap "no entry found for key" (BMap.get rp.reverse comms)
    let new := old + C.scalarMul delta i.val
    updateLoop C comms rp (C.h new - C.h old) (BMap.insert rp.reverse new up) (some new)

/-- `SparseVerkleTree::update_prefix`, lines 516-560. -/
def updatePrefix (C : Crypto F G) (comms : BMap Path G) (p : Path) (old new : F) (t : SparseTree G) :
    Res (Except VerificationError (SparseTree G)) :=
  if p = [] then .ok (.error .emptyPrefix)
  else do
    let r ← updateLoop C comms p.reverse (new - old) t.updated none
    let root ← unwrap "called `Option::unwrap()` on a `None` value" r.2
    .ok (.ok ⟨root, r.1⟩)

/-- The commitments of the stems below a prefix, lines 279-287. -/
def elementsOf (comms : BMap Path G) (byStem : BMap Stem (G × F)) (p : Path) (stems : List Stem) : Res (List (Stem × G)) :=
  stems.mapM fun s => do
    match BMap.get s byStem with
    | some c => .ok (s, c.1)
    | none => do
      let c ← unwrap "no entry found for key" (BMap.get p comms)
      .ok (s, c)

/-- The new hash below a prefix, lines 259-261 and 279-289. -/
def prefixHash (C : Crypto F G) (comms : BMap Path G) (byStem : BMap Stem (G × F)) (ord : Path → List Stem → List Stem)
    (p : Path) (stems : List Stem) : Res F := do
  if stems.length = 1 then
    let s ← unwrap "called `Option::unwrap()` on a `None` value" (ord p stems).head?
    let c ← unwrap "no entry found for key" (BMap.get s byStem)
    .ok c.2
  else
    let es ← elementsOf comms byStem p (ord p stems)
    let c ← buildSubtree C p es
    .ok (C.h c)

/-- The loop over the prefixes, lines 251-300. -/
def prefixLoop (C : Crypto F G) (comms : BMap Path G) (byStem : BMap Stem (G × F)) (ord : Path → List Stem → List Stem) :
    BMap Path (List Stem) → SparseTree G → Res (SparseTree G)
  | [], t => .ok t
  | (p, stems) :: r, t => do
    let old := match BMap.get p comms with
      | some c => C.h c
      | none => 0
    let new ← prefixHash C comms byStem ord p stems
    match ← updatePrefix C comms p old new t with
    | .error _ => .error "called `Result::unwrap()` on an `Err` value"
    | .ok t' => prefixLoop C comms byStem ord r t'

/-- `update_root`, lines 33-304. -/
def updateRoot [DecidableEq G] (C : Crypto F G) (ord : Path → List Stem → List Stem) (hint : UpdateHint G)
    (keys : List Key) (values updated : List (Option Value)) (root : G) : Res (Except VerificationError G) :=
  if usizeNot values.length = updated.length then
    .ok (.error (.unexpectedUpdatedLength values.length updated.length))
  else if usizeNot keys.length = updated.length then .ok (.error .mismatchedKeyLength)
  else if ¬ keys.Nodup then .ok (.error .duplicateKeys)
  else do
    match ← stemLoop C hint (collectUpdates ((keys.zip values).zip updated) []) ⟨[], []⟩ with
    | .error e => .ok (.error e)
    | .ok st => do
      let t ← prefixLoop C hint.commsByPath st.byStem ord st.byPrefix ⟨root, []⟩
      .ok (.ok t.root)

/-- `verify_and_update`, lines 12-31. -/
def verifyAndUpdate [DecidableEq G] (C : Crypto F G) (O : Opener F G) (ord : Path → List Stem → List Stem)
    (proof : VerkleProof G O.Pf) (root : G) (keys : List Key) (values updated : List (Option Value)) :
    Res (Except VerificationError G) := do
  let r ← check C O proof keys values root
  if r.1 = false then .ok (.error .invalidProof)
  else do
    let hint ← unwrap "update hint should be `Some` if the proof passes verification" r.2
    updateRoot C ord hint keys values updated root

end
end Verif.Proof
