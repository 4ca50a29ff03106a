import Verif.BTree
import Verif.Trie.Model

/-!
# Model of proof creation and of the reconstruction of the verifier's queries

Sources: `/repo/verkle-trie/src/proof.rs`, `/repo/verkle-trie/src/proof/key_path_finder.rs`,
`/repo/verkle-trie/src/proof/opening_data.rs`, `/repo/verkle-trie/src/proof/prover.rs`,
`/repo/verkle-trie/src/proof/verifier.rs`.

`u8` depths are `Byte`.  The opening argument (`MultiPoint::open`, `MultiPointProof::check`) is a parameter here
(`Opener`); it is modelled in `Verif.Ipa`.
-/

set_option autoImplicit false

namespace Verif

/-- `Meta`, `/repo/verkle-trie/src/database/meta.rs:178-182`. -/
inductive Meta (F G : Type) where
  | stem (m : StemMeta F G)
  | branch (m : BranchMeta F G)
deriving DecidableEq

namespace Proof

/-- `ExtPresent`, `proof.rs:26-39`. -/
inductive ExtPresent where
  | none
  | differentStem
  | present
deriving DecidableEq, Repr

/-- `VerificationHint`, `proof.rs:42-50`. -/
structure VerificationHint where
  depths : List Byte
  extensionPresent : List ExtPresent
  diffStemNoProof : BSet Stem
deriving DecidableEq

/-- `VerkleProof`, `proof.rs:173-181`; `Pf` is the type of multipoint opening proofs. -/
structure VerkleProof (G Pf : Type) where
  hint : VerificationHint
  comms : List G
  proof : Pf

/-- `ProverQuery`, `/repo/ipa-multipoint/src/multiproof.rs:17-24`. -/
structure ProverQuery (F G : Type) where
  commitment : G
  poly : List F
  point : ℕ
  result : F

/-- `VerifierQuery`, `multiproof.rs:35-39`. -/
structure VerifierQuery (F G : Type) where
  commitment : G
  point : F
  result : F
deriving DecidableEq

/-- `From<ProverQuery> for VerifierQuery`, `multiproof.rs:26-34`. -/
def ProverQuery.toVerifier {F G : Type} [Field F] (q : ProverQuery F G) : VerifierQuery F G :=
  ⟨q.commitment, (q.point : F), q.result⟩

/-- `KeyState` and `KeyNotFound`, `key_path_finder.rs:9-44`. -/
inductive KeyState where
  | found (v : Value)
  | differentStem (s : Stem)
  | stemFound
  | empty
deriving DecidableEq

/-- `KeyState::different_stem`, `key_path_finder.rs:17-22`. -/
def KeyState.otherStem : KeyState → Option Stem
  | .differentStem s => some s
  | _ => none

/-- `KeyState::value`, `key_path_finder.rs:23-28`. -/
def KeyState.value : KeyState → Option Value
  | .found v => some v
  | _ => none

/-- `KeyPath`, `key_path_finder.rs:46-52`. -/
structure KeyPath (F G : Type) where
  nodes : List (Path × Byte × Meta F G)
  depth : Byte
  keyState : KeyState

/-- `x as u8`. -/
def asU8 (n : ℕ) : Byte := Fin.ofNat 256 n

section
variable {σ F G : Type} [Field F] [AddCommGroup G] [Module F G] [HigherDb σ F G]
open HigherDb

/-- The loop of `find_key_path`, `key_path_finder.rs:72-147`. -/
def findGo (db : σ) (key : Key) : List Byte → Path → BranchMeta F G → List (Path × Byte × Meta F G) → Res (KeyPath F G)
  | [], _, _, _ => .error "unreachable"
  | i :: rest, cur, bm, nodes0 =>
    let nodes := nodes0 ++ [(cur, i, .branch bm)]
    match getBranchChild db cur i with
    | none => .ok ⟨nodes, asU8 nodes.length, .empty⟩
    | some (.branch m) => findGo db key rest (cur ++ [i]) m nodes
    | some (.stem s) => do
      let sm ← unwrap "stem meta missing" (getStemMeta db s)
      let nodes' := nodes ++ [(cur ++ [i], key.suffix, .stem sm)]
      match getLeaf db key with
      | some v => if s = key.stem then .ok ⟨nodes', asU8 nodes'.length, .found v⟩ else .error "assert stem_id == key[0..31]"
      | none =>
        if s = key.stem then .ok ⟨nodes', asU8 nodes'.length, .stemFound⟩
        else .ok ⟨nodes', asU8 nodes'.length, .differentStem s⟩

/-- `find_key_path`, `key_path_finder.rs:64-148`. -/
def findKeyPath (db : σ) (key : Key) : Res (KeyPath F G) := do
  let bm ← unwrap "root missing" (← getBranchMeta db [])
  findGo db key key.1 [] bm []

/-- `ExtOpeningData`, `opening_data.rs:194-197`. -/
structure ExtOpening (F G : Type) where
  stem : Stem
  meta_ : Meta F G
deriving DecidableEq

/-- `Openings`, `SuffixOpeningData`, `BranchOpeningData`, `opening_data.rs:259-267,332-336,368-372,321-326,357-361`. -/
inductive Openings (F G : Type) where
  | suffix (ext : ExtOpening F G) (sfx : BSet (Byte × Option Value))
  | branch (meta_ : Meta F G) (children : BSet Byte)
  | extension (ext : ExtOpening F G)

/-- `OpeningData`, `opening_data.rs:14-20`. -/
structure OpeningData (F G : Type) where
  openings : BMap Path (Openings F G)
  extByStem : BMap Stem ExtPresent
  depthByStem : BMap Stem Byte

/-- `insert_branch_opening`, `opening_data.rs:26-40`. -/
def insertBranchOpening (o : BMap Path (Openings F G)) (path : Path) (child : Byte) (m : Meta F G) :
    Res (BMap Path (Openings F G)) :=
  match BMap.get path o with
  | none => .ok (BMap.insert path (.branch m (BSet.insert child [])) o)
  | some (.branch m' ch) => .ok (BMap.insert path (.branch m' (BSet.insert child ch)) o)
  | some _ => .error "unexpected enum variant"

/-- The loop over the branch nodes of a path, `opening_data.rs:121-125`. -/
def insertBranchOpenings : BMap Path (Openings F G) → List (Path × Byte × Meta F G) → Res (BMap Path (Openings F G))
  | o, [] => .ok o
  | o, (p, z, .branch m) :: rest => do
    let o' ← insertBranchOpening o p z (.branch m)
    insertBranchOpenings o' rest
  | o, (_, _, .stem _) :: rest => insertBranchOpenings o rest

/-- `insert_ext_opening`, `opening_data.rs:41-48`. -/
def insertExtOpening (o : BMap Path (Openings F G)) (path : Path) (e : ExtOpening F G) : BMap Path (Openings F G) :=
  match BMap.get path o with
  | none => BMap.insert path (.extension e) o
  | some _ => o

/-- `insert_suffix_opening`, `opening_data.rs:49-89`. -/
def insertSuffixOpening [DecidableEq F] [DecidableEq G] (o : BMap Path (Openings F G)) (path : Path) (e : ExtOpening F G)
    (sv : Byte × Option Value) : Res (BMap Path (Openings F G)) :=
  match BMap.get path o with
  | some (.suffix e' s) =>
    if e' = e then .ok (BMap.insert path (.suffix e' (BSet.insert sv s)) o) else .error "assert_eq so.ext ext_open"
  | some (.extension e') =>
    if e' = e then .ok (BMap.insert path (.suffix e (BSet.insert sv [])) o) else .error "assert_eq eo ext_open"
  | some (.branch _ _) => .error "unreachable"
  | none => .ok (BMap.insert path (.suffix e (BSet.insert sv [])) o)

/-- The extension status of a key state, `opening_data.rs:109-116`. -/
def KeyState.ext : KeyState → ExtPresent
  | .found _ => .present
  | .differentStem _ => .differentStem
  | .stemFound => .present
  | .empty => .none

/-- One iteration of `collect_opening_data`, `opening_data.rs:96-188`. -/
def collectOne [DecidableEq F] [DecidableEq G] (db : σ) (od : OpeningData F G) (key : Key) : Res (OpeningData F G) := do
  let kp ← findKeyPath db key
  let stem := key.stem
  let last ← unwrap "empty node path" kp.nodes.getLast?
  let o ← insertBranchOpenings od.openings kp.nodes
  match kp.keyState with
  | .empty => .ok ⟨o, BMap.insert stem .none od.extByStem, BMap.insert stem kp.depth od.depthByStem⟩
  | st =>
    match last.2.2 with
    | .branch _ => .error "assert last_node_meta.is_stem_meta()"
    | .stem _ =>
      if kp.depth.val = 0 then .error "attempt to subtract with overflow"
      else
        let dbs := BMap.insert stem (asU8 (kp.depth.val - 1)) od.depthByStem
        let ebs := BMap.insert stem st.ext od.extByStem
        match st.otherStem with
        | some s => .ok ⟨insertExtOpening o last.1 ⟨s, last.2.2⟩, ebs, dbs⟩
        | none => do
          let o' ← insertSuffixOpening o last.1 ⟨stem, last.2.2⟩ (key.suffix, st.value)
          .ok ⟨o', ebs, dbs⟩

/-- `collect_opening_data`, `opening_data.rs:92-189`. -/
def collectOpeningData [DecidableEq F] [DecidableEq G] (db : σ) : OpeningData F G → List Key → Res (OpeningData F G)
  | od, [] => .ok od
  | od, k :: ks => do
    let od' ← collectOne db od k
    collectOpeningData db od' ks

/-- `Meta::into_stem`, `meta.rs:184-189`. -/
def intoStem : Meta F G → Res (StemMeta F G)
  | .stem m => .ok m
  | .branch _ => .error "item is a branch and not a stem"

/-- `Meta::into_branch`, `meta.rs:202-207`. -/
def intoBranch : Meta F G → Res (BranchMeta F G)
  | .branch m => .ok m
  | .stem _ => .error "item is a stem and not a branch"

/-- `ExtOpeningData::open_query`, `opening_data.rs:201-252`. -/
def extOpenQuery (e : ExtOpening F G) (c1 c2 : Bool) : Res (List (ProverQuery F G)) := do
  let sm ← intoStem e.meta_
  let f : List F := [1, frLe F e.stem.1, sm.hashC1, sm.hashC2]
  .ok ([⟨sm.stemComm, f, 0, 1⟩, ⟨sm.stemComm, f, 1, frLe F e.stem.1⟩]
    ++ (if c1 then [⟨sm.stemComm, f, 2, sm.hashC1⟩] else [])
    ++ (if c2 then [⟨sm.stemComm, f, 3, sm.hashC2⟩] else []))

/-- The two scalars of an optional value, `opening_data.rs:294-300` and `verifier.rs:91-98`. -/
def valueHalves (F : Type) [Field F] : Option Value → F × F
  | some v => (frLe F (v.1.take 16) + twoPow128 F, frLe F (v.1.drop 16))
  | none => (0, 0)

/-- The two scalars of a leaf as read for the polynomial, `opening_data.rs:422-434`. -/
def leafScalars (F : Type) [Field F] : Option Value → List F
  | some v => [frLe F (v.1.take 16) + twoPow128 F, frLe F (v.1.drop 16)]
  | none => [frLe F (List.replicate 16 0), frLe F (List.replicate 16 0)]

/-- `get_half_of_stem_children_children_hashes`, `opening_data.rs:405-442`. -/
def halfOfStem (db : σ) (s : Stem) (start : ℕ) : List F :=
  (List.range 128).flatMap fun i => leafScalars F (getLeaf db (mkKey s (asU8 (start + i))))

/-- Queries for one suffix, `opening_data.rs:290-326`. -/
def suffixQueries (db : σ) (stem : Stem) (sm : StemMeta F G) (sv : Byte × Option Value) : List (ProverQuery F G) :=
  let lower := 2 * (sv.1.val % 128)
  let upper := lower + 1
  let h := valueHalves F sv.2
  let offset := if sv.1.val < 128 then 0 else 128
  let f := halfOfStem db stem offset
  let c := if sv.1.val < 128 then sm.c1 else sm.c2
  [⟨c, f, lower, h.1⟩, ⟨c, f, upper, h.2⟩]

/-- `SuffixOpeningData::open_query`, `opening_data.rs:272-329`. -/
def suffixOpenQuery (db : σ) (e : ExtOpening F G) (sfx : BSet (Byte × Option Value)) : Res (List (ProverQuery F G)) := do
  let c1 := sfx.any fun sv => decide (sv.1.val < 128)
  let c2 := sfx.any fun sv => !decide (sv.1.val < 128)
  let ext ← extOpenQuery e c1 c2
  let sm ← intoStem e.meta_
  .ok (ext ++ sfx.flatMap (suffixQueries db e.stem sm))

/-- The hash of one child, `opening_data.rs:391-400`. -/
def childHashOf (db : σ) (path : Path) (i : Byte) : Res F :=
  match getBranchChild db path i with
  | some (.stem s) => do
    let sm ← unwrap "stem meta missing" (getStemMeta db s)
    .ok sm.hashStem
  | some (.branch m) => .ok m.hash
  | none => .ok 0

/-- `get_branch_children_hashes`, `opening_data.rs:385-404`. -/
def branchChildrenHashes (db : σ) (path : Path) : Res (List F) := (List.finRange 256).mapM (childHashOf db path)

/-- `BranchOpeningData::open_query`, `opening_data.rs:339-365`. -/
def branchOpenQuery (db : σ) (path : Path) (m : Meta F G) (children : BSet Byte) : Res (List (ProverQuery F G)) := do
  let bm ← intoBranch m
  let f ← branchChildrenHashes db path
  children.mapM fun i => do
    let y ← unwrap "polynomial index" f[i.val]?
    .ok ⟨bm.comm, f, i.val, y⟩

/-- Queries of one opening, `prover.rs:78-85`. -/
def openQuery (db : σ) : Path × Openings F G → Res (List (ProverQuery F G))
  | (_, .suffix e s) => suffixOpenQuery db e s
  | (p, .branch m ch) => branchOpenQuery db p m ch
  | (_, .extension e) => extOpenQuery e false false

/-- The loop over the openings, `prover.rs:77-86`. -/
def openAll (db : σ) : List (Path × Openings F G) → Res (List (ProverQuery F G))
  | [] => .ok []
  | o :: rest => do
    let q ← openQuery db o
    let qs ← openAll db rest
    .ok (q ++ qs)

/-- Stems opened only at their extension, `prover.rs:76,82`. -/
def extensionStems : List (Path × Openings F G) → BSet Stem → BSet Stem
  | [], s => s
  | (_, .extension e) :: rest, s => extensionStems rest (BSet.insert e.stem s)
  | _ :: rest, s => extensionStems rest s

/-- `create_prover_queries`, `prover.rs:59-100`. -/
def createProverQueries [DecidableEq F] [DecidableEq G] (db : σ) (keys : List Key) :
    Res (List (ProverQuery F G) × VerificationHint) :=
  if keys = [] then .error "cannot create a proof without keys"
  else do
    let od ← collectOpeningData db ⟨[], [], []⟩ keys
    let qs ← openAll db od.openings
    .ok (qs, ⟨od.depthByStem.map Prod.snd, od.extByStem.map Prod.snd, extensionStems od.openings []⟩)

/-- `Itertools::dedup`: drop consecutive repetitions. -/
def dedup {α : Type} [DecidableEq α] : List α → List α
  | [] => []
  | [a] => [a]
  | a :: b :: rest => if a = b then dedup (b :: rest) else a :: dedup (b :: rest)

/-- The opening argument: `MultiPoint::open` and `MultiPointProof::check` with a fresh transcript (`prover.rs:43-44`,
`proof.rs:251-252`). -/
structure Opener (F G : Type) where
  Pf : Type
  openAll : List (ProverQuery F G) → Res Pf
  check : Pf → List (VerifierQuery F G) → Res Bool

/-- Errors of `create_verkle_proof`, `/repo/verkle-trie/src/errors.rs`. -/
inductive ProofCreationError where
  | emptyKeySet
  | expectedOneQueryAgainstRoot
deriving DecidableEq

/-- The commitments sent with the proof, `prover.rs:27-42`. -/
def commsSorted [DecidableEq G] (root : G) (qs : List (ProverQuery F G)) : List G :=
  dedup ((qs.filter fun q => decide (q.commitment ≠ root)).map ProverQuery.commitment)

/-- `create_verkle_proof`, `prover.rs:15-51`. -/
def createVerkleProof [DecidableEq F] [DecidableEq G] (O : Opener F G) (db : σ) (keys : List Key) :
    Res (Except ProofCreationError (VerkleProof G O.Pf)) :=
  if keys = [] then .ok (.error .emptyKeySet)
  else do
    let r ← createProverQueries db keys
    match r.1 with
    | [] => .ok (.error .expectedOneQueryAgainstRoot)
    | q :: _ => do
      let pf ← O.openAll r.1
      .ok (.ok ⟨r.2, commsSorted q.commitment r.1, pf⟩)

end

/-! ### The verifier -/

/-- `UpdateHint`, `proof.rs:163-169`. -/
structure UpdateHint (G : Type) where
  depthsAndExt : BMap Stem (ExtPresent × Byte)
  commsByPath : BMap Path G
  otherStems : BMap Path Stem

/-- The mutable collections of `create_verifier_queries`, `verifier.rs:29-36`. -/
structure VState (F : Type) where
  otherStemsUsed : BSet Stem
  allPaths : BSet Path
  allPathsZs : BSet (Path × Byte)
  leafVals : BMap (Path × Byte) F
  otherStems : BMap Path Stem

section
variable {F G : Type} [Field F] [AddCommGroup G] [Module F G]

/-- The map from stems to hint entries, `verifier.rs:22-51`. -/
def hintByStem (hint : VerificationHint) (stems : BSet Stem) : BMap Stem (ExtPresent × Byte) :=
  ((stems.zip hint.depths).zip hint.extensionPresent).foldl (fun m x => BMap.insert x.1.1 (x.2, x.1.2) m) []

/-- `stems_with_extension`, `verifier.rs:29,41-51`. -/
def stemsWithExtension (hint : VerificationHint) (stems : BSet Stem) : BSet Stem :=
  ((stems.zip hint.depths).zip hint.extensionPresent).foldl
    (fun s x => if x.2 = .present then BSet.insert x.1.1 s else s) []

/-- The loop over the inner nodes, `verifier.rs:59-62`; `n` is the number of iterations left. -/
def branchLoop (stem : Stem) : ℕ → ℕ → VState F → Res (VState F)
  | _, 0, st => .ok st
  | i, n + 1, st => do
    let z ← unwrap "index out of bounds" stem.1[i]?
    branchLoop stem (i + 1) n
      { st with allPaths := BSet.insert (stem.1.take i) st.allPaths
                allPathsZs := BSet.insert (stem.1.take i, z) st.allPathsZs }

/-- The case `ExtPresent::Present`, `verifier.rs:72-102`. -/
def presentStep (key : Key) (value : Option Value) (p : Path) (st : VState F) : VState F :=
  let stem := key.stem
  let suffix := key.suffix
  let openingIndex : Byte := if suffix.val < 128 then 2 else 3
  let sp := p ++ [openingIndex]
  let lower : Byte := asU8 (2 * (suffix.val % 128))
  let upper : Byte := asU8 (2 * (suffix.val % 128) + 1)
  let h := valueHalves F value
  { st with
    allPaths := BSet.insert sp st.allPaths
    allPathsZs := BSet.insert (sp, upper) (BSet.insert (sp, lower) (BSet.insert (p, openingIndex) st.allPathsZs))
    leafVals := BMap.insert (sp, upper) h.2 (BMap.insert (sp, lower) h.1
      (BMap.insert (p, 1) (frLe F stem.1) st.leafVals)) }

/-- The case `ExtPresent::DifferentStem` after the check of the value, `verifier.rs:110-157`. -/
def diffStemStep (hint : VerificationHint) (swe : BSet Stem) (stem : Stem) (depth : ℕ) (p : Path) (st : VState F) :
    Res (VState F) :=
  if depth = 31 then .error "assert depth != stem.len()"
  else
    let found := swe.filter fun x => decide (x.1.take depth = p)
    match found with
    | _ :: _ :: _ => .error "found more than one instance of stem_with_extension"
    | [x] => .ok { st with otherStems := BMap.insert p x st.otherStems }
    | [] => do
      let enc ← unwrap "cannot find the encountered stem"
        ((hint.diffStemNoProof.filter fun x => decide (x.1.take depth = p)).getLast?)
      .ok { st with
        otherStemsUsed := BSet.insert enc st.otherStemsUsed
        leafVals := BMap.insert (p, 1) (frLe F enc.1) st.leafVals
        otherStems := BMap.insert p enc st.otherStems }

/-- The part common to `DifferentStem` and `Present`, `verifier.rs:66-70`. -/
def extStep (p : Path) (st : VState F) : VState F :=
  { st with
    allPaths := BSet.insert p st.allPaths
    allPathsZs := BSet.insert (p, 1) (BSet.insert (p, 0) st.allPathsZs)
    leafVals := BMap.insert (p, 0) 1 st.leafVals }

/-- The case `ExtPresent::None` after the check of the value, `verifier.rs:164-177`. -/
def noneStep (stem : Stem) (depth : ℕ) (st : VState F) : Res (VState F) :=
  if depth = 0 then .error "attempt to subtract with overflow"
  else do
    let z ← unwrap "index out of bounds" stem.1[depth - 1]?
    if depth = 1 then .ok { st with leafVals := BMap.insert ([], z) 0 st.leafVals }
    else .ok { st with leafVals := BMap.insert (stem.1.take depth, z) 0 st.leafVals }

/-- One iteration of the loop over the keys, `verifier.rs:53-179`; `none` is `return None`. -/
def keyStep (hint : VerificationHint) (byStem : BMap Stem (ExtPresent × Byte)) (swe : BSet Stem) (key : Key)
    (value : Option Value) (st : VState F) : Res (Option (VState F)) := do
  let stem := key.stem
  let hd ← unwrap "stem not in the hint" (BMap.get stem byStem)
  let depth := hd.2.val
  let st ← branchLoop stem 0 depth st
  let p := stem.1.take depth
  match hd.1 with
  | .present => .ok (some (presentStep key value p (extStep p st)))
  | .differentStem =>
    if value.isSome then .ok none
    else do
      let st ← diffStemStep hint swe stem depth p (extStep p st)
      .ok (some st)
  | .none =>
    if value.isSome then .ok none
    else do
      let st ← noneStep stem depth st
      .ok (some st)

/-- The loop over the keys, `verifier.rs:53-179`. -/
def keyLoop (hint : VerificationHint) (byStem : BMap Stem (ExtPresent × Byte)) (swe : BSet Stem) :
    List (Key × Option Value) → VState F → Res (Option (VState F))
  | [], st => .ok (some st)
  | (k, v) :: rest, st => do
    match ← keyStep hint byStem swe k v st with
    | none => .ok none
    | some st' => keyLoop hint byStem swe rest st'

/-- The value claimed for an opening, `verifier.rs:197-206`. -/
def claimedValue (C : Crypto F G) (leafVals : BMap (Path × Byte) F) (comms : BMap Path G) (p : Path) (z : Byte) : F :=
  match BMap.get (p, z) leafVals with
  | some y => y
  | none =>
    match BMap.get (p ++ [z]) comms with
    | some c => C.h c
    | none => 0

/-- The final assembly, `verifier.rs:181-233`.  The three maps with the common key set `all_paths_and_zs`
(`commitment_by_path_and_z`, `ys_by_path_and_z` and the set itself) are traversed together. -/
def assemble (C : Crypto F G) (hint : VerificationHint) (byStem : BMap Stem (ExtPresent × Byte)) (commsAll : List G)
    (st : VState F) : Res (List (VerifierQuery F G) × UpdateHint G) :=
  if hint.diffStemNoProof ≠ st.otherStemsUsed then .error "assert diff_stem_no_proof == other_stems_used"
  else if commsAll.length ≠ st.allPaths.length then .error "assert commitments.len() == all_paths.len()"
  else do
    let comms := st.allPaths.zip commsAll
    let qs ← st.allPathsZs.mapM fun pz => do
      let c ← unwrap "no commitment for the path" (BMap.get pz.1 comms)
      .ok (⟨c, (pz.2.val : F), claimedValue C st.leafVals comms pz.1 pz.2⟩ : VerifierQuery F G)
    .ok (qs, ⟨byStem, comms, st.otherStems⟩)

/-- `create_verifier_queries`, `verifier.rs:12-234`. -/
def createVerifierQueries (C : Crypto F G) (hint : VerificationHint) (comms : List G) (keys : List Key)
    (values : List (Option Value)) (root : G) : Res (Option (List (VerifierQuery F G) × UpdateHint G)) := do
  let stems := BSet.ofList (keys.map Key.stem)
  let byStem := hintByStem hint stems
  let swe := stemsWithExtension hint stems
  match ← keyLoop hint byStem swe (keys.zip values) (⟨[], [], [], [], []⟩ : VState F) with
  | none => .ok none
  | some st => do
    let r ← assemble C hint byStem (root :: comms) st
    .ok (some r)

/-- `VerkleProof::check`, `proof.rs:232-255`. -/
def check (C : Crypto F G) (O : Opener F G) (p : VerkleProof G O.Pf) (keys : List Key) (values : List (Option Value))
    (root : G) : Res (Bool × Option (UpdateHint G)) := do
  match ← createVerifierQueries C p.hint p.comms keys values root with
  | none => .ok (false, none)
  | some (qs, hint) => do
    let ok ← O.check p.proof qs
    .ok (ok, some hint)

end
end Proof
end Verif
