import Verif.Db.Model

/-!
# The trie along a homomorphism

Running the trie on one group and mapping the result to another is running it on the other, if the map respects addition,
multiples, generators and hash.  Used for the map from points to elements: the code computes on points.
-/

set_option autoImplicit false

namespace Verif.Trie

variable {F G H : Type} [Field F] [AddCommGroup G] [AddCommGroup H] [SMul F G] [SMul F H]

/-- A homomorphism between the parameters of two tries. -/
structure CryptoHom (C : Crypto F G) (D : Crypto F H) where
  toFun : G →+ H
  smul : ∀ (a : F) (p : G), toFun (a • p) = a • toFun p
  gen : ∀ i, toFun (C.g i) = D.g i
  hash : ∀ p, D.h (toFun p) = C.h p

section maps
variable (f : G → H)

def mapStem (m : StemMeta F G) : StemMeta F H := ⟨f m.c1, m.hashC1, f m.c2, m.hashC2, f m.stemComm, m.hashStem⟩
def mapBranch (m : BranchMeta F G) : BranchMeta F H := ⟨f m.comm, m.hash⟩
def mapChild : BranchChild F G → BranchChild F H
  | .stem s => .stem s
  | .branch m => .branch (mapBranch f m)
def mapIns : Ins F G → Ins F H
  | .updateLeaf k v d p i => .updateLeaf k v d p i
  | .chainInsert a b c d e k v i => .chainInsert a b c d e k v i
  | .fallThrough p i c o d => .fallThrough p i c (o.map (mapBranch f)) d

end maps

/-- A map between databases which commutes with the operations the trie uses. -/
structure DbHom {σ τ : Type} [HigherDb σ F G] [HigherDb τ F H] (f : G → H) (φ : σ → τ) : Prop where
  getStemMeta : ∀ db s, HigherDb.getStemMeta (φ db) s = (HigherDb.getStemMeta db s).map (mapStem f)
  getBranchMeta : ∀ db p, HigherDb.getBranchMeta (φ db) p = (HigherDb.getBranchMeta db p).map (Option.map (mapBranch f))
  getBranchChild : ∀ db p i, HigherDb.getBranchChild (φ db) p i = (HigherDb.getBranchChild db p i).map (mapChild f)
  getLeaf : ∀ db k, HigherDb.getLeaf (φ db) k = HigherDb.getLeaf db k
  insertLeaf : ∀ db k v d, HigherDb.insertLeaf (φ db) k v d = Prod.map φ id (HigherDb.insertLeaf db k v d)
  insertStem : ∀ db s m d, (HigherDb.insertStem (φ db) s (mapStem f m) d).1 = φ (HigherDb.insertStem db s m d).1
  addStem : ∀ db p s d, (HigherDb.addStemAsBranchChild (φ db) p s d).1 = φ (HigherDb.addStemAsBranchChild db p s d).1
  insertBranch : ∀ db p m d, HigherDb.insertBranch (φ db) p (mapBranch f m) d =
    Prod.map φ (Option.map (mapBranch f)) (HigherDb.insertBranch db p m d)

omit [Field F] [AddCommGroup G] [AddCommGroup H] [SMul F G] [SMul F H] in
theorem DbHom.insB {σ τ : Type} [HigherDb σ F G] [HigherDb τ F H] {f : G → H} {φ : σ → τ} (hφ : DbHom f φ) (db : σ) (p : Path) (c : G)
    (x : F) (d : ℕ) : HigherDb.insertBranch (φ db) p ⟨f c, x⟩ d =
      Prod.map φ (Option.map (mapBranch f)) (HigherDb.insertBranch db p ⟨c, x⟩ d) := hφ.insertBranch db p ⟨c, x⟩ d

omit [Field F] [AddCommGroup G] [AddCommGroup H] [SMul F G] [SMul F H] in
theorem DbHom.insS {σ τ : Type} [HigherDb σ F G] [HigherDb τ F H] {f : G → H} {φ : σ → τ} (hφ : DbHom f φ) (db : σ) (s : Stem)
    (c1 c2 c3 : G) (x1 x2 x3 : F) (d : ℕ) : (HigherDb.insertStem (φ db) s ⟨f c1, x1, f c2, x2, f c3, x3⟩ d).1 =
      φ (HigherDb.insertStem db s ⟨c1, x1, c2, x2, c3, x3⟩ d).1 := hφ.insertStem db s ⟨c1, x1, c2, x2, c3, x3⟩ d

theorem map_bind {α β α' β' : Type} (x : Res α) (g : α → Res β) (a : α → α') (b : β → β') (y : Res α') (g' : α' → Res β')
    (hx : y = x.map a) (hg : ∀ u, x = .ok u → g' (a u) = (g u).map b) : (y >>= g') = (x >>= g).map b := by
  subst hx
  cases x with
  | error e => rfl
  | ok u => exact hg u rfl

theorem map_id' {α : Type} (x : Res α) : x = x.map id := by
  cases x <;> rfl

theorem map_unwrap {α β : Type} (s : String) (o : Option α) (f : α → β) : unwrap s (o.map f) = (unwrap s o).map f := by
  cases o <;> rfl

section
variable {σ τ : Type} [HigherDb σ F G] [HigherDb τ F H] {φ : σ → τ}

omit [Field F] [AddCommGroup G] [AddCommGroup H] [SMul F G] [SMul F H] in
theorem createGo_map {f : G → H} (hφ : DbHom f φ) (db : σ) (key : Key) (value : Value) : ∀ (rest : List Byte) (n : ℕ) (cur : Path) (acc : List (Ins F G)),
    createGo (φ db) key value n cur rest (acc.map (mapIns f)) = (createGo db key value n cur rest acc).map (List.map (mapIns f))
  | [], _, _, _ => rfl
  | i :: rest, n, cur, acc => by
    unfold createGo
    rw [hφ.getBranchChild, hφ.getLeaf]
    cases HigherDb.getBranchChild db cur i with
    | none => simp [mapIns, Except.map]
    | some c =>
      cases c with
      | branch m =>
        have := createGo_map hφ db key value rest (n + 1) (cur ++ [i]) (acc ++ [.fallThrough cur i (cur ++ [i]) (some m) n])
        rw [List.map_append] at this
        exact this
      | stem s =>
        simp only [Option.map_some, mapChild]
        split
        · split
          · rfl
          · split
            · rfl
            · simp [mapIns, Except.map]
        · split
          · rfl
          · cases unwrap "path_diff_old" (pathDifference s.1 key.stem.1).2.1 with
            | error e => rfl
            | ok a =>
              cases unwrap "path_diff_new" (pathDifference s.1 key.stem.1).2.2 with
              | error e => rfl
              | ok b => simp [mapIns, Except.map, bind, Except.bind]

omit [Field F] [AddCommGroup G] [AddCommGroup H] [SMul F G] [SMul F H] in
theorem leafTable_map {f : G → H} (hφ : DbHom f φ) (db : σ) (k : Key) (v : Value) (d : ℕ) :
    updateLeafTable (φ db) k v d = Prod.map φ id (updateLeafTable db k v d) := by
  unfold updateLeafTable
  rw [hφ.insertLeaf]
  dsimp only [Prod.map, id]
  cases (HigherDb.insertLeaf db k v d).2 with
  | none => rfl
  | some o =>
    dsimp only
    split <;> rfl

omit [SMul F G] [SMul F H] in
theorem new_map {f : G →+ H} (hφ : DbHom (F := F) (⇑f) φ) (db : σ) : new (φ db) = (new db).map φ := by
  unfold new
  refine map_bind _ _ _ _ _ _ (hφ.getBranchMeta db []) fun o _ => ?_
  cases o with
  | some m => rfl
  | none =>
    have hb := hφ.insertBranch db [] (BranchMeta.zero F G) 0
    have hz : mapBranch (F := F) f (BranchMeta.zero F G) = BranchMeta.zero F H := by simp [mapBranch, BranchMeta.zero]
    rw [hz] at hb
    simp only [Option.map_none, hb, Prod.map]
    cases (HigherDb.insertBranch db [] (BranchMeta.zero F G) 0).2 <;> rfl

omit [Field F] [AddCommGroup G] [AddCommGroup H] [SMul F G] [SMul F H] in
/-- The root hash and the root commitment. -/
theorem root_map {f : G → H} (hφ : DbHom (F := F) f φ) (db : σ) :
    rootHash (φ db) = rootHash db ∧ rootCommitment (φ db) = (rootCommitment db).map f := by
  constructor
  · have : rootHash (φ db) = (rootHash db).map id := by
      unfold rootHash
      refine map_bind _ _ _ _ _ _ (hφ.getBranchMeta db []) fun o _ => ?_
      refine map_bind _ _ _ _ _ _ (map_unwrap _ o _) fun m _ => ?_
      rfl
    rw [this]
    cases rootHash db <;> rfl
  · unfold rootCommitment
    refine map_bind _ _ _ _ _ _ (hφ.getBranchMeta db []) fun o _ => ?_
    refine map_bind _ _ _ _ _ _ (map_unwrap _ o _) fun m _ => ?_
    rfl

end

section
variable {C : Crypto F G} {D : Crypto F H} (θ : CryptoHom C D)
include θ

theorem CryptoHom.scalarMul (a : F) (i : ℕ) : D.scalarMul a i = θ.toFun (C.scalarMul a i) := by
  unfold Crypto.scalarMul
  rw [θ.smul, θ.gen]

variable {σ τ : Type} [HigherDb σ F G] [HigherDb τ F H] {φ : σ → τ} (hφ : DbHom θ.toFun φ)
include hφ

theorem stemTable_map (db : σ) (u : LeafUpdated) (d : ℕ) :
    updateStemTable D (φ db) u d = Prod.map φ id (updateStemTable C db u d) := by
  have hp : prevStem D (φ db) u.key.stem =
      (θ.toFun (prevStem C db u.key.stem).1, (prevStem C db u.key.stem).2.1, θ.toFun (prevStem C db u.key.stem).2.2.1,
        (prevStem C db u.key.stem).2.2.2.1, θ.toFun (prevStem C db u.key.stem).2.2.2.2.1, (prevStem C db u.key.stem).2.2.2.2.2) := by
    unfold prevStem
    rw [hφ.getStemMeta]
    cases HigherDb.getStemMeta db u.key.stem with
    | some m => rfl
    | none =>
      have h0 : D.h 0 = C.h 0 := by rw [← θ.hash 0, map_zero]
      simp only [Option.map_none, h0, map_zero, map_add, θ.gen, θ.scalarMul]
  unfold updateStemTable
  by_cases h : u.key.suffix.val < 128
  · simp only [if_pos h, hp, θ.scalarMul, ← map_add, θ.hash, hφ.insS, Prod.map, id]
  · simp only [if_neg h, hp, θ.scalarMul, ← map_add, θ.hash, hφ.insS, Prod.map, id]

theorem branchTable_map (db : σ) (u : StemUpdated F) (p : Path) (i : Byte) (d : ℕ) :
    updateBranchTable D (φ db) u p i d = (updateBranchTable C db u p i d).map (Prod.map φ id) := by
  unfold updateBranchTable
  refine map_bind _ _ _ _ _ _ (hφ.getBranchMeta db p) fun o _ => ?_
  refine map_bind _ _ _ _ _ _ (map_unwrap _ o _) fun m _ => ?_
  simp only [mapBranch, θ.scalarMul, ← map_add, θ.hash, Except.map, Prod.map, id]
  rw [← hφ.addStem, hφ.insB]
  rfl

theorem chainLoop_map : ∀ (l : List (Byte × Path)) (db : σ) (x : F),
    chainLoop D (φ db) l x = Prod.map φ id (chainLoop C db l x)
  | [], _, _ => rfl
  | (i, p) :: l, db, x => by
    unfold chainLoop
    simp only [θ.scalarMul, θ.hash, hφ.insB]
    exact chainLoop_map l _ _

theorem processIns_map (db : σ) (ins : Ins F G) :
    processIns D (φ db) (mapIns θ.toFun ins) = (processIns C db ins).map (Prod.map φ id) := by
  cases ins with
  | fallThrough p i c o d =>
    simp only [processIns, mapIns]
    refine map_bind _ _ _ _ _ _ (hφ.getBranchMeta db c) fun o1 _ => ?_
    refine map_bind _ _ _ _ _ _ (map_unwrap _ o1 _) fun m _ => ?_
    refine map_bind _ _ _ _ _ _ (hφ.getBranchMeta db p) fun o2 _ => ?_
    refine map_bind _ _ _ _ _ _ (map_unwrap _ o2 _) fun m2 _ => ?_
    cases o <;> simp only [mapBranch, θ.scalarMul, ← map_add, θ.hash, Except.map, Prod.map, id, hφ.insB, Option.map_some, Option.map_none]
  | updateLeaf k v d p i =>
    simp only [processIns, mapIns]
    rw [leafTable_map hφ]
    cases updateLeafTable db k v d with
    | mk db1 o =>
      cases o with
      | none => rfl
      | some lu =>
        simp only [Prod.map, id]
        rw [stemTable_map θ hφ]
        refine map_bind _ _ _ _ _ _ (branchTable_map θ hφ _ _ _ _ _) fun a _ => ?_
        rfl
  | chainInsert sd chain parent ci oi nk nv ni =>
    simp only [processIns, mapIns]
    split
    · rfl
    · rw [hφ.getBranchChild]
      refine map_bind _ _ _ _ _ _ (map_unwrap _ _ _) fun c _ => ?_
      cases c with
      | branch m => rfl
      | stem s =>
        refine map_bind _ _ id _ _ _ (map_id' _) fun s' _ => ?_
        refine map_bind _ _ id _ _ _ (map_id' _) fun bottom _ => ?_
        have hb := hφ.insertBranch db bottom (BranchMeta.zero F G) bottom.length
        have hz : mapBranch (F := F) θ.toFun (BranchMeta.zero F G) = BranchMeta.zero F H := by simp [mapBranch, BranchMeta.zero]
        rw [hz] at hb
        simp only [id, hb, Prod.map]
        rw [leafTable_map hφ]
        refine map_bind _ _ id _ _ _ (map_id' _) fun lu _ => ?_
        simp only [id, stemTable_map θ hφ, Prod.map]
        refine map_bind _ _ _ _ _ _ (branchTable_map θ hφ _ _ _ _ _) fun bt _ => ?_
        simp only [Prod.map, hφ.getStemMeta]
        refine map_bind _ _ _ _ _ _ (map_unwrap _ _ _) fun sm _ => ?_
        simp only [mapStem]
        refine map_bind _ _ _ _ _ _ (branchTable_map θ hφ _ _ _ _ _) fun bt2 _ => ?_
        simp only [Prod.map, id, chainLoop_map θ hφ]
        refine map_bind _ _ _ _ _ _ (hφ.getBranchMeta _ _) fun o2 _ => ?_
        refine map_bind _ _ _ _ _ _ (map_unwrap _ o2 _) fun top _ => ?_
        simp only [mapBranch, θ.scalarMul, ← map_add, θ.hash, Except.map, Prod.map, id, hφ.insB]

theorem processRev_map : ∀ (l : List (Ins F G)) (db : σ),
    processRev D (φ db) (l.map (mapIns θ.toFun)) = (processRev C db l).map φ
  | [], _ => rfl
  | i :: l, db => by
    simp only [processRev, List.map_cons]
    refine map_bind _ _ _ _ _ _ (processIns_map θ hφ db i) fun x _ => ?_
    obtain ⟨x, b⟩ := x
    cases b with
    | true => rfl
    | false => exact processRev_map l x

/-- Inserting commutes with the homomorphism. -/
theorem insert_map : ∀ (l : List (Key × Value)) (db : σ), insert D (φ db) l = (insert C db l).map φ
  | [], _ => rfl
  | kv :: l, db => by
    unfold insert
    refine map_bind _ _ _ _ _ _ ?_ fun x _ => insert_map l x
    unfold insertSingle
    refine map_bind _ _ (List.map (mapIns θ.toFun)) _ _ _ ?_ fun ins _ => ?_
    · exact createGo_map hφ db kv.1 kv.2 kv.1.1 1 [] []
    · unfold processInstructions
      rw [← List.map_reverse]
      exact processRev_map θ hφ _ _

end

/-! ### The two databases -/

section
variable (f : G → H)

/-- The tables with every point mapped. -/
def mapMem (db : MemoryDb F G) : MemoryDb F H :=
  ⟨db.leaf, fun s => (db.stem s).map (mapStem f), fun p => (db.branch p).map (mapChild f)⟩

def mapVdb (db : VerkleDb F G) : VerkleDb F H := ⟨mapMem f db.storage, mapMem f db.batch, mapMem f db.cache⟩

theorem map_update {α β γ : Type} [DecidableEq α] (g : α → Option β) (m : β → γ) (a : α) (b : β) :
    (fun x => ((Function.update g a (some b)) x).map m) = Function.update (fun x => (g x).map m) a (some (m b)) := by
  funext x
  by_cases h : x = a
  · subst h; simp
  · simp [h]

omit [Field F] [AddCommGroup G] [AddCommGroup H] [SMul F G] [SMul F H]

theorem memMeta (db : MemoryDb F G) (p : Path) : (mapMem f db).getBranchMeta p = (db.getBranchMeta p).map (Option.map (mapBranch f)) := by
  unfold MemoryDb.getBranchMeta mapMem
  dsimp only
  cases db.branch p with
  | none => rfl
  | some c => cases c <;> rfl

theorem memInsertStem (db : MemoryDb F G) (s : Stem) (m : StemMeta F G) (d : ℕ) :
    ((mapMem f db).insertStem s (mapStem f m) d).1 = mapMem f (db.insertStem s m d).1 := by
  simp only [MemoryDb.insertStem, mapMem, map_update]

theorem memAddStem (db : MemoryDb F G) (p : Path) (s : Stem) (d : ℕ) :
    ((mapMem f db).addStemAsBranchChild p s d).1 = mapMem f (db.addStemAsBranchChild p s d).1 := by
  simp only [MemoryDb.addStemAsBranchChild, mapMem, map_update]
  rfl

theorem memInsertBranch (db : MemoryDb F G) (p : Path) (m : BranchMeta F G) (d : ℕ) :
    (mapMem f db).insertBranch p (mapBranch f m) d = Prod.map (mapMem f) (Option.map (mapBranch f)) (db.insertBranch p m d) := by
  simp only [MemoryDb.insertBranch, mapMem, map_update, Prod.map]
  cases db.branch p with
  | none => rfl
  | some c => cases c <;> rfl

theorem memHom : DbHom (F := F) f (mapMem f) where
  getStemMeta _ _ := rfl
  getBranchMeta := memMeta f
  getBranchChild _ _ _ := rfl
  getLeaf _ _ := rfl
  insertLeaf _ _ _ _ := rfl
  insertStem := memInsertStem f
  addStem := memAddStem f
  insertBranch := memInsertBranch f

theorem overlay_map {α β γ : Type} (a b : α → Option β) (m : β → γ) (x : α) :
    VerkleDb.overlay (fun x => (a x).map m) (fun x => (b x).map m) x = (VerkleDb.overlay a b x).map m := by
  unfold VerkleDb.overlay
  dsimp only
  cases a x <;> rfl

theorem overlayDb_map (a b : MemoryDb F G) : VerkleDb.overlayDb (mapMem f a) (mapMem f b) = mapMem f (VerkleDb.overlayDb a b) := by
  unfold VerkleDb.overlayDb mapMem
  congr 1
  · funext x; exact overlay_map _ _ _ _
  · funext x; exact overlay_map _ _ _ _

theorem flush_map (db : VerkleDb F G) : (mapVdb f db).flush = mapVdb f db.flush := by
  unfold VerkleDb.flush mapVdb
  rw [overlayDb_map]
  rfl

theorem vdbHom : DbHom (F := F) f (mapVdb f) where
  getStemMeta db s := by
    show (VerkleDb.overlayDb (mapMem f db.cache) (VerkleDb.overlayDb (mapMem f db.batch) (mapMem f db.storage))).stem s = _
    rw [overlayDb_map, overlayDb_map]
    rfl
  getBranchMeta db p := by
    show VerkleDb.getBranchMeta _ p = (VerkleDb.getBranchMeta db p).map _
    unfold VerkleDb.getBranchMeta mapVdb
    refine map_bind _ _ _ _ _ _ (memMeta f db.cache p) fun o _ => ?_
    cases o with
    | some m => rfl
    | none =>
      refine map_bind _ _ _ _ _ _ (memMeta f db.batch p) fun o _ => ?_
      cases o with
      | some m => rfl
      | none => exact memMeta f db.storage p
  getBranchChild db p i := by
    show (VerkleDb.overlayDb (mapMem f db.cache) (VerkleDb.overlayDb (mapMem f db.batch) (mapMem f db.storage))).branch (p ++ [i]) = _
    rw [overlayDb_map, overlayDb_map]
    rfl
  getLeaf _ _ := rfl
  insertLeaf db k v d := by
    show VerkleDb.insertLeaf _ k v d = Prod.map _ _ (VerkleDb.insertLeaf db k v d)
    unfold VerkleDb.insertLeaf mapVdb
    split <;> rfl
  insertStem db s m d := by
    show (VerkleDb.insertStem _ s _ d).1 = mapVdb f (VerkleDb.insertStem db s m d).1
    unfold VerkleDb.insertStem mapVdb
    simp only [memInsertStem]
    split <;> rfl
  addStem db p s d := by
    show (VerkleDb.addStemAsBranchChild _ p s d).1 = mapVdb f (VerkleDb.addStemAsBranchChild db p s d).1
    unfold VerkleDb.addStemAsBranchChild mapVdb
    simp only [memAddStem]
    split <;> rfl
  insertBranch db p m d := by
    show VerkleDb.insertBranch _ p _ d = Prod.map _ _ (VerkleDb.insertBranch db p m d)
    unfold VerkleDb.insertBranch mapVdb
    simp only [memInsertBranch, Prod.map]
    split <;> rfl

end

end Verif.Trie
