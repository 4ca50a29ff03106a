import Verif.Props.Db

/-!
# C81: the databases as tables

What the reads of the two databases give after any sequence of writes through their interface, and what the writes return.
-/

set_option autoImplicit false

namespace Verif.Props
open Verif.Spec Verif.Trie Verif.Db
open scoped Classical

variable {F G : Type}

/-- A call of one of the four functions of `WriteOnlyHigherDb`, `/repo/verkle-trie/src/database.rs:28-45`. -/
inductive Put (F G : Type) where
  | leaf (k : Key) (v : Value) (depth : ℕ)
  | stem (s : Stem) (m : StemMeta F G) (depth : ℕ)
  | child (p : Path) (s : Stem) (depth : ℕ)
  | branch (p : Path) (m : BranchMeta F G) (depth : ℕ)

namespace Put

/-- The depth given with the call. -/
def depth : Put F G → ℕ
  | leaf _ _ d => d
  | stem _ _ d => d
  | child _ _ d => d
  | branch _ _ d => d

/-- The value put at a key, if it is this key. -/
def leafAt (k : Key) : Put F G → Option Value
  | leaf k' v _ => if k' = k then some v else none
  | _ => none

/-- The record put at a stem, if it is this stem. -/
def stemAt (s : Stem) : Put F G → Option (StemMeta F G)
  | stem s' m _ => if s' = s then some m else none
  | _ => none

/-- What is put at a path, if it is this path. -/
def nodeAt (p : Path) : Put F G → Option (BranchChild F G)
  | child p' s _ => if p' = p then some (.stem s) else none
  | branch p' m _ => if p' = p then some (.branch m) else none
  | _ => none

/-- The database after the call. -/
def run {σ : Type} [HigherDb σ F G] (db : σ) : Put F G → σ
  | leaf k v d => (HigherDb.insertLeaf (F := F) (G := G) db k v d).1
  | stem s m d => (HigherDb.insertStem db s m d).1
  | child p s d => (HigherDb.addStemAsBranchChild (F := F) (G := G) db p s d).1
  | branch p m d => (HigherDb.insertBranch db p m d).1

end Put

/-- What `get_branch_meta` answers for an entry. -/
def metaOf : Option (BranchChild F G) → Option (Option (BranchMeta F G))
  | none => some none
  | some (.branch m) => some (some m)
  | some (.stem _) => none

/-- The answer of a read that may panic. -/
def answer {α : Type} : Res α → Option α
  | .ok a => some a
  | .error _ => none

/-- The reads of a database give the entries of three tables; reading the record of a branch where a stem is panics. -/
def ReadsAs {σ : Type} [HigherDb σ F G] (db : σ) (leaf : Key → Option Value) (stem : Stem → Option (StemMeta F G))
    (node : Path → Option (BranchChild F G)) : Prop :=
  (∀ k, HigherDb.getLeaf (F := F) (G := G) db k = leaf k) ∧ (∀ s, HigherDb.getStemMeta db s = stem s) ∧
  (∀ p i, HigherDb.getBranchChild db p i = node (p ++ [i])) ∧
  ∀ p, answer (HigherDb.getBranchMeta (F := F) (G := G) db p) = metaOf (node p)

/-- The last of some entries, if there is one, otherwise the given one. -/
def lastOr {α β : Type} (l : List α) (f : α → Option β) (b : Option β) : Option β := (l.reverse.findSome? f).or b

theorem lastOr_nil {α β : Type} (f : α → Option β) (b : Option β) : lastOr [] f b = b := rfl

theorem lastOr_snoc {α β : Type} (l : List α) (a : α) (f : α → Option β) (b : Option β) :
    lastOr (l ++ [a]) f b = (f a).or (lastOr l f b) := by
  unfold lastOr
  rw [List.reverse_append, List.reverse_singleton, List.singleton_append, List.findSome?_cons]
  cases f a <;> simp

theorem put_leaf (d : MemoryDb F G) (a : Put F G) (k : Key) : (a.run d).leaf k = (a.leafAt k).or (d.leaf k) := by
  cases a with
  | leaf k' v e =>
    by_cases hk : k' = k
    · subst hk; simp [Put.run, Put.leafAt, HigherDb.insertLeaf, MemoryDb.insertLeaf]
    · simp [Put.run, Put.leafAt, HigherDb.insertLeaf, MemoryDb.insertLeaf, hk, Ne.symm hk]
  | _ => rfl

theorem put_stem (d : MemoryDb F G) (a : Put F G) (s : Stem) : (a.run d).stem s = (a.stemAt s).or (d.stem s) := by
  cases a with
  | stem s' v e =>
    by_cases hk : s' = s
    · subst hk; simp [Put.run, Put.stemAt, HigherDb.insertStem, MemoryDb.insertStem]
    · simp [Put.run, Put.stemAt, HigherDb.insertStem, MemoryDb.insertStem, hk, Ne.symm hk]
  | _ => rfl

theorem put_node (d : MemoryDb F G) (a : Put F G) (p : Path) : (a.run d).branch p = (a.nodeAt p).or (d.branch p) := by
  cases a with
  | child p' s e =>
    by_cases hk : p' = p
    · subst hk; simp [Put.run, Put.nodeAt, HigherDb.addStemAsBranchChild, MemoryDb.addStemAsBranchChild]
    · simp [Put.run, Put.nodeAt, HigherDb.addStemAsBranchChild, MemoryDb.addStemAsBranchChild, hk, Ne.symm hk]
  | branch p' s e =>
    by_cases hk : p' = p
    · subst hk; simp [Put.run, Put.nodeAt, HigherDb.insertBranch, MemoryDb.insertBranch]
    · simp [Put.run, Put.nodeAt, HigherDb.insertBranch, MemoryDb.insertBranch, hk, Ne.symm hk]
  | _ => rfl

theorem memory_tables (db : MemoryDb F G) (ws : List (Put F G)) :
    (∀ k, (ws.foldl Put.run db).leaf k = lastOr ws (Put.leafAt k) (db.leaf k)) ∧
    (∀ s, (ws.foldl Put.run db).stem s = lastOr ws (Put.stemAt s) (db.stem s)) ∧
    ∀ p, (ws.foldl Put.run db).branch p = lastOr ws (Put.nodeAt p) (db.branch p) := by
  induction ws using List.reverseRecOn with
  | nil => exact ⟨fun _ => rfl, fun _ => rfl, fun _ => rfl⟩
  | append_singleton l a ih =>
    obtain ⟨h1, h2, h3⟩ := ih
    simp only [List.foldl_append, List.foldl_cons, List.foldl_nil, lastOr_snoc, put_leaf, put_stem, put_node, h1, h2, h3]
    exact ⟨fun _ => trivial, fun _ => trivial, fun _ => trivial⟩

theorem memory_reads (db : MemoryDb F G) : ReadsAs db db.leaf db.stem db.branch := by
  refine ⟨fun _ => rfl, fun _ => rfl, fun _ _ => rfl, fun p => ?_⟩
  show answer (MemoryDb.getBranchMeta db p) = _
  unfold MemoryDb.getBranchMeta
  cases db.branch p with
  | none => rfl
  | some c => cases c <;> rfl

/-- **C81, in memory.** After any writes every read gives the last entry written to the row, or what was there before; and each write returns
what the read gave before it (for a branch only if it was a branch). -/
theorem C81_memory (db : MemoryDb F G) (ws : List (Put F G)) :
    ReadsAs (ws.foldl Put.run db) (fun k => lastOr ws (Put.leafAt k) (HigherDb.getLeaf (F := F) (G := G) db k))
      (fun s => lastOr ws (Put.stemAt s) (HigherDb.getStemMeta db s)) (fun p => lastOr ws (Put.nodeAt p) (db.branch p)) ∧
    (∀ k v d, (HigherDb.insertLeaf (F := F) (G := G) db k v d).2 = HigherDb.getLeaf (F := F) (G := G) db k) ∧
    (∀ s (m : StemMeta F G) d, (HigherDb.insertStem db s m d).2 = HigherDb.getStemMeta db s) ∧
    (∀ p i s d, (HigherDb.addStemAsBranchChild (F := F) (G := G) db (p ++ [i]) s d).2 = HigherDb.getBranchChild db p i) ∧
    (∀ p (m : BranchMeta F G) d, (HigherDb.insertBranch db p m d).2 = (answer (HigherDb.getBranchMeta (F := F) (G := G) db p)).getD none) := by
  obtain ⟨h1, h2, h3⟩ := memory_tables db ws
  refine ⟨?_, fun _ _ _ => rfl, fun _ _ _ => rfl, fun _ _ _ _ => rfl, fun p m d => ?_⟩
  · have h := memory_reads (ws.foldl Put.run db)
    rwa [funext h1, funext h2, funext h3] at h
  · rw [(memory_reads db).2.2.2 p]
    show (MemoryDb.insertBranch db p m d).2 = _
    unfold MemoryDb.insertBranch
    cases db.branch p with
    | none => rfl
    | some c => cases c <;> rfl

/-! ### The cached database -/

/-- What is done with the cached database through its interface. -/
inductive DbOp (F G : Type) where
  | put (a : Put F G)
  | flush

namespace DbOp

/-- The entry put by an operation. -/
def entry {β : Type} (f : Put F G → Option β) : DbOp F G → Option β
  | put a => f a
  | flush => none

/-- The database after the operation. -/
def run (db : VerkleDb F G) : DbOp F G → VerkleDb F G
  | put a => a.run db
  | flush => db.flush

/-- It is not a flush. -/
def isPut : DbOp F G → Bool
  | put _ => true
  | flush => false

end DbOp

/-- The row a call writes to. -/
def Put.row : Put F G → Item
  | .leaf k _ _ => .leaf k
  | .stem s _ _ => .stem s
  | .child p _ _ => .branch p
  | .branch p _ _ => .branch p

/-- Every row is written always within the cached depths or always below them. -/
def OneSide (ops : List (DbOp F G)) : Prop :=
  ∀ a b : Put F G, .put a ∈ ops → .put b ∈ ops → a.row = b.row → (a.depth ≤ 4 ↔ b.depth ≤ 4)

theorem put_verkle (db : VerkleDb F G) (a : Put F G) : (a.run db).batch = a.run db.batch ∧ (a.run db).storage = db.storage ∧
    (a.run db).cache = if a.depth ≤ 4 then a.run db.cache else db.cache := by
  cases a <;> exact ⟨rfl, rfl, rfl⟩

/-- One row in the three parts of the database. -/
structure RowView (β : Type) (proj : MemoryDb F G → Option β) (f : Put F G → Option β) (r : Item) : Prop where
  step : ∀ d a, proj (a.run d) = (f a).or (proj d)
  over : ∀ a b, proj (VerkleDb.overlayDb a b) = (proj a).or (proj b)
  new : proj MemoryDb.new = none
  row : ∀ a, f a ≠ none → a.row = r

theorem or_or_self {β : Type} (a b : Option β) : a.or (a.or b) = a.or b := by cases a <;> rfl

variable {β : Type} {proj : MemoryDb F G → Option β} {f : Put F G → Option β} {r : Item}

theorem RowView.disk (h : RowView β proj f r) (disk : MemoryDb F G) (ops : List (DbOp F G)) :
    (proj (ops.foldl DbOp.run (.reopen disk)).batch).or (proj (ops.foldl DbOp.run (.reopen disk)).storage) =
      lastOr ops (DbOp.entry f) (proj disk) := by
  induction ops using List.reverseRecOn with
  | nil =>
    show (proj MemoryDb.new).or (proj disk) = _
    rw [h.new]; rfl
  | append_singleton l o ih =>
    rw [List.foldl_append, List.foldl_cons, List.foldl_nil, lastOr_snoc, ← ih]
    generalize l.foldl DbOp.run (.reopen disk) = db
    cases o with
    | put a =>
      simp only [DbOp.run, (put_verkle db a).1, (put_verkle db a).2.1, h.step, DbOp.entry, Option.or_assoc]
    | flush =>
      show (proj MemoryDb.new).or (proj (VerkleDb.overlayDb db.batch db.storage)) = _
      rw [h.new, h.over]
      rfl

theorem RowView.batch (h : RowView β proj f r) (disk : MemoryDb F G) (ops : List (DbOp F G)) :
    proj (ops.foldl DbOp.run (.reopen disk)).batch = (ops.reverse.takeWhile DbOp.isPut).findSome? (DbOp.entry f) := by
  induction ops using List.reverseRecOn with
  | nil => exact h.new
  | append_singleton l o ih =>
    rw [List.foldl_append, List.foldl_cons, List.foldl_nil, List.reverse_append, List.reverse_singleton, List.singleton_append]
    generalize l.foldl DbOp.run (.reopen disk) = db at ih
    cases o with
    | put a =>
      rw [List.takeWhile_cons, if_pos (show (DbOp.put a).isPut = true from rfl), List.findSome?_cons]
      simp only [DbOp.run, (put_verkle db a).1, h.step, DbOp.entry, ih]
      cases f a <;> rfl
    | flush => exact h.new

theorem RowView.cache_deep (h : RowView β proj f r) (disk : MemoryDb F G) (ops : List (DbOp F G))
    (hd : ∀ a, DbOp.put a ∈ ops → a.row = r → ¬ a.depth ≤ 4) : proj (ops.foldl DbOp.run (.reopen disk)).cache = none := by
  induction ops using List.reverseRecOn with
  | nil => exact h.new
  | append_singleton l o ih =>
    have ih := ih fun a ha => hd a (List.mem_append_left _ ha)
    rw [List.foldl_append, List.foldl_cons, List.foldl_nil]
    generalize l.foldl DbOp.run (.reopen disk) = db at ih
    cases o with
    | put a =>
      simp only [DbOp.run, (put_verkle db a).2.2]
      split
      · rename_i hle
        rw [h.step, ih]
        by_contra hn
        have : f a ≠ none := fun e => hn (by rw [e]; rfl)
        exact hd a (by simp) (h.row a this) hle
      · exact ih
    | flush => exact ih

theorem RowView.cache_high (h : RowView β proj f r) (disk : MemoryDb F G) (ops : List (DbOp F G))
    (hd : ∀ a, DbOp.put a ∈ ops → a.row = r → a.depth ≤ 4) :
    proj (ops.foldl DbOp.run (.reopen disk)).cache = lastOr ops (DbOp.entry f) none := by
  induction ops using List.reverseRecOn with
  | nil => exact h.new
  | append_singleton l o ih =>
    have ih := ih fun a ha => hd a (List.mem_append_left _ ha)
    rw [List.foldl_append, List.foldl_cons, List.foldl_nil, lastOr_snoc]
    generalize l.foldl DbOp.run (.reopen disk) = db at ih
    cases o with
    | put a =>
      simp only [DbOp.run, (put_verkle db a).2.2, DbOp.entry]
      split
      · rw [h.step, ih]
      · rename_i hle
        have : f a = none := by
          by_contra hn
          exact hle (hd a (by simp) (h.row a hn))
        rw [ih, this]
        rfl
    | flush => exact ih

theorem lastOr_or {α β : Type} (l : List α) (f : α → Option β) (b : Option β) : lastOr l f b = (lastOr l f none).or b := by
  simp [lastOr]

theorem RowView.read (h : RowView β proj f r) (disk : MemoryDb F G) {ops : List (DbOp F G)} (ho : OneSide ops) :
    (proj (ops.foldl DbOp.run (.reopen disk)).cache = none ∨
      proj (ops.foldl DbOp.run (.reopen disk)).cache = lastOr ops (DbOp.entry f) (proj disk)) ∧
    (proj (ops.foldl DbOp.run (.reopen disk)).cache).or ((proj (ops.foldl DbOp.run (.reopen disk)).batch).or
      (proj (ops.foldl DbOp.run (.reopen disk)).storage)) = lastOr ops (DbOp.entry f) (proj disk) := by
  rw [h.disk disk ops]
  by_cases hx : ∃ a, DbOp.put a ∈ ops ∧ a.row = r ∧ a.depth ≤ 4
  · obtain ⟨a, ha, hr, hle⟩ := hx
    have e := h.cache_high disk ops fun b hb hb' => (ho a b ha hb (hr.trans hb'.symm)).1 hle
    rw [e, lastOr_or ops (DbOp.entry f) (proj disk), or_or_self]
    refine ⟨?_, rfl⟩
    cases lastOr ops (DbOp.entry f) none with
    | none => exact Or.inl rfl
    | some _ => exact Or.inr rfl
  · push Not at hx
    rw [h.cache_deep disk ops fun a ha hr => not_le.2 (hx a ha hr)]
    exact ⟨Or.inl rfl, rfl⟩

theorem view_leaf (k : Key) : RowView Value (fun d : MemoryDb F G => d.leaf k) (Put.leafAt k) (.leaf k) where
  step d a := put_leaf d a k
  over a b := by
    show VerkleDb.overlay _ _ _ = _
    unfold VerkleDb.overlay
    cases a.leaf k <;> rfl
  new := rfl
  row a h := by
    cases a with
    | leaf k' v d =>
      by_cases e : k' = k
      · rw [e]; rfl
      · simp [Put.leafAt, e] at h
    | _ => exact absurd rfl h

theorem view_stem (s : Stem) : RowView (StemMeta F G) (fun d : MemoryDb F G => d.stem s) (Put.stemAt s) (.stem s) where
  step d a := put_stem d a s
  over a b := by
    show VerkleDb.overlay _ _ _ = _
    unfold VerkleDb.overlay
    cases a.stem s <;> rfl
  new := rfl
  row a h := by
    cases a with
    | stem k' v d =>
      by_cases e : k' = s
      · rw [e]; rfl
      · simp [Put.stemAt, e] at h
    | _ => exact absurd rfl h

theorem view_node (p : Path) : RowView (BranchChild F G) (fun d : MemoryDb F G => d.branch p) (Put.nodeAt p) (.branch p) where
  step d a := put_node d a p
  over a b := by
    show VerkleDb.overlay _ _ _ = _
    unfold VerkleDb.overlay
    cases a.branch p <;> rfl
  new := rfl
  row a h := by
    cases a with
    | child k' v d =>
      by_cases e : k' = p
      · rw [e]; rfl
      · simp [Put.nodeAt, e] at h
    | branch k' v d =>
      by_cases e : k' = p
      · rw [e]; rfl
      · simp [Put.nodeAt, e] at h
    | _ => exact absurd rfl h

theorem overlay_or {α β : Type} (a b c : α → Option β) (x : α) : VerkleDb.overlay a (VerkleDb.overlay b c) x = (a x).or ((b x).or (c x)) := by
  unfold VerkleDb.overlay
  cases a x <;> cases b x <;> rfl

/-- **C81, on disk (partial).** After opening a disk and any writes and flushes in which every row is written always within the cached depths
or always below them, every read gives the last entry written to the row, or what the disk had.  What is missing: without the condition
reads are stale (`C81_stale`), and what the writes return is the last entry since the last flush only (`C81_disk_returns`,
`C81_full_claim_false`). -/
theorem C81_disk_partial (disk : MemoryDb F G) (ops : List (DbOp F G)) (h : OneSide ops) :
    ReadsAs (ops.foldl DbOp.run (.reopen disk)) (fun k => lastOr ops (DbOp.entry (Put.leafAt k)) (disk.leaf k))
      (fun s => lastOr ops (DbOp.entry (Put.stemAt s)) (disk.stem s)) (fun p => lastOr ops (DbOp.entry (Put.nodeAt p)) (disk.branch p)) := by
  refine ⟨fun k => ?_, fun s => ?_, fun p i => ?_, fun p => ?_⟩
  · refine Eq.trans ?_ ((view_leaf k).read disk h).2
    exact overlay_or _ _ _ _
  · refine Eq.trans ?_ ((view_stem s).read disk h).2
    exact overlay_or _ _ _ _
  · refine Eq.trans ?_ ((view_node (p ++ [i])).read disk h).2
    exact overlay_or _ _ _ _
  · have h2 := ((view_node p).read disk h).2
    show answer (VerkleDb.getBranchMeta _ p) = metaOf (lastOr ops (DbOp.entry (Put.nodeAt p)) (disk.branch p))
    rw [← h2]
    generalize ops.foldl DbOp.run (.reopen disk) = db
    simp only [VerkleDb.getBranchMeta, MemoryDb.getBranchMeta, bind, Except.bind]
    cases hc : db.cache.branch p with
    | some c => cases c <;> rfl
    | none =>
      cases hb : db.batch.branch p with
      | some c => cases c <;> rfl
      | none =>
        cases hs : db.storage.branch p with
        | some c => cases c <;> rfl
        | none => rfl

/-- **C81, on disk: what the writes return.** After opening a disk and any writes and flushes, a write returns the last entry written to its
row since the last flush (for a branch only if it was a branch). -/
theorem C81_disk_returns (disk : MemoryDb F G) (ops : List (DbOp F G)) :
    (∀ k v d, (HigherDb.insertLeaf (F := F) (G := G) (ops.foldl DbOp.run (.reopen disk)) k v d).2 =
      (ops.reverse.takeWhile DbOp.isPut).findSome? (DbOp.entry (Put.leafAt k))) ∧
    (∀ s (m : StemMeta F G) d, (HigherDb.insertStem (ops.foldl DbOp.run (.reopen disk)) s m d).2 =
      (ops.reverse.takeWhile DbOp.isPut).findSome? (DbOp.entry (Put.stemAt s))) ∧
    (∀ p s d, (HigherDb.addStemAsBranchChild (F := F) (G := G) (ops.foldl DbOp.run (.reopen disk)) p s d).2 =
      (ops.reverse.takeWhile DbOp.isPut).findSome? (DbOp.entry (Put.nodeAt p))) ∧
    ∀ p (m : BranchMeta F G) d, (HigherDb.insertBranch (ops.foldl DbOp.run (.reopen disk)) p m d).2 =
      (metaOf ((ops.reverse.takeWhile DbOp.isPut).findSome? (DbOp.entry (Put.nodeAt p)))).getD none := by
  refine ⟨fun k v d => ?_, fun s m d => ?_, fun p s d => ?_, fun p m d => ?_⟩
  · rw [← (view_leaf k).batch disk ops]; rfl
  · rw [← (view_stem s).batch disk ops]; rfl
  · rw [← (view_node p).batch disk ops]; rfl
  · rw [← (view_node p).batch disk ops]
    show (MemoryDb.insertBranch _ p m d).2 = _
    unfold MemoryDb.insertBranch
    cases ((ops.foldl DbOp.run (.reopen disk)).batch).branch p with
    | none => rfl
    | some c => cases c <;> rfl

/-- A leaf written at depth 1 and then at depth 7 reads as the first value, whatever the disk. -/
theorem C81_stale (disk : MemoryDb F G) : HigherDb.getLeaf (F := F) (G := G) (([.put (.leaf (keyOf [1] 0) (valOf 1) 1),
    .put (.leaf (keyOf [1] 0) (valOf 2) 7)] : List (DbOp F G)).foldl DbOp.run (.reopen disk)) (keyOf [1] 0) = some (valOf 1) := by
  rfl

/-- The full claim, that reads give the last entry written and writes return what the read gave before, fails on disk: a leaf written, flushed
and written again; and one written at two depths. -/
theorem C81_full_claim_false :
    (¬ ∀ (ops : List (DbOp F G)) k v d, OneSide ops → (HigherDb.insertLeaf (F := F) (G := G) (ops.foldl DbOp.run VerkleDb.new) k v d).2 =
      HigherDb.getLeaf (F := F) (G := G) (ops.foldl DbOp.run VerkleDb.new) k) ∧
    ¬ ∀ (ops : List (DbOp F G)) k, HigherDb.getLeaf (F := F) (G := G) (ops.foldl DbOp.run VerkleDb.new) k =
      lastOr ops (DbOp.entry (Put.leafAt k)) none := by
  constructor
  · intro h
    have := h [.put (.leaf (keyOf [1] 0) (valOf 1) 1), .flush] (keyOf [1] 0) (valOf 2) 1 (by
      intro a b ha hb _
      simp only [List.mem_cons, DbOp.put.injEq, reduceCtorEq, List.not_mem_nil, or_false] at ha hb
      rw [ha, hb])
    have e1 : some (valOf 1) = HigherDb.getLeaf (F := F) (G := G) (([.put (.leaf (keyOf [1] 0) (valOf 1) 1), .flush] : List (DbOp F G)).foldl
      DbOp.run VerkleDb.new) (keyOf [1] 0) := rfl
    rw [← e1] at this
    cases this
  · intro h
    have h1 := h [.put (.leaf (keyOf [1] 0) (valOf 1) 1), .put (.leaf (keyOf [1] 0) (valOf 2) 7)] (keyOf [1] 0)
    have h2 := C81_stale (F := F) (G := G) MemoryDb.new
    rw [show (VerkleDb.new : VerkleDb F G) = .reopen MemoryDb.new from rfl, h2] at h1
    have h3 : lastOr ([.put (.leaf (keyOf [1] 0) (valOf 1) 1), .put (.leaf (keyOf [1] 0) (valOf 2) 7)] : List (DbOp F G))
      (DbOp.entry (Put.leafAt (keyOf [1] 0))) none = some (valOf 2) := by simp [lastOr, DbOp.entry, Put.leafAt]
    rw [h3] at h1
    revert h1
    decide

/-- Writes at two depths to different rows, with a flush between, meet the condition of `C81_disk_partial`. -/
example (m : StemMeta F G) : OneSide ([.put (.leaf (keyOf [1] 0) (valOf 1) 1), .flush, .put (.leaf (keyOf [1] 0) (valOf 2) 2),
    .put (.stem (keyOf [1] 0).stem m 9)] : List (DbOp F G)) := by
  intro a b ha hb hr
  simp only [List.mem_cons, DbOp.put.injEq, reduceCtorEq, List.not_mem_nil, or_false, false_or] at ha hb
  rcases ha with rfl | rfl | rfl <;> rcases hb with rfl | rfl | rfl <;> simp_all [Put.row, Put.depth]

end Verif.Props
