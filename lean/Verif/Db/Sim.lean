import Verif.Db.Model
import Verif.Trie.Chain

/-!
# The cached database simulates the in-memory one while no entry moves out of the cached levels

`Rel E Z D v c B`: the batch of `v` laid over the disk is exactly the in-memory database `c`; cached entries are those of `c`, and
none is in the zone `Z`; under the condition `E` everything is cached; the leaves in the batch are those of `c` for the keys in
`B` (written since the last flush); the disk is `D`.
-/

set_option autoImplicit false

namespace Verif.Db
open Verif.Spec Verif.Trie
open scoped Classical

variable {F G : Type} [Field F] [AddCommGroup G] [Module F G]

/-- Tables of `a` are defined only where those of `c` are. -/
structure Within (a c : MemoryDb F G) : Prop where
  leaf : ∀ k, c.leaf k = none → a.leaf k = none
  stem : ∀ s, c.stem s = none → a.stem s = none
  branch : ∀ p, c.branch p = none → a.branch p = none

structure Rel (E : Prop) (Z : Bool → List Byte → Prop) (D : MemoryDb F G) (v : VerkleDb F G) (c : MemoryDb F G) (B : Set Key) : Prop where
  cacheLeaf : ∀ k x, v.cache.leaf k = some x → c.leaf k = some x ∧ ¬ Z true k.stem.1
  cacheStem : ∀ s x, v.cache.stem s = some x → c.stem s = some x ∧ ¬ Z true s.1
  cacheBranch : ∀ p x, v.cache.branch p = some x → c.branch p = some x ∧ ¬ Z false p
  all : E → v.cache = c ∧ ∀ b q, ¬ Z b q
  full : VerkleDb.overlayDb v.batch v.storage = c
  leaves : ∀ k, v.batch.leaf k = if k ∈ B then c.leaf k else none
  disk : v.storage = D

variable {E : Prop} {Z : Bool → List Byte → Prop} {D : MemoryDb F G}
variable {v : VerkleDb F G} {c : MemoryDb F G} {B : Set Key}

theorem overlay_none {α β : Type} {a b : α → Option β} {x : α} (h : VerkleDb.overlay a b x = none) :
    a x = none ∧ b x = none := by
  unfold VerkleDb.overlay at h
  cases ha : a x with
  | none => rw [ha] at h; exact ⟨rfl, h⟩
  | some y => rw [ha] at h; simp at h

theorem overlay_update {α β : Type} [DecidableEq α] (a b : α → Option β) (x : α) (y : β) :
    VerkleDb.overlay (Function.update a x (some y)) b = Function.update (VerkleDb.overlay a b) x (some y) := by
  funext z
  by_cases h : z = x
  · subst h; simp [VerkleDb.overlay]
  · simp [VerkleDb.overlay, h]

theorem Rel.batch (R : Rel E Z D v c B) : Within v.batch c := by
  have h := R.full
  refine ⟨fun k hk => ?_, fun k hk => ?_, fun k hk => ?_⟩
  all_goals
    rw [← h] at hk
    exact (overlay_none hk).1

theorem Rel.storage (R : Rel E Z D v c B) : Within v.storage c := by
  have h := R.full
  refine ⟨fun k hk => ?_, fun k hk => ?_, fun k hk => ?_⟩
  all_goals
    rw [← h] at hk
    exact (overlay_none hk).2

theorem overlay3 {α β : Type} {a b d e : α → Option β} (h1 : ∀ x y, a x = some y → e x = some y)
    (h2 : VerkleDb.overlay b d = e) : VerkleDb.overlay a (VerkleDb.overlay b d) = e := by
  subst h2
  funext x
  cases h : a x with
  | none => simp [VerkleDb.overlay, h]
  | some y =>
    rw [h1 x y h]
    simp [VerkleDb.overlay, h]

theorem Rel.getLeaf (R : Rel E Z D v c B) (k : Key) : HigherDb.getLeaf v k = HigherDb.getLeaf c k := by
  show VerkleDb.overlay v.cache.leaf (VerkleDb.overlay v.batch.leaf v.storage.leaf) k = c.leaf k
  rw [overlay3 (fun x y h => (R.cacheLeaf x y h).1) (congrArg MemoryDb.leaf R.full)]

theorem Rel.getStemMeta (R : Rel E Z D v c B) (s : Stem) : HigherDb.getStemMeta v s = HigherDb.getStemMeta c s := by
  show VerkleDb.overlay v.cache.stem (VerkleDb.overlay v.batch.stem v.storage.stem) s = c.stem s
  rw [overlay3 (fun x y h => (R.cacheStem x y h).1) (congrArg MemoryDb.stem R.full)]

theorem Rel.getBranchChild (R : Rel E Z D v c B) (p : Path) (i : Byte) :
    HigherDb.getBranchChild v p i = HigherDb.getBranchChild c p i := by
  show VerkleDb.overlay v.cache.branch (VerkleDb.overlay v.batch.branch v.storage.branch) (p ++ [i]) = c.branch (p ++ [i])
  rw [overlay3 (fun x y h => (R.cacheBranch x y h).1) (congrArg MemoryDb.branch R.full)]

theorem Rel.getBranchMeta (R : Rel E Z D v c B) (p : Path) : HigherDb.getBranchMeta v p = HigherDb.getBranchMeta c p := by
  show VerkleDb.getBranchMeta v p = MemoryDb.getBranchMeta c p
  unfold VerkleDb.getBranchMeta
  have hf : VerkleDb.overlay v.batch.branch v.storage.branch p = c.branch p := congrFun (congrArg MemoryDb.branch R.full) p
  unfold MemoryDb.getBranchMeta
  cases h : v.cache.branch p with
  | some x => rw [(R.cacheBranch p x h).1]; cases x <;> rfl
  | none =>
    unfold VerkleDb.overlay at hf
    cases h' : v.batch.branch p with
    | some x =>
      rw [h'] at hf
      rw [← hf]
      cases x <;> rfl
    | none =>
      rw [h'] at hf
      rw [← hf]
      rfl

/-! A write keeps the relation if it is cached exactly outside of the zone. -/

theorem Rel.insertBranch (R : Rel E Z D v c B) (p : Path) (m : BranchMeta F G) {d : ℕ} (hd : Z false p ↔ 4 < d) :
    Rel E Z D (HigherDb.insertBranch v p m d).1 (HigherDb.insertBranch c p m d).1 B := by
  show Rel E Z D (VerkleDb.insertBranch v p m d).1 (MemoryDb.insertBranch c p m d).1 B
  obtain ⟨r1, r2, r3, r4, r5, r6, r7⟩ := R
  have h4c : VerkleDb.cacheDepth = 4 := rfl
  have hw : ∀ x y, (VerkleDb.insertBranch v p m d).1.cache.branch x = some y →
      (MemoryDb.insertBranch c p m d).1.branch x = some y ∧ ¬ Z false x := by
    intro x y h
    by_cases h4 : d ≤ VerkleDb.cacheDepth
    · simp only [VerkleDb.insertBranch, if_pos h4, MemoryDb.insertBranch] at h ⊢
      by_cases hx : x = p
      · subst hx
        rw [Function.update_self] at h ⊢
        exact ⟨h, fun hz => by have := hd.1 hz; omega⟩
      · rw [Function.update_of_ne hx] at h ⊢
        exact r3 x y h
    · simp only [VerkleDb.insertBranch, if_neg h4, MemoryDb.insertBranch] at h ⊢
      have hx : x ≠ p := by
        rintro rfl
        exact (r3 _ y h).2 (hd.2 (by omega))
      rw [Function.update_of_ne hx]
      exact r3 x y h
  have ho : E → (VerkleDb.insertBranch v p m d).1.cache = (MemoryDb.insertBranch c p m d).1 ∧ ∀ b q, ¬ Z b q := by
    intro e
    obtain ⟨e1, e2⟩ := r4 e
    have h4 : d ≤ VerkleDb.cacheDepth := by
      by_contra h
      exact e2 _ _ (hd.2 (by omega))
    simp only [VerkleDb.insertBranch, if_pos h4, e1]
    exact ⟨trivial, e2⟩
  refine ⟨fun x y h => r1 x y (by by_cases h4 : d ≤ VerkleDb.cacheDepth <;> simpa [VerkleDb.insertBranch, h4, MemoryDb.insertBranch] using h),
    fun x y h => r2 x y (by by_cases h4 : d ≤ VerkleDb.cacheDepth <;> simpa [VerkleDb.insertBranch, h4, MemoryDb.insertBranch] using h),
    hw, ho, ?_, r6, r7⟩
  subst r5
  simp only [VerkleDb.overlayDb, VerkleDb.insertBranch, MemoryDb.insertBranch, overlay_update]

theorem Rel.addStem (R : Rel E Z D v c B) (p : Path) (s : Stem) {d : ℕ} (hd : Z false p ↔ 4 < d) :
    Rel E Z D (HigherDb.addStemAsBranchChild v p s d).1 (HigherDb.addStemAsBranchChild c p s d).1 B := by
  show Rel E Z D (VerkleDb.addStemAsBranchChild v p s d).1 (MemoryDb.addStemAsBranchChild c p s d).1 B
  obtain ⟨r1, r2, r3, r4, r5, r6, r7⟩ := R
  have h4c : VerkleDb.cacheDepth = 4 := rfl
  have hw : ∀ x y, (VerkleDb.addStemAsBranchChild v p s d).1.cache.branch x = some y →
      (MemoryDb.addStemAsBranchChild c p s d).1.branch x = some y ∧ ¬ Z false x := by
    intro x y h
    by_cases h4 : d ≤ VerkleDb.cacheDepth
    · simp only [VerkleDb.addStemAsBranchChild, if_pos h4, MemoryDb.addStemAsBranchChild] at h ⊢
      by_cases hx : x = p
      · subst hx
        rw [Function.update_self] at h ⊢
        exact ⟨h, fun hz => by have := hd.1 hz; omega⟩
      · rw [Function.update_of_ne hx] at h ⊢
        exact r3 x y h
    · simp only [VerkleDb.addStemAsBranchChild, if_neg h4, MemoryDb.addStemAsBranchChild] at h ⊢
      have hx : x ≠ p := by
        rintro rfl
        exact (r3 _ y h).2 (hd.2 (by omega))
      rw [Function.update_of_ne hx]
      exact r3 x y h
  have ho : E → (VerkleDb.addStemAsBranchChild v p s d).1.cache = (MemoryDb.addStemAsBranchChild c p s d).1 ∧ ∀ b q, ¬ Z b q := by
    intro e
    obtain ⟨e1, e2⟩ := r4 e
    have h4 : d ≤ VerkleDb.cacheDepth := by
      by_contra h
      exact e2 _ _ (hd.2 (by omega))
    simp only [VerkleDb.addStemAsBranchChild, if_pos h4, e1]
    exact ⟨trivial, e2⟩
  refine ⟨fun x y h => r1 x y (by by_cases h4 : d ≤ VerkleDb.cacheDepth <;> simpa [VerkleDb.addStemAsBranchChild, h4, MemoryDb.addStemAsBranchChild] using h),
    fun x y h => r2 x y (by by_cases h4 : d ≤ VerkleDb.cacheDepth <;> simpa [VerkleDb.addStemAsBranchChild, h4, MemoryDb.addStemAsBranchChild] using h),
    hw, ho, ?_, r6, r7⟩
  subst r5
  simp only [VerkleDb.overlayDb, VerkleDb.addStemAsBranchChild, MemoryDb.addStemAsBranchChild, overlay_update]

theorem Rel.insertStem (R : Rel E Z D v c B) (s : Stem) (m : StemMeta F G) {d : ℕ} (hd : Z true s.1 ↔ 4 < d) :
    Rel E Z D (HigherDb.insertStem v s m d).1 (HigherDb.insertStem c s m d).1 B := by
  show Rel E Z D (VerkleDb.insertStem v s m d).1 (MemoryDb.insertStem c s m d).1 B
  obtain ⟨r1, r2, r3, r4, r5, r6, r7⟩ := R
  have h4c : VerkleDb.cacheDepth = 4 := rfl
  have hw : ∀ x y, (VerkleDb.insertStem v s m d).1.cache.stem x = some y →
      (MemoryDb.insertStem c s m d).1.stem x = some y ∧ ¬ Z true x.1 := by
    intro x y h
    by_cases h4 : d ≤ VerkleDb.cacheDepth
    · simp only [VerkleDb.insertStem, if_pos h4, MemoryDb.insertStem] at h ⊢
      by_cases hx : x = s
      · subst hx
        rw [Function.update_self] at h ⊢
        exact ⟨h, fun hz => by have := hd.1 hz; omega⟩
      · rw [Function.update_of_ne hx] at h ⊢
        exact r2 x y h
    · simp only [VerkleDb.insertStem, if_neg h4, MemoryDb.insertStem] at h ⊢
      have hx : x ≠ s := by
        rintro rfl
        exact (r2 _ y h).2 (hd.2 (by omega))
      rw [Function.update_of_ne hx]
      exact r2 x y h
  have ho : E → (VerkleDb.insertStem v s m d).1.cache = (MemoryDb.insertStem c s m d).1 ∧ ∀ b q, ¬ Z b q := by
    intro e
    obtain ⟨e1, e2⟩ := r4 e
    have h4 : d ≤ VerkleDb.cacheDepth := by
      by_contra h
      exact e2 _ _ (hd.2 (by omega))
    simp only [VerkleDb.insertStem, if_pos h4, e1]
    exact ⟨trivial, e2⟩
  refine ⟨fun x y h => r1 x y (by by_cases h4 : d ≤ VerkleDb.cacheDepth <;> simpa [VerkleDb.insertStem, h4, MemoryDb.insertStem] using h),
    hw,
    fun x y h => r3 x y (by by_cases h4 : d ≤ VerkleDb.cacheDepth <;> simpa [VerkleDb.insertStem, h4, MemoryDb.insertStem] using h), ho, ?_, r6, r7⟩
  subst r5
  simp only [VerkleDb.overlayDb, VerkleDb.insertStem, MemoryDb.insertStem, overlay_update]

theorem Rel.insertLeaf (R : Rel E Z D v c B) (k : Key) (x : Value) {d : ℕ} (hd : Z true k.stem.1 ↔ 4 < d) (hk : c.leaf k = none ∨ k ∈ B) :
    Rel E Z D (HigherDb.insertLeaf v k x d).1 (HigherDb.insertLeaf c k x d).1 (B ∪ {k})
    ∧ (HigherDb.insertLeaf v k x d).2 = (HigherDb.insertLeaf c k x d).2 := by
  have hl : (HigherDb.insertLeaf v k x d).2 = (HigherDb.insertLeaf c k x d).2 := by
    show v.batch.leaf k = c.leaf k
    rw [R.leaves k]
    rcases hk with h | h
    · simp [h]
    · simp [h]
  refine ⟨?_, hl⟩
  show Rel E Z D (VerkleDb.insertLeaf v k x d).1 (MemoryDb.insertLeaf c k x d).1 (B ∪ {k})
  obtain ⟨r1, r2, r3, r4, r5, r6, r7⟩ := R
  have h4c : VerkleDb.cacheDepth = 4 := rfl
  have hw : ∀ (q : Key) (y : Value), (VerkleDb.insertLeaf v k x d).1.cache.leaf q = some y →
      (MemoryDb.insertLeaf c k x d).1.leaf q = some y ∧ ¬ Z true q.stem.1 := by
    intro q y h
    by_cases h4 : d ≤ VerkleDb.cacheDepth
    · simp only [VerkleDb.insertLeaf, if_pos h4, MemoryDb.insertLeaf] at h ⊢
      by_cases hx : q = k
      · subst hx
        rw [Function.update_self] at h ⊢
        exact ⟨h, fun hz => by have := hd.1 hz; omega⟩
      · rw [Function.update_of_ne hx] at h ⊢
        exact r1 q y h
    · simp only [VerkleDb.insertLeaf, if_neg h4, MemoryDb.insertLeaf] at h ⊢
      have hx : q ≠ k := by
        rintro rfl
        exact (r1 _ y h).2 (hd.2 (by omega))
      rw [Function.update_of_ne hx]
      exact r1 q y h
  have ho : E → (VerkleDb.insertLeaf v k x d).1.cache = (MemoryDb.insertLeaf c k x d).1 ∧ ∀ b q, ¬ Z b q := by
    intro e
    obtain ⟨e1, e2⟩ := r4 e
    have h4 : d ≤ VerkleDb.cacheDepth := by
      by_contra h
      exact e2 _ _ (hd.2 (by omega))
    simp only [VerkleDb.insertLeaf, if_pos h4, e1]
    exact ⟨trivial, e2⟩
  refine ⟨hw,
    fun x y h => r2 x y (by by_cases h4 : d ≤ VerkleDb.cacheDepth <;> simpa [VerkleDb.insertLeaf, h4, MemoryDb.insertLeaf] using h),
    fun x y h => r3 x y (by by_cases h4 : d ≤ VerkleDb.cacheDepth <;> simpa [VerkleDb.insertLeaf, h4, MemoryDb.insertLeaf] using h), ho, ?_, ?_, r7⟩
  · subst r5
    simp only [VerkleDb.overlayDb, VerkleDb.insertLeaf, MemoryDb.insertLeaf, overlay_update]
  · intro q
    simp only [VerkleDb.insertLeaf, MemoryDb.insertLeaf, Function.update_apply]
    by_cases h : q = k
    · subst h; simp
    · simp [h, r6 q]

/-! Trie functions. -/

theorem updateLeafTable_key {σ : Type} [HigherDb σ F G] {db : σ} {k : Key} {x : Value} {d : ℕ} {u : LeafUpdated}
    (h : (updateLeafTable (F := F) (G := G) db k x d).2 = some u) : u.key = k := by
  unfold updateLeafTable at h
  simp only at h
  split at h
  · split at h
    · cases h
    · cases h; rfl
  · cases h; rfl

theorem updateLeafTable_rel (R : Rel E Z D v c B) (k : Key) (x : Value) {d : ℕ} (hd : Z true k.stem.1 ↔ 4 < d) (hk : c.leaf k = none ∨ k ∈ B) :
    Rel E Z D (updateLeafTable v k x d).1 (updateLeafTable c k x d).1 (B ∪ {k})
    ∧ (updateLeafTable v k x d).2 = (updateLeafTable c k x d).2 := by
  obtain ⟨h1, h2⟩ := R.insertLeaf k x hd hk
  unfold updateLeafTable
  simp only [h2]
  split
  · split
    · exact ⟨h1, rfl⟩
    · exact ⟨h1, rfl⟩
  · exact ⟨h1, rfl⟩

theorem updateStemTable_rel (C : Crypto F G) (R : Rel E Z D v c B) (u : LeafUpdated) {d : ℕ} (hd : Z true u.key.stem.1 ↔ 4 < d) :
    Rel E Z D (updateStemTable C v u d).1 (updateStemTable C c u d).1 B
    ∧ (updateStemTable C v u d).2 = (updateStemTable C c u d).2 := by
  have hp : prevStem C v u.key.stem = prevStem C c u.key.stem := by
    simp only [prevStem, R.getStemMeta]
  unfold updateStemTable
  simp only [hp]
  exact ⟨R.insertStem _ _ hd, trivial⟩

theorem updateBranchTable_rel (C : Crypto F G) (R : Rel E Z D v c B) (u : StemUpdated F) (p : Path) (i : Byte) {d : ℕ}
    (hd : Z false p ↔ 4 < d) (hi : Z false (p ++ [i]) ↔ 4 < d) {c' : MemoryDb F G} {x : F} (h : updateBranchTable C c u p i d = .ok (c', x)) :
    ∃ v', updateBranchTable C v u p i d = .ok (v', x) ∧ Rel E Z D v' c' B := by
  unfold updateBranchTable at h ⊢
  rw [R.getBranchMeta]
  cases hg : HigherDb.getBranchMeta c p with
  | error e => rw [hg] at h; simp [bind, Except.bind] at h
  | ok o =>
    cases o with
    | none => rw [hg] at h; simp [bind, Except.bind, unwrap] at h
    | some m =>
      rw [hg] at h
      simp only [bind, Except.bind, unwrap, Except.ok.injEq, Prod.mk.injEq] at h ⊢
      obtain ⟨h1, h2⟩ := h
      refine ⟨_, ⟨rfl, h2⟩, ?_⟩
      rw [← h1]
      exact (R.insertBranch _ _ hd).addStem _ _ hi

theorem chainLoop_rel (C : Crypto F G) : ∀ (l : List (Byte × Path)) (v : VerkleDb F G) (c : MemoryDb F G) (x : F),
    Rel E Z D v c B → (∀ q ∈ l, Z false q.2 ↔ 4 < q.2.length) →
    Rel E Z D (chainLoop C v l x).1 (chainLoop C c l x).1 B ∧ (chainLoop C v l x).2 = (chainLoop C c l x).2
  | [], _, _, _, R, _ => ⟨R, rfl⟩
  | (i, p) :: rest, v, c, x, R, h => by
    unfold chainLoop
    exact chainLoop_rel C rest _ _ _ (R.insertBranch _ _ (h (i, p) (by simp))) (fun q hq => h q (by simp [hq]))

/-- The instruction writes with depths above `4` exactly in the zone; a leaf written is that of `k`. -/
def InsOk (Z : Bool → List Byte → Prop) (k : Key) : Ins F G → Prop
  | .updateLeaf key _ depth p i => (Z true key.stem.1 ↔ 4 < depth) ∧ (Z false p ↔ 4 < depth) ∧ (Z false (p ++ [i]) ↔ 4 < depth) ∧ key = k
  | .fallThrough p _ _ _ depth => Z false p ↔ 4 < depth
  | .chainInsert dep chain parent _ oi key _ ni => (Z false parent ↔ 4 < dep) ∧ (∀ q ∈ expandPath parent chain, Z false q ↔ 4 < q.length) ∧
    (Z true key.stem.1 ↔ 4 < (parent ++ chain).length) ∧ (Z false (parent ++ chain ++ [ni]) ↔ 4 < (parent ++ chain).length) ∧
    (Z false (parent ++ chain ++ [oi]) ↔ 4 < (parent ++ chain).length) ∧ key = k

theorem expandPath_bottom {parent chain : List Byte} {bottom : Path} {tail : List Path}
    (h : (expandPath parent chain).reverse = bottom :: tail) : bottom = parent ++ chain := by
  have h1 : (expandPath parent chain).reverse.head? = some bottom := by rw [h]; rfl
  rw [List.head?_reverse] at h1
  unfold expandPath at h1
  cases hc : chain.length with
  | zero => rw [hc] at h1; simp at h1
  | succ n =>
    rw [hc, List.range_succ, List.map_append, List.getLast?_append] at h1
    simp only [List.map_cons, List.map_nil, List.getLast?_singleton, Option.some_or, Option.some.injEq] at h1
    rw [← h1, ← hc, List.take_length]

theorem processIns_rel (C : Crypto F G) (R : Rel E Z D v c B) (k : Key) (hk : c.leaf k = none ∨ k ∈ B) {ins : Ins F G}
    (hi : InsOk Z k ins) {c' : MemoryDb F G} {b : Bool} (h : processIns C c ins = .ok (c', b)) :
    ∃ v' B', processIns C v ins = .ok (v', b) ∧ Rel E Z D v' c' B' ∧ ((B' = B ∧ c'.leaf = c.leaf) ∨ B' = B ∪ {k}) := by
  cases ins with
  | fallThrough p i ch old d =>
    simp only [InsOk] at hi
    simp only [processIns, R.getBranchMeta] at h ⊢
    cases h1 : HigherDb.getBranchMeta c ch with
    | error e => rw [h1] at h; simp [bind, Except.bind] at h
    | ok o =>
      cases o with
      | none => rw [h1] at h; simp [bind, Except.bind, unwrap] at h
      | some m =>
        rw [h1] at h
        cases h2 : HigherDb.getBranchMeta c p with
        | error e => rw [h2] at h; simp [bind, Except.bind, unwrap] at h
        | ok o2 =>
          cases o2 with
          | none => rw [h2] at h; simp [bind, Except.bind, unwrap] at h
          | some m2 =>
            rw [h2] at h
            simp only [bind, Except.bind, unwrap, Except.ok.injEq, Prod.mk.injEq] at h ⊢
            obtain ⟨h3, rfl⟩ := h
            refine ⟨_, B, ⟨rfl, rfl⟩, ?_, Or.inl ⟨rfl, by rw [← h3]; rfl⟩⟩
            rw [← h3]
            exact R.insertBranch _ _ hi
  | updateLeaf key x d p i =>
    simp only [InsOk] at hi
    obtain ⟨hd, hdp, hdi, rfl⟩ := hi
    obtain ⟨r1, r2⟩ := updateLeafTable_rel R key x hd hk
    simp only [processIns] at h ⊢
    rcases hv : updateLeafTable v key x d with ⟨v1, o1⟩
    rcases hc : updateLeafTable c key x d with ⟨c1, o2⟩
    rw [hv, hc] at r1 r2
    simp only at r1 r2
    subst r2
    rw [hc] at h
    cases o1 with
    | none =>
      simp only [Except.ok.injEq, Prod.mk.injEq] at h ⊢
      obtain ⟨rfl, rfl⟩ := h
      exact ⟨v1, _, ⟨rfl, rfl⟩, r1, Or.inr rfl⟩
    | some lu =>
      simp only at h ⊢
      have hlk : lu.key = key := updateLeafTable_key (F := F) (G := G) (db := c) (x := x) (d := d) (by rw [hc])
      obtain ⟨s1, s2⟩ := updateStemTable_rel C r1 lu (by rw [hlk]; exact hd)
      rw [s2]
      cases hb : updateBranchTable C (updateStemTable C c1 lu d).1 (updateStemTable C c1 lu d).2 p i d with
      | error e => rw [hb] at h; simp [bind, Except.bind] at h
      | ok r =>
        obtain ⟨c2, x2⟩ := r
        rw [hb] at h
        obtain ⟨v2, e2, R2⟩ := updateBranchTable_rel C s1 _ p i hdp hdi hb
        rw [e2]
        simp only [bind, Except.bind, Except.ok.injEq, Prod.mk.injEq] at h ⊢
        obtain ⟨rfl, rfl⟩ := h
        exact ⟨v2, _, ⟨rfl, rfl⟩, R2, Or.inr rfl⟩
  | chainInsert dep chain parent ci oi key x ni =>
    simp only [InsOk] at hi
    obtain ⟨hd, hq, hks, hni, hoi, rfl⟩ := hi
    simp only [processIns, R.getBranchChild] at h ⊢
    by_cases hch : chain = []
    · simp [hch] at h
    rw [if_neg hch] at h ⊢
    cases h1 : HigherDb.getBranchChild c parent ci with
    | none => rw [h1] at h; simp [bind, Except.bind, unwrap] at h
    | some ch =>
      rw [h1] at h
      cases ch with
      | branch m => simp [bind, Except.bind, unwrap] at h
      | stem t =>
        simp only [bind, Except.bind, unwrap] at h ⊢
        have hpl : ∀ q ∈ (expandPath parent chain).reverse, Z false q ↔ 4 < q.length := fun q h => hq q (by simpa using h)
        cases hp : (expandPath parent chain).reverse with
        | nil => rw [hp] at h; simp at h
        | cons bottom tail =>
          rw [hp] at h hpl
          simp only [List.head?_cons, List.tail_cons] at h ⊢
          have hbl := hpl bottom (by simp)
          have hbot := expandPath_bottom hp
          rw [← hbot] at hks hni hoi
          have R1 := R.insertBranch bottom (BranchMeta.zero F G) hbl
          have hk1 : (HigherDb.insertBranch c bottom (BranchMeta.zero F G) bottom.length).1.leaf key = none ∨ key ∈ B := hk
          obtain ⟨r1, r2⟩ := updateLeafTable_rel R1 key x hks hk1
          rw [r2]
          cases ho : (updateLeafTable (HigherDb.insertBranch c bottom (BranchMeta.zero F G) bottom.length).1 key x bottom.length).2 with
          | none => rw [ho] at h; simp at h
          | some lu =>
            rw [ho] at h
            simp only at h ⊢
            obtain ⟨s1, s2⟩ := updateStemTable_rel C r1 lu (by rw [updateLeafTable_key ho]; exact hks)
            rw [s2]
            split at h
            · simp at h
            · rename_i bt hbt
              obtain ⟨c2, x2⟩ := bt
              obtain ⟨v2, e2, R2⟩ := updateBranchTable_rel C s1 _ bottom ni hbl hni hbt
              rw [e2]
              simp only at h ⊢
              rw [R2.getStemMeta]
              cases hsm : HigherDb.getStemMeta c2 t with
              | none => rw [hsm] at h; simp at h
              | some sm =>
                rw [hsm] at h
                simp only at h ⊢
                split at h
                · simp at h
                · rename_i bt3 hbt3
                  obtain ⟨c3, x3⟩ := bt3
                  obtain ⟨v3, e3, R3⟩ := updateBranchTable_rel C R2 _ bottom oi hbl hoi hbt3
                  rw [e3]
                  simp only at h ⊢
                  obtain ⟨l1, l2⟩ := chainLoop_rel C (chain.reverse.zip tail) v3 c3 x3 R3 (by
                    intro q hq
                    exact hpl q.2 (by
                      have := List.of_mem_zip (a := q.1) (b := q.2) hq
                      simp [this.2]))
                  rw [l1.getBranchMeta, l2]
                  cases hg : HigherDb.getBranchMeta (chainLoop C c3 (chain.reverse.zip tail) x3).1 parent with
                  | error e => rw [hg] at h; simp at h
                  | ok o =>
                    cases o with
                    | none => rw [hg] at h; simp at h
                    | some m =>
                      rw [hg] at h
                      simp only [Except.ok.injEq, Prod.mk.injEq] at h ⊢
                      obtain ⟨h3, rfl⟩ := h
                      refine ⟨_, _, ⟨rfl, rfl⟩, ?_, Or.inr rfl⟩
                      rw [← h3]
                      exact l1.insertBranch _ _ hd

theorem processRev_rel (C : Crypto F G) (k : Key) : ∀ (l : List (Ins F G)) (v : VerkleDb F G) (c : MemoryDb F G) (B : Set Key),
    Rel E Z D v c B → (c.leaf k = none ∨ k ∈ B) → (∀ i ∈ l, InsOk Z k i) → ∀ c', processRev C c l = .ok c' →
    ∃ v' B', processRev C v l = .ok v' ∧ Rel E Z D v' c' B' ∧ ((B' = B ∧ c'.leaf = c.leaf) ∨ B' = B ∪ {k})
  | [], v, c, B, R, _, _, c', h => by
    simp only [processRev, Except.ok.injEq] at h ⊢
    exact ⟨v, B, rfl, h ▸ R, Or.inl ⟨rfl, h ▸ rfl⟩⟩
  | i :: rest, v, c, B, R, hk, hi, c', h => by
    simp only [processRev] at h ⊢
    cases h1 : processIns C c i with
    | error e => rw [h1] at h; simp [bind, Except.bind] at h
    | ok r =>
      obtain ⟨c1, b⟩ := r
      obtain ⟨v1, B1, e1, R1, hB⟩ := processIns_rel C R k hk (hi i (by simp)) h1
      rw [h1] at h
      rw [e1]
      simp only [bind, Except.bind] at h ⊢
      cases b with
      | true =>
        simp only [if_true, Except.ok.injEq] at h ⊢
        exact ⟨v1, B1, rfl, h ▸ R1, h ▸ hB⟩
      | false =>
        simp only [Bool.false_eq_true, if_false] at h ⊢
        have hk1 : c1.leaf k = none ∨ k ∈ B1 := by
          rcases hB with ⟨h2, h3⟩ | h2
          · rw [h2, h3]; exact hk
          · right; rw [h2]; simp
        obtain ⟨v2, B2, e2, R2, hB2⟩ := processRev_rel C k rest v1 c1 B1 R1 hk1 (fun j hj => hi j (by simp [hj])) c' h
        refine ⟨v2, B2, e2, R2, ?_⟩
        rcases hB with ⟨rfl, hl⟩ | rfl
        · rw [← hl]; exact hB2
        · right
          rcases hB2 with ⟨rfl, _⟩ | rfl
          · rfl
          · rw [Set.union_assoc, Set.union_self]

theorem createGo_rel (R : Rel E Z D v c B) (k : Key) (x : Value) : ∀ (l : List Byte) (n : ℕ) (p : Path) (acc : List (Ins F G)),
    createGo v k x n p l acc = createGo c k x n p l acc
  | [], _, _, _ => rfl
  | i :: rest, n, p, acc => by
    simp only [createGo, R.getBranchChild, R.getLeaf]
    cases HigherDb.getBranchChild c p i with
    | none => rfl
    | some ch =>
      cases ch with
      | stem s => rfl
      | branch m => exact createGo_rel R k x rest _ _ _

/-- Below four bytes shared by two of the stems in `o`. -/
def Zone (o : KV) (_ : Bool) (q : List Byte) : Prop := 4 ≤ q.length ∧ Many o (q.take 4)

/-- The insert of `k` makes it share five bytes with another stem, and no two stems shared its first four. -/
def Descends (m : KV) (k : Key) (x : Value) : Prop :=
  Many (Function.update m k (some x)) (k.stem.1.take 5) ∧ ¬ Many m (k.stem.1.take 4)

/-- The zone together with the new entries an insert makes below the cached levels. -/
def Zone' (C : Crypto F G) (o m : KV) (k : Key) (x : Value) (b : Bool) (q : List Byte) : Prop :=
  Zone o b q ∨ (Descends m k x ∧ if b then q = k.stem.1 else 5 ≤ q.length ∧ node C m q = none)

/-- Stems of `o` are still there, and if two stems share the first four bytes of `k` then two of those in `o` do. -/
structure Settled (o m : KV) (k : Key) : Prop where
  keeps : ∀ s, HasStem o s → HasStem m s
  deep : Many m (k.stem.1.take 4) → Many o (k.stem.1.take 4)

theorem Settled.many {o m : KV} {k : Key} (h : Settled o m k) {p : Path} (hp : Many o p) : Many m p := by
  obtain ⟨s, t, hne, hs, ht⟩ := hp
  exact ⟨s, t, hne, ⟨h.keeps s hs.1, hs.2⟩, ⟨h.keeps t ht.1, ht.2⟩⟩

/-- Another stem shares five bytes with the key inserted. -/
theorem Descends.other {m : KV} {k : Key} {x : Value} (h : Descends m k x) :
    ∃ u, u ≠ k.stem ∧ Under m (k.stem.1.take 5) u := by
  obtain ⟨⟨s, t, hne, hs, ht⟩, _⟩ := h
  by_cases e : s = k.stem
  · have : t ≠ k.stem := fun e' => hne (e.trans e'.symm)
    exact ⟨t, this, (hasStem_update.1 ht.1).resolve_right this, ht.2⟩
  · exact ⟨s, e, (hasStem_update.1 hs.1).resolve_right e, hs.2⟩

theorem Descends.absent {m : KV} {k : Key} {x : Value} (h : Descends m k x) : ¬ HasStem m k.stem := by
  intro hk
  obtain ⟨u, hu, h5⟩ := h.other
  exact h.2 (Many.mono (q := k.stem.1.take 5) ⟨u, k.stem, hu, h5, hk, List.take_prefix _ _⟩ (List.take_prefix_take_left (by omega)))

theorem take_prefix_below {p : List Byte} {a b : ℕ} (h : a ≤ b) : p.take a <+: p.take b := List.take_prefix_take_left h

/-- The entries near the path of `k` that are in the zone. -/
theorem Settled.zone_branch {o m : KV} {k : Key} (h : Settled o m k) (C : Crypto F G) (x : Value) {d : ℕ} (hd : d ≤ 31)
    (hb : IsBranch m (k.stem.1.take d)) : Zone' C o m k x false (k.stem.1.take d) ↔ 4 < d + 1 := by
  have hl : (k.stem.1.take d).length = d := by simp [(k.stem).2]; omega
  constructor
  · rintro (h1 | ⟨_, h1⟩)
    · have := h1.1
      omega
    · have : 5 ≤ (k.stem.1.take d).length := h1.1
      omega
  · intro h4
    refine Or.inl ⟨by omega, ?_⟩
    rw [List.take_take, min_eq_left (by omega)]
    rcases hb with hb | hb
    · have := congrArg List.length hb
      rw [hl] at this
      simp at this
      omega
    · exact h.deep (hb.mono (take_prefix_below (by omega)))

theorem Settled.zone_below {o m : KV} {k : Key} (h : Settled o m k) {d : ℕ} (hd : d < 31)
    (hb : IsBranch m (k.stem.1.take d)) (hn : ¬ Many m (k.stem.1.take (d + 1))) (b : Bool) {q : List Byte}
    (hq : k.stem.1.take (d + 1) <+: q) : Zone o b q ↔ 4 < d + 1 := by
  have hl : (k.stem.1.take (d + 1)).length = d + 1 := by simp [(k.stem).2]; omega
  have hlq := hq.length_le
  constructor
  · intro hz
    by_contra h4
    exact hn ((h.many hz.2).mono (List.prefix_take_iff.2 ⟨hq, by omega⟩))
  · intro h4
    refine ⟨by omega, ?_⟩
    obtain ⟨r, rfl⟩ := hq
    rw [List.take_append_of_le_length (by omega), List.take_take, min_eq_left (by omega)]
    rcases hb with hb | hb
    · have := congrArg List.length hb
      simp [(k.stem).2] at this
      omega
    · exact h.deep (hb.mono (take_prefix_below (by omega)))

theorem node_below {C : Crypto F G} {m : KV} {p q : Path} (hp : p ≠ []) (hn : ¬ Many m p) (hq : p <+: q.dropLast) :
    node C m q = none := by
  have h1 : p <+: q := hq.trans (List.dropLast_prefix q)
  have h2 : q ≠ [] := by
    rintro rfl
    simp at hq
    exact hp hq
  have h3 : q.dropLast ≠ [] := by
    intro e
    rw [e] at hq
    simp at hq
    exact hp hq
  refine node_none (fun h => ?_) (Or.inr fun h => ?_)
  · rcases h with h | h
    · exact h2 h
    · exact hn (h.mono h1)
  · rcases h with h | h
    · exact h3 h
    · exact hn (h.mono hq)

/-- Instructions issued on a settled trie are cached exactly outside of the zone. -/
theorem createGo_ok (C : Crypto F G) {o : KV} (m : KV) (k : Key) (x : Value) (h0 : Settled o m k) :
    ∀ (n d : ℕ), d + n = 31 → IsBranch m (k.stem.1.take d) → ∀ (acc r : List (Ins F G)),
    createGo (specDb C m) k x (d + 1) (k.stem.1.take d) (k.1.drop d) acc = .ok r →
    ∀ i ∈ r, i ∈ acc ∨ InsOk (Zone' C o m k x) k i
  | 0, d, hd, hb, acc, r, _ => by
    exfalso
    rcases hb with hb | hb
    · have := congrArg List.length hb
      simp [(k.stem).2] at this
      omega
    · have := hb.length_lt
      simp [(k.stem).2] at this
      omega
  | n + 1, d, hd, hb, acc, r, hr => by
    have hdlt : d < 31 := by omega
    have hlend : (k.stem.1.take d).length = d := by simp [(k.stem).2]; omega
    have hlen1 : (k.stem.1.take (d + 1)).length = d + 1 := by simp [(k.stem).2]; omega
    have hks : k.1[d]'(by rw [k.2]; omega) = k.stem.1[d]'(by rw [(k.stem).2]; omega) := by
      simp [Key.stem]
    have hdrop : k.1.drop d = k.stem.1[d]'(by rw [(k.stem).2]; omega) :: k.1.drop (d + 1) := by
      rw [← hks, List.drop_eq_getElem_cons]
    have hsd := stem_take_succ k hdlt
    rw [hdrop] at hr
    simp only [createGo] at hr
    have hchild : HigherDb.getBranchChild (specDb C m) (k.stem.1.take d) (k.stem.1[d]'(by rw [(k.stem).2]; omega))
        = node C m (k.stem.1.take (d + 1)) := by
      show node C m (k.stem.1.take d ++ [_]) = _
      rw [hsd]
    rw [hchild] at hr
    have hzb := h0.zone_branch C x (by omega) hb
    have hbelow : ¬ Many m (k.stem.1.take (d + 1)) → ∀ b q, k.stem.1.take (d + 1) <+: q → (Zone o b q ↔ 4 < d + 1) :=
      fun hn b q hq => h0.zone_below hdlt hb hn b hq
    have hd3 : Descends m k x → d ≤ 3 := by
      intro hD
      by_contra h4
      rcases hb with hb | hb
      · have := congrArg List.length hb
        rw [hlend] at this
        simp at this
        omega
      · exact hD.2 (hb.mono (take_prefix_below (by omega)))
    have hupd : ¬ Many m (k.stem.1.take (d + 1)) → (∀ u, Under m (k.stem.1.take (d + 1)) u → u = k.stem) →
        InsOk (F := F) (G := G) (Zone' C o m k x) k
          (.updateLeaf k x (d + 1) (k.stem.1.take d) (k.stem.1[d]'(by rw [(k.stem).2]; omega))) := by
      intro hn hu
      have hD : ¬ Descends m k x := by
        intro hD
        have := hd3 hD
        obtain ⟨u, h1, h2⟩ := hD.other
        exact h1 (hu u ⟨h2.1, (take_prefix_below (by omega)).trans h2.2⟩)
      have hz : ∀ b q, k.stem.1.take (d + 1) <+: q → (Zone' C o m k x b q ↔ 4 < d + 1) := by
        intro b q hq
        rw [← hbelow hn b q hq]
        exact ⟨fun h => h.resolve_right fun h' => hD h'.1, Or.inl⟩
      refine ⟨hz _ _ (List.take_prefix _ _), hzb, hz _ _ ?_, rfl⟩
      rw [hsd]
    have hsnoc : ∀ (j : Ins F G), InsOk (Zone' C o m k x) k j → ∀ i ∈ acc ++ [j], i ∈ acc ∨ InsOk (Zone' C o m k x) k i := by
      intro j hj i hi
      simp only [List.mem_append, List.mem_singleton] at hi
      rcases hi with h | rfl
      · exact Or.inl h
      · exact Or.inr hj
    cases hnode : node C m (k.stem.1.take (d + 1)) with
    | none =>
      rw [hnode] at hr
      simp only [Except.ok.injEq] at hr
      subst hr
      refine hsnoc _ (hupd (fun hm => ?_) fun u hu => ?_)
      · rw [node_branch (Or.inr hm)] at hnode
        cases hnode
      · exfalso
        by_cases hm : IsBranch m (k.stem.1.take (d + 1))
        · rw [node_branch hm] at hnode
          cases hnode
        · rw [node_stem hm hu (by rw [← hsd, List.dropLast_concat]; exact hb)] at hnode
          cases hnode
    | some ch =>
      rw [hnode] at hr
      cases ch with
      | branch bm =>
        obtain ⟨hb1, rfl⟩ := node_eq_branch hnode
        simp only [hsd] at hr
        intro i hi
        rcases createGo_ok C m k x h0 n (d + 1) (by omega) hb1 _ r hr i hi with h | h
        · exact hsnoc _ (show InsOk (Zone' C o m k x) k (.fallThrough _ _ _ _ _) from hzb) i h
        · exact Or.inr h
      | stem t =>
        obtain ⟨hnb, hut, _⟩ := node_eq_stem hnode
        have hnm : ¬ Many m (k.stem.1.take (d + 1)) := fun h => hnb (Or.inr h)
        have honly : ∀ u, Under m (k.stem.1.take (d + 1)) u → u = t := fun u hu => hut.unique hnm hu |>.symm
        simp only at hr
        by_cases hts : t = k.stem
        · subst hts
          simp only [pathDifference_self, (k.stem).2, if_true] at hr
          simp only [not_true_eq_false, and_false, if_false, true_and] at hr
          split at hr
          · simp only [Except.ok.injEq] at hr
            subst hr
            simp
          · simp only [Except.ok.injEq] at hr
            subst hr
            exact hsnoc _ (hupd hnm honly)
        · have hne : t.1 ≠ k.stem.1 := fun h => hts (Subtype.ext h)
          obtain ⟨L, h1, h2, he, het, hen⟩ := pathDifference_ne (by rw [t.2, (k.stem).2]) hne
          rw [t.2] at h1
          have hdL : d < L := by
            by_contra hcon
            have hpt := prefix_iff_take.1 hut.2
            rw [hlen1] at hpt
            apply hen
            have e1 : t.1[L] = (t.1.take (d + 1))[L]'(by simp [t.2]; omega) := by simp
            have e2 : k.stem.1[L] = (k.stem.1.take (d + 1))[L]'(by simp [(k.stem).2]; omega) := by simp
            rw [e1, e2]
            congr 1
            exact hpt.symm
          have hl31 : (t.1.take L).length ≠ 31 := by simp [t.2]; omega
          have hnlt : ¬ (t.1.take L).length < d + 1 - 1 := by simp [t.2]; omega
          simp only [he, if_neg hl31, if_neg hnlt, unwrap, bind, Except.bind, Except.ok.injEq] at hr
          subst hr
          apply hsnoc
          have S : ChainSit m k t d L := by
            refine ⟨hb, hut, honly, hdL, h1, het.symm, ?_⟩
            rw [List.getD_eq_getElem _ _ h2, List.getD_eq_getElem _ _ (by rw [t.2]; exact h1)]
            exact fun h => hen h.symm
          have hrel : k.stem.1.take d ++ (t.1.take L).drop (d + 1 - 1) = k.stem.1.take L := by
            rw [het]
            simp only [Nat.add_sub_cancel]
            have : k.stem.1.take d = (k.stem.1.take L).take d := by rw [List.take_take, min_eq_left (by omega)]
            rw [this, List.take_append_drop]
          have hLl : (k.stem.1.take L).length = L := by simp [(k.stem).2]; omega
          have hz : ∀ b q e, k.stem.1.take (d + 1) <+: q → d < e → (b = true → q = k.stem.1) → (b = false → k.stem.1.take (d + 1) <+: q.dropLast ∨ q.length = d + 1) →
              (Descends m k x → (if b then True else 5 ≤ q.length) → 4 < e) → (4 < e → d ≤ 3 → Descends m k x ∧ if b then True else 5 ≤ q.length) →
              (Zone' C o m k x b q ↔ 4 < e) := by
            intro b q e hq he hbt hbf h1 h2
            constructor
            · rintro (hz | ⟨hD, hz⟩)
              · have := (hbelow hnm b q hq).1 hz
                omega
              · refine h1 hD ?_
                cases b
                · exact hz.1
                · trivial
            · intro h4
              by_cases h3 : d ≤ 3
              · obtain ⟨hD, h5⟩ := h2 h4 h3
                refine Or.inr ⟨hD, ?_⟩
                cases b
                · refine ⟨h5, ?_⟩
                  rcases hbf rfl with h6 | h6
                  · exact node_below (by intro e; rw [e] at hlen1; simp at hlen1) hnm h6
                  · have : 5 ≤ q.length := h5
                    omega
                · exact hbt rfl
              · exact Or.inl ((hbelow hnm b q hq).2 (by omega))
          have hDL : d ≤ 3 → (Descends m k x ↔ 5 ≤ L) := by
            intro h3
            constructor
            · intro hD
              obtain ⟨u, h4, h5⟩ := hD.other
              have hut' : u = t := honly u ⟨h5.1, (take_prefix_below (by omega)).trans h5.2⟩
              subst hut'
              by_contra hlt
              apply hen
              have e5 : k.stem.1.take 5 = u.1.take 5 := by
                have := prefix_iff_take.1 h5.2
                have hl5 : (k.stem.1.take 5).length = 5 := by simp [(k.stem).2]
                rwa [hl5] at this
              have e1 : u.1[L] = (u.1.take 5)[L]'(by simp [u.2]; omega) := by simp
              have e2 : k.stem.1[L] = (k.stem.1.take 5)[L]'(by simp [(k.stem).2]; omega) := by simp
              rw [e1, e2]
              congr 1
              exact e5.symm
            · intro h5
              exact ⟨S.many_new (v := x) h5, fun h => hnm (h.mono (take_prefix_below (by omega)))⟩
          have hd3' : Descends m k x → d ≤ 3 ∧ 5 ≤ L := fun h => ⟨hd3 h, (hDL (hd3 h)).1 h⟩
          refine ⟨hzb, ?_, ?_, ?_, ?_, rfl⟩
          · intro q hq
            simp only [expandPath, List.mem_map, List.mem_range] at hq
            obtain ⟨j, hj, rfl⟩ := hq
            have hj' : d + j + 1 ≤ L := by simp [t.2] at hj; omega
            have hqe : k.stem.1.take d ++ ((t.1.take L).drop (d + 1 - 1)).take (j + 1) = k.stem.1.take (d + j + 1) := by
              rw [het]
              simp only [Nat.add_sub_cancel]
              rw [List.take_drop, List.take_take, min_eq_left (by omega)]
              have : k.stem.1.take d = (k.stem.1.take (j + 1 + d)).take d := by rw [List.take_take, min_eq_left (by omega)]
              rw [show d + j + 1 = j + 1 + d by omega, this, show d + (j + 1) = j + 1 + d by omega, List.take_append_drop]
            have hql : (k.stem.1.take (d + j + 1)).length = d + j + 1 := by simp [(k.stem).2]; omega
            rw [hqe, hql]
            refine hz _ _ _ (take_prefix_below (by omega)) (by omega) (by simp) (fun _ => ?_) (fun _ h => ?_) fun h4 h3 => ?_
            · by_cases hj0 : j = 0
              · right; rw [hql, hj0]
              · left
                have : (k.stem.1.take (d + j + 1)).dropLast = k.stem.1.take (d + j) := by
                  rw [List.dropLast_take (by rw [(k.stem).2]; omega)]
                  rfl
                rw [this]
                exact take_prefix_below (by omega)
            · have : 5 ≤ (k.stem.1.take (d + j + 1)).length := h
              omega
            · exact ⟨(hDL h3).2 (by omega), by show 5 ≤ (k.stem.1.take (d + j + 1)).length; omega⟩
          · rw [hrel, hLl]
            exact hz _ _ _ (List.take_prefix _ _) hdL (fun _ => rfl) (by simp) (fun h _ => (hd3' h).2) fun h4 h3 =>
              ⟨(hDL h3).2 h4, trivial⟩
          all_goals
            rw [hrel, hLl]
            refine hz _ _ _ ((take_prefix_below (by omega)).trans (List.prefix_append _ _)) hdL (by simp)
              (fun _ => Or.inl ?_) (fun h _ => (hd3' h).2) fun h4 h3 => ⟨(hDL h3).2 h4, ?_⟩
            · rw [List.dropLast_concat]
              exact take_prefix_below (by omega)
            · show 5 ≤ (k.stem.1.take L ++ [_]).length
              rw [List.length_append, hLl]
              simp
              omega

theorem Rel.deepen {C : Crypto F G} {o m : KV} {k : Key} {x : Value} {E' : Prop} (R : Rel E (Zone o) D v (specDb C m) B)
    (hE : E' → E) (hE' : E' → ¬ Descends m k x) : Rel E' (Zone' C o m k x) D v (specDb C m) B := by
  refine ⟨fun q y h => ?_, fun s y h => ?_, fun p y h => ?_, fun e => ?_, R.full, R.leaves, R.disk⟩
  · obtain ⟨h1, h2⟩ := R.cacheLeaf q y h
    refine ⟨h1, fun hz => ?_⟩
    rcases hz with hz | ⟨hD, hz⟩
    · exact h2 hz
    · have hz : q.stem.1 = k.stem.1 := hz
      have hz : q.stem = k.stem := Subtype.ext hz
      refine hD.absent ⟨q.suffix, ?_⟩
      have h1 : m q = some y := h1
      rw [← hz, mkKey_stem_suffix, h1]
      simp
  · obtain ⟨h1, h2⟩ := R.cacheStem s y h
    refine ⟨h1, fun hz => ?_⟩
    rcases hz with hz | ⟨hD, hz⟩
    · exact h2 hz
    · have hz : s = k.stem := Subtype.ext hz
      subst hz
      have h1 : (if HasStem m k.stem then some (stemMeta C m k.stem) else none) = some y := h1
      rw [if_neg hD.absent] at h1
      cases h1
  · obtain ⟨h1, h2⟩ := R.cacheBranch p y h
    refine ⟨h1, fun hz => ?_⟩
    rcases hz with hz | ⟨hD, hz⟩
    · exact h2 hz
    · have h3 : node C m p = some y := h1
      rw [hz.2] at h3
      cases h3
  · obtain ⟨h1, h2⟩ := R.all (hE e)
    refine ⟨h1, fun b q hz => ?_⟩
    rcases hz with hz | ⟨hD, _⟩
    · exact h2 b q hz
    · exact hE' e hD

theorem Rel.weaken {Z' : Bool → List Byte → Prop} (hZ : ∀ b q, Z b q → Z' b q) (R : Rel E Z' D v c B) : Rel E Z D v c B :=
  ⟨fun q y h => ⟨(R.cacheLeaf q y h).1, fun hz => (R.cacheLeaf q y h).2 (hZ _ _ hz)⟩,
    fun q y h => ⟨(R.cacheStem q y h).1, fun hz => (R.cacheStem q y h).2 (hZ _ _ hz)⟩,
    fun q y h => ⟨(R.cacheBranch q y h).1, fun hz => (R.cacheBranch q y h).2 (hZ _ _ hz)⟩,
    fun e => ⟨(R.all e).1, fun b q hz => (R.all e).2 b q (hZ _ _ hz)⟩, R.full, R.leaves, R.disk⟩

/-- **One insert, in lock step.** -/
theorem insertSingle_rel (C : Crypto F G) {m : KV} (k : Key) (x : Value) {o : KV} {E' : Prop} (R : Rel E (Zone o) D v (specDb C m) B)
    (hE : E' → E) (hE' : E' → ¬ Descends m k x) (h0 : m k ≠ some x → Settled o m k) (hk : m k = none ∨ m k = some x ∨ k ∈ B) :
    ∃ v' B', insertSingle C v (k, x) = .ok v' ∧ Rel E' (Zone o) D v' (specDb C (Function.update m k (some x))) B'
      ∧ (m k = some x → B' = B) ∧ (m k ≠ some x → B' = B ∪ {k}) := by
  have hs := insertSingle_spec C m k x
  unfold insertSingle createInsertInstructions at hs ⊢
  simp only at hs ⊢
  rw [createGo_rel R]
  have hc := createGo_spec C m k x 31 0 rfl (Or.inl rfl) []
  simp only [List.take_zero, List.drop_zero, Nat.zero_add] at hc
  by_cases hmk : m k = some x
  · have hnil : createGo (specDb C m) k x 1 [] k.1 [] = .ok [] := by
      rcases hc with ⟨h, _⟩ | ⟨_, _, _, h⟩
      · exact h
      · exact absurd hmk h
    rw [hnil]
    have : Function.update m k (some x) = m := by rw [← hmk]; exact Function.update_eq_self _ _
    rw [this]
    exact ⟨v, B, rfl, (R.deepen hE hE').weaken fun _ _ => Or.inl, fun _ => rfl, fun h => absurd hmk h⟩
  · rcases hc with ⟨_, h⟩ | ⟨tail, h, _, _⟩
    · exact absurd h hmk
    rw [List.nil_append] at h
    rw [h] at hs ⊢
    have hok := createGo_ok C m k x (h0 hmk) 31 0 rfl (Or.inl rfl) [] tail
      (by simpa using h)
    have hk' : (specDb C m).leaf k = none ∨ k ∈ B := by
      rcases hk with h | h | h
      · exact Or.inl h
      · exact absurd h hmk
      · exact Or.inr h
    obtain ⟨v', B', e, R', hB⟩ := processRev_rel C k tail.reverse v _ B (R.deepen hE hE') hk' (by
      intro i hi
      rcases hok i (by simpa using hi) with h | h
      · simp at h
      · exact h) _ hs
    refine ⟨v', B', e, R'.weaken fun _ _ => Or.inl, fun h => absurd h hmk, fun _ => ?_⟩
    rcases hB with ⟨_, hl⟩ | hB
    · exfalso
      have : Function.update m k (some x) k = m k := congrFun hl k
      rw [Function.update_self] at this
      exact hmk this.symm
    · exact hB

/-- Flushing keeps the relation and empties the set of batched keys. -/
theorem Rel.flush (R : Rel E Z D v c B) : Rel E Z c v.flush c ∅ := by
  refine ⟨R.cacheLeaf, R.cacheStem, R.cacheBranch, R.all, ?_, fun k => by simp [VerkleDb.flush, MemoryDb.new], R.full⟩
  have h := R.full
  simp only [VerkleDb.flush]
  rw [h]
  rfl

/-- A database just opened, with any zone. -/
theorem Rel.reopen (Z : Bool → List Byte → Prop) (c : MemoryDb F G) : Rel False Z c (VerkleDb.reopen c) c ∅ :=
  ⟨fun _ _ h => (by simp [VerkleDb.reopen, MemoryDb.new] at h), fun _ _ h => (by simp [VerkleDb.reopen, MemoryDb.new] at h),
    fun _ _ h => (by simp [VerkleDb.reopen, MemoryDb.new] at h), False.elim, rfl, fun k => by simp [VerkleDb.reopen, MemoryDb.new], rfl⟩

end Verif.Db
