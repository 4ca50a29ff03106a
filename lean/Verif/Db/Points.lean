import Verif.Db.Model
import Mathlib.Algebra.Group.Subgroup.Defs

/-!
# Points stay in the subgroup the generators are in

Whatever the trie writes to its database is a combination of generators and of points it read.
-/

set_option autoImplicit false

namespace Verif.Db
open Trie

variable {F G : Type} [Field F] [AddCommGroup G] [SMul F G]

/-- Every point stored in the tables is in `S`. -/
structure InS (S : AddSubgroup G) (db : MemoryDb F G) : Prop where
  stem : ∀ s m, db.stem s = some m → m.c1 ∈ S ∧ m.c2 ∈ S ∧ m.stemComm ∈ S
  branch : ∀ p m, db.branch p = some (.branch m) → m.comm ∈ S

/-- Every point stored in the cache, the batch or on disk is in `S`. -/
structure AllIn (S : AddSubgroup G) (v : VerkleDb F G) : Prop where
  storage : InS S v.storage
  batch : InS S v.batch
  cache : InS S v.cache

variable {S : AddSubgroup G}

omit [Field F] [SMul F G] in
theorem InS.new : InS S (MemoryDb.new : MemoryDb F G) := ⟨fun _ _ h => by simp [MemoryDb.new] at h, fun _ _ h => by simp [MemoryDb.new] at h⟩

omit [Field F] [SMul F G] in
theorem InS.overlay {a b : MemoryDb F G} (ha : InS S a) (hb : InS S b) : InS S (VerkleDb.overlayDb a b) := by
  refine ⟨fun s m h => ?_, fun p m h => ?_⟩
  · simp only [VerkleDb.overlayDb, VerkleDb.overlay] at h
    cases hs : a.stem s with
    | none => rw [hs] at h; exact hb.stem s m h
    | some m' => rw [hs] at h; cases h; exact ha.stem s _ hs
  · simp only [VerkleDb.overlayDb, VerkleDb.overlay] at h
    cases hs : a.branch p with
    | none => rw [hs] at h; exact hb.branch p m h
    | some m' => rw [hs] at h; cases h; exact ha.branch p _ hs

omit [Field F] [SMul F G] in
theorem InS.insertStem {db : MemoryDb F G} (h : InS S db) (s : Stem) {m : StemMeta F G} (hm : m.c1 ∈ S ∧ m.c2 ∈ S ∧ m.stemComm ∈ S) (d : ℕ) :
    InS S (db.insertStem s m d).1 := by
  refine ⟨fun s' m' h' => ?_, h.branch⟩
  simp only [MemoryDb.insertStem] at h'
  by_cases e : s' = s
  · subst e
    rw [Function.update_self] at h'
    cases h'
    exact hm
  · rw [Function.update_of_ne e] at h'
    exact h.stem s' m' h'

omit [Field F] [SMul F G] in
theorem InS.insertBranch {db : MemoryDb F G} (h : InS S db) (p : Path) {m : BranchMeta F G} (hm : m.comm ∈ S) (d : ℕ) :
    InS S (db.insertBranch p m d).1 := by
  refine ⟨h.stem, fun p' m' h' => ?_⟩
  simp only [MemoryDb.insertBranch] at h'
  by_cases e : p' = p
  · subst e
    rw [Function.update_self] at h'
    cases h'
    exact hm
  · rw [Function.update_of_ne e] at h'
    exact h.branch p' m' h'

omit [Field F] [SMul F G] in
theorem InS.addStem {db : MemoryDb F G} (h : InS S db) (p : Path) (s : Stem) (d : ℕ) : InS S (db.addStemAsBranchChild p s d).1 := by
  refine ⟨h.stem, fun p' m' h' => ?_⟩
  simp only [MemoryDb.addStemAsBranchChild] at h'
  by_cases e : p' = p
  · subst e
    rw [Function.update_self] at h'
    cases h'
  · rw [Function.update_of_ne e] at h'
    exact h.branch p' m' h'

namespace AllIn
variable {v : VerkleDb F G} (h : AllIn S v)
include h

omit [Field F] [SMul F G]

theorem flush : AllIn S v.flush := ⟨h.batch.overlay h.storage, InS.new, h.cache⟩

theorem insertLeaf (k : Key) (x : Value) (d : ℕ) : AllIn S (v.insertLeaf k x d).1 := by
  refine ⟨h.storage, ⟨h.batch.stem, h.batch.branch⟩, ?_⟩
  show InS S (if _ then _ else _)
  split
  · exact ⟨h.cache.stem, h.cache.branch⟩
  · exact h.cache

theorem insertStem (s : Stem) {m : StemMeta F G} (hm : m.c1 ∈ S ∧ m.c2 ∈ S ∧ m.stemComm ∈ S) (d : ℕ) : AllIn S (v.insertStem s m d).1 := by
  refine ⟨h.storage, h.batch.insertStem s hm d, ?_⟩
  show InS S (if _ then _ else _)
  split
  · exact h.cache.insertStem s hm d
  · exact h.cache

theorem insertBranch (p : Path) {m : BranchMeta F G} (hm : m.comm ∈ S) (d : ℕ) : AllIn S (v.insertBranch p m d).1 := by
  refine ⟨h.storage, h.batch.insertBranch p hm d, ?_⟩
  show InS S (if _ then _ else _)
  split
  · exact h.cache.insertBranch p hm d
  · exact h.cache

theorem addStem (p : Path) (s : Stem) (d : ℕ) : AllIn S (v.addStemAsBranchChild p s d).1 := by
  refine ⟨h.storage, h.batch.addStem p s d, ?_⟩
  show InS S (if _ then _ else _)
  split
  · exact h.cache.addStem p s d
  · exact h.cache

theorem getStemMeta {s : Stem} {m : StemMeta F G} (hm : v.getStemMeta s = some m) : m.c1 ∈ S ∧ m.c2 ∈ S ∧ m.stemComm ∈ S :=
  (h.cache.overlay (h.batch.overlay h.storage)).stem s m hm

theorem getBranchMeta {p : Path} {m : BranchMeta F G} (hm : v.getBranchMeta p = .ok (some m)) : m.comm ∈ S := by
  have key : ∀ {db : MemoryDb F G}, InS S db → ∀ {m}, db.getBranchMeta p = .ok (some m) → m.comm ∈ S := by
    intro db hdb m hm
    unfold MemoryDb.getBranchMeta at hm
    cases hb : db.branch p with
    | none => rw [hb] at hm; cases hm
    | some c =>
      rw [hb] at hm
      cases c with
      | stem s => cases hm
      | branch b => cases hm; exact hdb.branch p _ hb
  unfold VerkleDb.getBranchMeta at hm
  cases h1 : v.cache.getBranchMeta p with
  | error e => rw [h1] at hm; cases hm
  | ok o =>
    rw [h1] at hm
    cases o with
    | some b => cases hm; exact key h.cache h1
    | none =>
      cases h2 : v.batch.getBranchMeta p with
      | error e => simp only [bind, Except.bind, h2] at hm; cases hm
      | ok o =>
        simp only [bind, Except.bind, h2] at hm
        cases o with
        | some b => cases hm; exact key h.batch h2
        | none => exact key h.storage hm

end AllIn

/-- The generators are in `S`, and `S` is closed under multiples by scalars. -/
structure Closed (S : AddSubgroup G) (C : Crypto F G) : Prop where
  gen : ∀ i, C.g i ∈ S
  smul : ∀ (a : F) (p : G), p ∈ S → a • p ∈ S

theorem bind_ok {α β : Type} {x : Res α} {f : α → Res β} {b : β} (h : (x >>= f) = .ok b) : ∃ a, x = .ok a ∧ f a = .ok b := by
  cases x with
  | error e => cases h
  | ok a => exact ⟨a, rfl, h⟩

theorem unwrap_ok {α : Type} {s : String} {o : Option α} {a : α} (h : unwrap s o = .ok a) : o = some a := by
  cases o with
  | none => cases h
  | some b => cases h; rfl

section
variable {C : Crypto F G} (hC : Closed S C)
include hC

theorem Closed.scalarMul (a : F) (i : ℕ) : C.scalarMul a i ∈ S := hC.smul a _ (hC.gen i)

theorem updateStem_in {v : VerkleDb F G} (h : AllIn S v) (u : LeafUpdated) (d : ℕ) : AllIn S (updateStemTable C v u d).1 := by
  have hp : (prevStem C v u.key.stem).1 ∈ S ∧ (prevStem C v u.key.stem).2.2.1 ∈ S ∧ (prevStem C v u.key.stem).2.2.2.2.1 ∈ S := by
    unfold prevStem
    cases hs : HigherDb.getStemMeta v u.key.stem with
    | some m => exact h.getStemMeta hs
    | none => exact ⟨S.zero_mem, S.zero_mem, S.add_mem (hC.gen 0) (hC.scalarMul _ _)⟩
  unfold updateStemTable
  refine AllIn.insertStem h _ ?_ d
  dsimp only
  split
  · exact ⟨S.add_mem (S.add_mem hp.1 (hC.scalarMul _ _)) (hC.scalarMul _ _), hp.2.1, S.add_mem hp.2.2 (hC.scalarMul _ _)⟩
  · exact ⟨hp.1, S.add_mem (S.add_mem hp.2.1 (hC.scalarMul _ _)) (hC.scalarMul _ _), S.add_mem hp.2.2 (hC.scalarMul _ _)⟩

theorem updateBranch_in {v v' : VerkleDb F G} (h : AllIn S v) {u : StemUpdated F} {p : Path} {i : Byte} {d : ℕ} {x : F}
    (hr : updateBranchTable C v u p i d = .ok (v', x)) : AllIn S v' := by
  unfold updateBranchTable at hr
  obtain ⟨o, h1, hr⟩ := bind_ok hr
  obtain ⟨m, h2, hr⟩ := bind_ok hr
  cases hr
  rw [unwrap_ok h2] at h1
  exact AllIn.addStem (AllIn.insertBranch h p (S.add_mem (h.getBranchMeta h1) (hC.scalarMul _ _)) d) _ _ _

theorem chainLoop_in : ∀ (l : List (Byte × Path)) {v : VerkleDb F G} (x : F), AllIn S v → AllIn S (chainLoop C v l x).1
  | [], _, _, h => h
  | (_, p) :: l, _, _, h => chainLoop_in l _ (AllIn.insertBranch h p (hC.scalarMul _ _) _)

omit hC in
theorem leafTable_in {v : VerkleDb F G} (h : AllIn S v) (k : Key) (x : Value) (d : ℕ) : AllIn S (updateLeafTable v k x d).1 := by
  unfold updateLeafTable
  dsimp only
  split
  · split
    · exact AllIn.insertLeaf h k x d
    · exact AllIn.insertLeaf h k x d
  · exact AllIn.insertLeaf h k x d

theorem processIns_in {v v' : VerkleDb F G} (h : AllIn S v) {ins : Ins F G} {b : Bool} (hr : processIns C v ins = .ok (v', b)) :
    AllIn S v' := by
  cases ins with
  | fallThrough p i c o d =>
    obtain ⟨m1, -, hr⟩ := bind_ok hr
    obtain ⟨m2, -, hr⟩ := bind_ok hr
    obtain ⟨m3, h3, hr⟩ := bind_ok hr
    obtain ⟨m4, h4, hr⟩ := bind_ok hr
    cases hr
    rw [unwrap_ok h4] at h3
    exact AllIn.insertBranch h p (S.add_mem (h.getBranchMeta h3) (hC.scalarMul _ _)) d
  | updateLeaf k x d p i =>
    simp only [processIns] at hr
    have hl := leafTable_in h k x d
    cases hu : updateLeafTable v k x d with
    | mk db1 o =>
      rw [hu] at hl
      cases o with
      | none => rw [hu] at hr; cases hr; exact hl
      | some lu =>
        rw [hu] at hr
        obtain ⟨⟨db2, y⟩, h1, hr⟩ := bind_ok hr
        cases hr
        exact updateBranch_in hC (updateStem_in hC hl lu d) h1
  | chainInsert sd chain parent ci oi nk nv ni =>
    simp only [processIns] at hr
    split at hr
    · cases hr
    · obtain ⟨c, -, hr⟩ := bind_ok hr
      cases c with
      | branch m => cases hr
      | stem s =>
      obtain ⟨_, -, hr⟩ := bind_ok hr
      obtain ⟨bottom, -, hr⟩ := bind_ok hr
      obtain ⟨lu, -, hr⟩ := bind_ok hr
      obtain ⟨⟨db2, y2⟩, h2, hr⟩ := bind_ok hr
      obtain ⟨sm, -, hr⟩ := bind_ok hr
      obtain ⟨⟨db3, y3⟩, h3, hr⟩ := bind_ok hr
      obtain ⟨o, h4, hr⟩ := bind_ok hr
      obtain ⟨top, h5, hr⟩ := bind_ok hr
      cases hr
      have i1 := leafTable_in (AllIn.insertBranch h bottom (m := BranchMeta.zero F G) S.zero_mem bottom.length) nk nv bottom.length
      have i2 := updateBranch_in hC (updateStem_in hC i1 lu bottom.length) h2
      have i3 := updateBranch_in hC i2 h3
      have i4 := chainLoop_in hC (chain.reverse.zip (expandPath parent chain).reverse.tail) y3 i3
      rw [unwrap_ok h5] at h4
      exact AllIn.insertBranch i4 parent (S.add_mem (i4.getBranchMeta h4) (hC.scalarMul _ _)) sd

theorem processRev_in : ∀ (l : List (Ins F G)) {v v' : VerkleDb F G}, AllIn S v → processRev C v l = .ok v' → AllIn S v'
  | [], _, _, h, hr => by cases hr; exact h
  | i :: l, v, v', h, hr => by
    unfold processRev at hr
    obtain ⟨⟨db, b⟩, h1, hr⟩ := bind_ok hr
    have hi := processIns_in hC h h1
    cases b with
    | true => cases hr; exact hi
    | false => exact processRev_in l hi hr

theorem insert_in : ∀ (l : List (Key × Value)) {v v' : VerkleDb F G}, AllIn S v → Trie.insert C v l = .ok v' → AllIn S v'
  | [], _, _, h, hr => by cases hr; exact h
  | kv :: l, v, v', h, hr => by
    unfold Trie.insert at hr
    obtain ⟨db, h1, hr⟩ := bind_ok hr
    unfold insertSingle at h1
    obtain ⟨ins, -, h1⟩ := bind_ok h1
    exact insert_in l (processRev_in hC _ h h1) hr

end

theorem new_in {v v' : VerkleDb F G} (h : AllIn S v) (hr : Trie.new (F := F) (G := G) v = .ok v') : AllIn S v' := by
  unfold Trie.new at hr
  obtain ⟨root, -, hr⟩ := bind_ok hr
  cases root with
  | some m => cases hr; exact h
  | none =>
    dsimp only at hr
    split at hr
    · cases hr; exact AllIn.insertBranch h [] (m := BranchMeta.zero _ _) S.zero_mem 0
    · cases hr

end Verif.Db
