import Verif.Trie.Model
import Verif.Trie.Spec

/-!
# Which rows an insert needs

A database with some of its rows removed behaves as the full one as long as the rows on the paths of the keys are kept.
-/

set_option autoImplicit false

namespace Verif.Trie
open Verif
open scoped Classical

variable {F G : Type}

/-- A set of rows of the three tables. -/
structure Rows where
  leaf : Key → Prop
  stem : Stem → Prop
  branch : Path → Prop

/-- The database with the rows outside the set removed. -/
noncomputable def Rows.restrict (S : Rows) (db : MemoryDb F G) : MemoryDb F G where
  leaf k := if S.leaf k then db.leaf k else none
  stem s := if S.stem s then db.stem s else none
  branch p := if S.branch p then db.branch p else none

/-- The record of a stem and the rows on its path are in the set. -/
def Rows.HasStem (S : Rows) (s : Stem) : Prop := S.stem s ∧ ∀ p, p <+: s.1 → S.branch p

/-- The rows on the path of a key are in the set: the leaf, the record of its stem, the path, and if there is a stem on the path, the record
and the path of that stem. -/
structure Rows.Covers (S : Rows) (db : MemoryDb F G) (k : Key) : Prop where
  leaf : S.leaf k
  stem : S.stem k.stem
  path : ∀ p, p <+: k.1 → S.branch p
  found : ∀ p s, p <+: k.1 → db.branch p = some (.stem s) → S.HasStem s

theorem Rows.Covers.hasStem {S : Rows} {db : MemoryDb F G} {k : Key} (h : S.Covers db k) : S.HasStem k.stem :=
  ⟨h.stem, fun p hp => h.path p (hp.trans (List.take_prefix _ _))⟩

section reads
variable (S : Rows) (db : MemoryDb F G)

theorem restrict_leaf {k : Key} (h : S.leaf k) : (S.restrict db).leaf k = db.leaf k := if_pos h
theorem restrict_stem {s : Stem} (h : S.stem s) : (S.restrict db).stem s = db.stem s := if_pos h
theorem restrict_branch {p : Path} (h : S.branch p) : (S.restrict db).branch p = db.branch p := if_pos h

theorem restrict_branchMeta {p : Path} (h : S.branch p) :
    HigherDb.getBranchMeta (S.restrict db) p = HigherDb.getBranchMeta db p := by
  show MemoryDb.getBranchMeta _ _ = MemoryDb.getBranchMeta _ _
  simp only [MemoryDb.getBranchMeta, restrict_branch S db h]

theorem restrict_child {p : Path} {i : Byte} (h : S.branch (p ++ [i])) :
    HigherDb.getBranchChild (S.restrict db) p i = HigherDb.getBranchChild db p i := restrict_branch S db h

theorem restrict_stemMeta {s : Stem} (h : S.stem s) :
    HigherDb.getStemMeta (S.restrict db) s = HigherDb.getStemMeta db s := restrict_stem S db h

theorem restrict_getLeaf {k : Key} (h : S.leaf k) : HigherDb.getLeaf (S.restrict db) k = HigherDb.getLeaf db k := restrict_leaf S db h

theorem restrict_insertLeaf {k : Key} (h : S.leaf k) (v : Value) (d : ℕ) :
    HigherDb.insertLeaf (S.restrict db) k v d = (S.restrict (HigherDb.insertLeaf db k v d).1, (HigherDb.insertLeaf db k v d).2) := by
  refine Prod.ext ?_ (restrict_leaf S db h)
  show MemoryDb.mk _ _ _ = MemoryDb.mk _ _ _
  congr 1
  funext k'
  by_cases hk : k' = k
  · subst hk; simp [HigherDb.insertLeaf, MemoryDb.insertLeaf, h]
  · simp [HigherDb.insertLeaf, MemoryDb.insertLeaf, Rows.restrict, hk]

theorem restrict_insertStem {s : Stem} (h : S.stem s) (m : StemMeta F G) (d : ℕ) :
    HigherDb.insertStem (S.restrict db) s m d = (S.restrict (HigherDb.insertStem db s m d).1, (HigherDb.insertStem db s m d).2) := by
  refine Prod.ext ?_ (restrict_stem S db h)
  show MemoryDb.mk _ _ _ = MemoryDb.mk _ _ _
  congr 1
  funext k'
  by_cases hk : k' = s
  · subst hk; simp [HigherDb.insertStem, MemoryDb.insertStem, h]
  · simp [HigherDb.insertStem, MemoryDb.insertStem, Rows.restrict, hk]

theorem restrict_insertBranch {p : Path} (h : S.branch p) (m : BranchMeta F G) (d : ℕ) :
    HigherDb.insertBranch (S.restrict db) p m d =
      (S.restrict (HigherDb.insertBranch db p m d).1, (HigherDb.insertBranch db p m d).2) := by
  refine Prod.ext ?_ (by simp only [HigherDb.insertBranch, MemoryDb.insertBranch, restrict_branch S db h])
  show MemoryDb.mk _ _ _ = MemoryDb.mk _ _ _
  congr 1
  funext k'
  by_cases hk : k' = p
  · subst hk; simp [HigherDb.insertBranch, MemoryDb.insertBranch, h]
  · simp [HigherDb.insertBranch, MemoryDb.insertBranch, Rows.restrict, hk]

theorem restrict_addStem {p : Path} (h : S.branch p) (s : Stem) (d : ℕ) :
    HigherDb.addStemAsBranchChild (S.restrict db) p s d =
      (S.restrict (HigherDb.addStemAsBranchChild db p s d).1, (HigherDb.addStemAsBranchChild db p s d).2) := by
  refine Prod.ext ?_ (restrict_branch S db h)
  show MemoryDb.mk _ _ _ = MemoryDb.mk _ _ _
  congr 1
  funext k'
  by_cases hk : k' = p
  · subst hk; simp [HigherDb.addStemAsBranchChild, MemoryDb.addStemAsBranchChild, h]
  · simp [HigherDb.addStemAsBranchChild, MemoryDb.addStemAsBranchChild, Rows.restrict, hk]

end reads

section
variable [Field F] [AddCommGroup G] [SMul F G] (S : Rows) (C : Crypto F G)

theorem restrict_leafTable (db : MemoryDb F G) {k : Key} (h : S.leaf k) (v : Value) (d : ℕ) :
    updateLeafTable (S.restrict db) k v d = (S.restrict (updateLeafTable db k v d).1, (updateLeafTable db k v d).2) := by
  simp only [updateLeafTable, restrict_insertLeaf S db h]
  split
  · split <;> rfl
  · rfl

theorem restrict_stemTable (db : MemoryDb F G) (u : LeafUpdated) (h : S.stem u.key.stem) (d : ℕ) :
    updateStemTable C (S.restrict db) u d = (S.restrict (updateStemTable C db u d).1, (updateStemTable C db u d).2) := by
  have hp : prevStem C (S.restrict db) u.key.stem = prevStem C db u.key.stem := by
    simp only [prevStem, restrict_stemMeta S db h]
  simp only [updateStemTable, hp, restrict_insertStem S db h]

theorem restrict_branchTable (db : MemoryDb F G) (u : StemUpdated F) {p : Path} {i : Byte} (h : S.branch p) (h' : S.branch (p ++ [i])) (d : ℕ) :
    updateBranchTable C (S.restrict db) u p i d = (updateBranchTable C db u p i d).map fun r => (S.restrict r.1, r.2) := by
  simp only [updateBranchTable, restrict_branchMeta S db h, restrict_insertBranch S _ h, restrict_addStem S _ h', bind, Except.bind]
  cases HigherDb.getBranchMeta db p with
  | error e => rfl
  | ok o => cases o <;> rfl

theorem restrict_chainLoop : ∀ (l : List (Byte × Path)) (db : MemoryDb F G) (x : F), (∀ y ∈ l, S.branch y.2) →
    chainLoop C (S.restrict db) l x = (S.restrict (chainLoop C db l x).1, (chainLoop C db l x).2)
  | [], _, _, _ => rfl
  | (i, p) :: l, db, x, h => by
    simp only [chainLoop, restrict_insertBranch S _ (h _ List.mem_cons_self)]
    exact restrict_chainLoop l _ _ fun y hy => h y (List.mem_cons_of_mem _ hy)

/-- The rows that carrying out an instruction needs. -/
def Rows.Runs (S : Rows) (db : MemoryDb F G) : Ins F G → Prop
  | .fallThrough b _ c _ _ => S.branch b ∧ S.branch c
  | .updateLeaf k _ _ b i => S.leaf k ∧ S.HasStem k.stem ∧ S.branch b ∧ S.branch (b ++ [i])
  | .chainInsert _ chain parent c o k _ n => S.leaf k ∧ S.HasStem k.stem ∧ S.branch parent ∧ S.branch (parent ++ [c]) ∧
      (∀ p ∈ expandPath parent chain, S.branch p) ∧ S.branch (parent ++ chain ++ [n]) ∧ S.branch (parent ++ chain ++ [o]) ∧
      ∀ s, db.branch (parent ++ [c]) = some (.stem s) → S.HasStem s

/-- The row above. -/
def Rows.Falls (S : Rows) : Ins F G → Prop
  | .fallThrough b _ c _ _ => S.branch b ∧ S.branch c
  | _ => False

theorem Rows.Falls.runs {S : Rows} {db : MemoryDb F G} : ∀ {i : Ins F G}, S.Falls i → S.Runs db i
  | .fallThrough .., h => h

theorem expand_head {p : Path} {chain : List Byte} {b : Path} (h : (expandPath p chain).reverse.head? = some b) : b = p ++ chain := by
  rw [List.head?_reverse, expandPath, List.getLast?_map] at h
  cases hn : chain.length with
  | zero => rw [hn] at h; simp at h
  | succ n =>
    rw [hn, List.range_succ] at h
    simp only [List.getLast?_append, List.getLast?_singleton, Option.some_or, Option.map_some, Option.some.injEq] at h
    rw [← h, List.take_of_length_le (by omega)]

theorem restrict_processIns (db : MemoryDb F G) : ∀ {i : Ins F G}, S.Runs db i →
    processIns C (S.restrict db) i = (processIns C db i).map fun r => (S.restrict r.1, r.2)
  | .fallThrough b j c o d, h => by
    simp only [processIns, restrict_branchMeta S db h.1, restrict_branchMeta S db h.2, restrict_insertBranch S _ h.1, bind, Except.bind]
    cases HigherDb.getBranchMeta db c with
    | error e => rfl
    | ok x =>
      cases x with
      | none => rfl
      | some m =>
        simp only [unwrap]
        cases HigherDb.getBranchMeta db b with
        | error e => rfl
        | ok y => cases y <;> rfl
  | .updateLeaf k v d b j, ⟨h1, h2, h3, h4⟩ => by
    simp only [processIns, restrict_leafTable S db h1]
    have hk : ∀ lu, (updateLeafTable db k v d).2 = some lu → lu.key = k := by
      intro lu hlu
      simp only [updateLeafTable] at hlu
      split at hlu
      · split at hlu
        · simp at hlu
        · cases hlu; rfl
      · cases hlu; rfl
    rcases hlt : updateLeafTable db k v d with ⟨db1, o⟩
    cases o with
    | none => rfl
    | some lu =>
      have hlk := hk lu (by rw [hlt])
      simp only [restrict_stemTable S C db1 lu (hlk ▸ h2.1), restrict_branchTable S C _ _ h3 h4, bind, Except.bind]
      cases updateBranchTable C (updateStemTable C db1 lu d).1 (updateStemTable C db1 lu d).2 b j d <;> rfl
  | .chainInsert d chain parent c o k v n, ⟨h1, h2, h3, h4, h5, h6, h7, h8⟩ => by
    simp only [processIns]
    split
    · rfl
    simp only [restrict_child S db h4, bind, Except.bind]
    cases hc : HigherDb.getBranchChild db parent c with
    | none => rfl
    | some ch =>
      cases ch with
      | branch m => rfl
      | stem s =>
        have hs := (h8 s hc).1
        simp only [unwrap]
        cases hb : (expandPath parent chain).reverse.head? with
        | none => rfl
        | some bot =>
          have hbot := expand_head hb
          have hbS : S.branch bot := h5 bot (by
            have := List.mem_of_mem_head? hb
            simpa using this)
          subst hbot
          simp only [restrict_insertBranch S _ hbS, restrict_leafTable S _ h1]
          have hk : ∀ db' : MemoryDb F G, ∀ d lu, (updateLeafTable db' k v d).2 = some lu → lu.key = k := by
            intro db' d lu hlu
            simp only [updateLeafTable] at hlu
            split at hlu
            · split at hlu
              · simp at hlu
              · cases hlu; rfl
            · cases hlu; rfl
          cases hlt : (updateLeafTable (HigherDb.insertBranch db (parent ++ chain) (BranchMeta.zero F G) (parent ++ chain).length).1 k v
              (parent ++ chain).length).2 with
          | none => rfl
          | some lu =>
            have hlk := hk _ _ lu hlt
            simp only [restrict_stemTable S C _ lu (hlk ▸ h2.1), restrict_branchTable S C _ _ hbS h6]
            cases hbt : updateBranchTable C (updateStemTable C (updateLeafTable (HigherDb.insertBranch db (parent ++ chain)
                (BranchMeta.zero F G) (parent ++ chain).length).1 k v (parent ++ chain).length).1 lu (parent ++ chain).length).1
                (updateStemTable C (updateLeafTable (HigherDb.insertBranch db (parent ++ chain)
                (BranchMeta.zero F G) (parent ++ chain).length).1 k v (parent ++ chain).length).1 lu (parent ++ chain).length).2
                (parent ++ chain) n (parent ++ chain).length with
            | error e => rfl
            | ok bt =>
              simp only [Except.map, restrict_stemMeta S _ hs]
              cases HigherDb.getStemMeta bt.1 s with
              | none => rfl
              | some sm =>
                simp only [restrict_branchTable S C _ _ hbS h7]
                cases updateBranchTable C bt.1 ⟨none, sm.hashStem, s⟩ (parent ++ chain) o (parent ++ chain).length with
                | error e => rfl
                | ok bt2 =>
                  have hl : ∀ y ∈ chain.reverse.zip (expandPath parent chain).reverse.tail, S.branch y.2 := by
                    intro y hy
                    have := List.mem_of_mem_tail (List.of_mem_zip (a := y.1) (b := y.2) hy).2
                    exact h5 _ (by simpa using this)
                  simp only [Except.map, restrict_chainLoop S C _ _ _ hl, restrict_branchMeta S _ h3, restrict_insertBranch S _ h3]
                  cases HigherDb.getBranchMeta (chainLoop C bt2.1 (chain.reverse.zip (expandPath parent chain).reverse.tail) bt2.2).1 parent with
                  | error e => rfl
                  | ok x => cases x <;> rfl

theorem restrict_falls : ∀ (l : List (Ins F G)) (db : MemoryDb F G), (∀ i ∈ l, S.Falls i) →
    processRev C (S.restrict db) l = (processRev C db l).map S.restrict
  | [], _, _ => rfl
  | i :: l, db, h => by
    simp only [processRev, restrict_processIns S C db (h i List.mem_cons_self).runs, bind, Except.bind]
    cases processIns C db i with
    | error e => rfl
    | ok r =>
      simp only [Except.map]
      split
      · rfl
      · exact restrict_falls l _ fun j hj => h j (List.mem_cons_of_mem _ hj)

theorem restrict_processRev (db : MemoryDb F G) {i : Ins F G} {l : List (Ins F G)} (hi : S.Runs db i) (h : ∀ i ∈ l, S.Falls i) :
    processRev C (S.restrict db) (i :: l) = (processRev C db (i :: l)).map S.restrict := by
  simp only [processRev, restrict_processIns S C db hi, bind, Except.bind]
  cases processIns C db i with
  | error e => rfl
  | ok r =>
    simp only [Except.map]
    split
    · rfl
    · exact restrict_falls S C l _ h

/-! ### The instructions -/

theorem pathDifference_prefix : ∀ (a b : List Byte), (pathDifference a b).1 <+: a ∧ (pathDifference a b).1 <+: b ∧
    (∀ x, (pathDifference a b).2.1 = some x → (pathDifference a b).1 ++ [x] <+: a) ∧
    (∀ x, (pathDifference a b).2.2 = some x → (pathDifference a b).1 ++ [x] <+: b)
  | [], b => by simp [pathDifference]
  | _ :: _, [] => by simp [pathDifference]
  | x :: a, y :: b => by
    by_cases h : x = y
    · subst h
      have ih := pathDifference_prefix a b
      simp only [pathDifference, ne_eq, not_true, if_false, List.cons_append, List.cons_prefix_cons, true_and]
      exact ih
    · simp [pathDifference, h]

/-- The rows that carrying out a list of instructions needs: only the first may need rows that depend on the database. -/
def Rows.Ready (S : Rows) (db : MemoryDb F G) (l : List (Ins F G)) : Prop :=
  (∀ i ∈ l, S.Falls i) ∨ ∃ i r, l = i :: r ∧ S.Runs db i ∧ ∀ j ∈ r, S.Falls j

theorem restrict_ready (db : MemoryDb F G) {l : List (Ins F G)} (h : S.Ready db l) :
    processRev C (S.restrict db) l = (processRev C db l).map S.restrict := by
  rcases h with h | ⟨i, r, rfl, h1, h2⟩
  · exact restrict_falls S C l db h
  · exact restrict_processRev S C db h1 h2

variable {S}

theorem Rows.Ready.snoc {db : MemoryDb F G} {acc : List (Ins F G)} {i : Ins F G} (hacc : ∀ a ∈ acc, S.Falls a) (hi : S.Runs db i) :
    S.Ready db (acc ++ [i]).reverse := by
  refine Or.inr ⟨i, acc.reverse, by simp, hi, fun j hj => hacc j (by simpa using hj)⟩

theorem restrict_createGo {db : MemoryDb F G} {key : Key} (hc : S.Covers db key) (value : Value) : ∀ (rest : List Byte) (n : ℕ) (cur : Path)
    (acc : List (Ins F G)), cur ++ rest = key.1 →
    createGo (S.restrict db) key value n cur rest acc = createGo db key value n cur rest acc
  | [], _, _, _, _ => rfl
  | i :: rest, n, cur, acc, h => by
    have hp : (cur ++ [i]) <+: key.1 := ⟨rest, by rw [← h]; simp⟩
    simp only [createGo, restrict_child S db (hc.path _ hp), restrict_getLeaf S db hc.leaf]
    cases HigherDb.getBranchChild db cur i with
    | none => rfl
    | some c =>
      cases c with
      | stem s => rfl
      | branch m => exact restrict_createGo hc value rest _ _ _ (by rw [← h]; simp)

theorem createGo_ready {db : MemoryDb F G} {key : Key} (hc : S.Covers db key) (value : Value) : ∀ (rest : List Byte) (cur : Path)
    (acc l : List (Ins F G)), cur ++ rest = key.1 → (∀ a ∈ acc, S.Falls a) →
    createGo db key value (cur.length + 1) cur rest acc = .ok l → S.Ready db l.reverse
  | [], _, acc, l, _, hacc, hl => by
    simp only [createGo] at hl
    cases hl
    exact Or.inl fun i hi => hacc i (by simpa using hi)
  | i :: rest, cur, acc, l, h, hacc, hl => by
    have hp : (cur ++ [i]) <+: key.1 := ⟨rest, by rw [← h]; simp⟩
    have hp0 : cur <+: key.1 := ⟨i :: rest, h⟩
    have hleaf : S.Runs db (.updateLeaf key value (cur.length + 1) cur i : Ins F G) := ⟨hc.leaf, hc.hasStem, hc.path _ hp0, hc.path _ hp⟩
    simp only [createGo] at hl
    cases hch : HigherDb.getBranchChild db cur i with
    | none =>
      rw [hch] at hl
      cases hl
      exact Rows.Ready.snoc hacc hleaf
    | some c =>
      rw [hch] at hl
      cases c with
      | branch m =>
        simp only at hl
        refine createGo_ready hc value rest (cur ++ [i]) _ l (by rw [← h]; simp) ?_ (by simpa using hl)
        intro a ha
        rcases List.mem_append.1 ha with ha | ha
        · exact hacc a ha
        · rw [List.mem_singleton] at ha
          subst ha
          exact ⟨hc.path _ hp0, hc.path _ hp⟩
      | stem s =>
        have hs := hc.found _ s hp hch
        simp only at hl
        obtain ⟨d1, d2, d3, d4⟩ := pathDifference_prefix s.1 key.stem.1
        generalize pathDifference s.1 key.stem.1 = d at *
        split at hl
        · split at hl
          · simp at hl
          · split at hl
            · cases hl
              exact Or.inl (by simp)
            · cases hl
              exact Rows.Ready.snoc hacc hleaf
        · split at hl
          · simp at hl
          · rename_i hlen
            cases hold : d.2.1 with
            | none => rw [hold] at hl; simp [unwrap, bind, Except.bind] at hl
            | some o =>
              cases hnew : d.2.2 with
              | none => rw [hold, hnew] at hl; simp [unwrap, bind, Except.bind] at hl
              | some w =>
                rw [hold, hnew] at hl
                simp only [unwrap, bind, Except.bind, Except.ok.injEq] at hl
                subst hl
                have hkey : key.stem.1 <+: key.1 := List.take_prefix _ _
                have hcur : cur ++ d.1.drop (cur.length + 1 - 1) = d.1 := by
                  have h1 : cur <+: d.1 := List.prefix_of_prefix_length_le hp0 (d2.trans hkey) (by omega)
                  obtain ⟨t, ht⟩ := h1
                  rw [← ht]
                  simp
                refine Rows.Ready.snoc hacc ⟨hc.leaf, hc.hasStem, hc.path _ hp0, hc.path _ hp, ?_, ?_, ?_, ?_⟩
                · intro p hpm
                  simp only [expandPath, List.mem_map, List.mem_range] at hpm
                  obtain ⟨j, _, rfl⟩ := hpm
                  refine hc.path _ (List.IsPrefix.trans ?_ (d2.trans hkey))
                  conv_rhs => rw [← hcur]
                  exact (List.prefix_append_right_inj _).2 (List.take_prefix _ _)
                · rw [hcur]
                  exact hc.path _ ((d4 w hnew).trans hkey)
                · rw [hcur]
                  exact hs.2 _ (d3 o hold)
                · intro s' hs'
                  exact hc.found _ s' hp hs'

/-- An insert into a database with rows removed. -/
theorem restrict_insertSingle {db : MemoryDb F G} {kv : Key × Value} (hc : S.Covers db kv.1) :
    insertSingle C (S.restrict db) kv = (insertSingle C db kv).map S.restrict := by
  simp only [insertSingle, createInsertInstructions, restrict_createGo hc kv.2 kv.1.1 1 [] [] rfl, bind, Except.bind]
  cases hl : createGo db kv.1 kv.2 1 [] kv.1.1 [] with
  | error e => rfl
  | ok l => exact restrict_ready S C db (createGo_ready hc kv.2 kv.1.1 [] [] l rfl (by simp) hl)

/-! ### Pointers to stems -/

/-- Every pointer to a stem in the second database is in the first, or to one of certain stems. -/
def PtrFrom (T : Stem → Prop) (db db' : MemoryDb F G) : Prop :=
  ∀ p s, db'.branch p = some (.stem s) → db.branch p = some (.stem s) ∨ T s

theorem PtrFrom.trans {T : Stem → Prop} {a b c : MemoryDb F G} (h1 : PtrFrom T a b) (h2 : PtrFrom T b c) : PtrFrom T a c :=
  fun p s h => (h2 p s h).elim (h1 p s) Or.inr

theorem ptr_refl {T : Stem → Prop} (a : MemoryDb F G) : PtrFrom T a a := fun _ _ h => Or.inl h

theorem ptr_insertBranch {T : Stem → Prop} (db : MemoryDb F G) (p : Path) (m : BranchMeta F G) (d : ℕ) :
    PtrFrom T db (HigherDb.insertBranch db p m d).1 := by
  intro q s h
  simp only [HigherDb.insertBranch, MemoryDb.insertBranch, Function.update_apply] at h
  split at h
  · simp at h
  · exact Or.inl h

theorem ptr_addStem {T : Stem → Prop} (db : MemoryDb F G) (p : Path) {s : Stem} (hs : T s) (d : ℕ) :
    PtrFrom T db (HigherDb.addStemAsBranchChild db p s d).1 := by
  intro q s' h
  simp only [HigherDb.addStemAsBranchChild, MemoryDb.addStemAsBranchChild, Function.update_apply] at h
  split at h
  · cases h; exact Or.inr hs
  · exact Or.inl h

theorem ptr_leafTable {T : Stem → Prop} (db : MemoryDb F G) (k : Key) (v : Value) (d : ℕ) : PtrFrom T db (updateLeafTable db k v d).1 := by
  have : (updateLeafTable db k v d).1 = (HigherDb.insertLeaf db k v d).1 := by
    simp only [updateLeafTable]
    split
    · split <;> rfl
    · rfl
  rw [this]
  exact fun _ _ h => Or.inl h

theorem ptr_stemTable {T : Stem → Prop} (db : MemoryDb F G) (u : LeafUpdated) (d : ℕ) : PtrFrom T db (updateStemTable C db u d).1 :=
  fun _ _ h => Or.inl h

theorem ptr_branchTable {T : Stem → Prop} (db : MemoryDb F G) (u : StemUpdated F) (p : Path) (i : Byte) (d : ℕ) (hu : T u.stem)
    {r : MemoryDb F G × F} (h : updateBranchTable C db u p i d = .ok r) : PtrFrom T db r.1 := by
  simp only [updateBranchTable, bind, Except.bind] at h
  cases hm : HigherDb.getBranchMeta db p with
  | error e => rw [hm] at h; simp at h
  | ok o =>
    rw [hm] at h
    cases o with
    | none => simp [unwrap] at h
    | some m =>
      simp only [unwrap, Except.ok.injEq] at h
      subst h
      exact (ptr_insertBranch _ _ _ d).trans (ptr_addStem _ _ hu d)

theorem ptr_chainLoop {T : Stem → Prop} : ∀ (l : List (Byte × Path)) (db : MemoryDb F G) (x : F), PtrFrom T db (chainLoop C db l x).1
  | [], db, _ => ptr_refl db
  | (_, _) :: l, db, _ => (ptr_insertBranch db _ _ _).trans (ptr_chainLoop l _ _)

/-- The stems to which an instruction sets pointers. -/
def Points (T : Stem → Prop) (db : MemoryDb F G) : Ins F G → Prop
  | .fallThrough .. => True
  | .updateLeaf k .. => T k.stem
  | .chainInsert _ _ parent c _ k _ _ => T k.stem ∧ ∀ s, db.branch (parent ++ [c]) = some (.stem s) → T s

theorem leafTable_key {db : MemoryDb F G} {k : Key} {v : Value} {d : ℕ} {lu : LeafUpdated} (h : (updateLeafTable db k v d).2 = some lu) :
    lu.key = k := by
  simp only [updateLeafTable] at h
  split at h
  · split at h
    · simp at h
    · cases h; rfl
  · cases h; rfl

theorem ptr_processIns {T : Stem → Prop} (db : MemoryDb F G) : ∀ {i : Ins F G}, Points T db i → ∀ {r : MemoryDb F G × Bool},
    processIns C db i = .ok r → PtrFrom T db r.1
  | .fallThrough b j c o d, _, r, h => by
    simp only [processIns, bind, Except.bind] at h
    cases h1 : HigherDb.getBranchMeta db c with
    | error e => rw [h1] at h; simp at h
    | ok x =>
      rw [h1] at h
      cases x with
      | none => simp [unwrap] at h
      | some m =>
        simp only [unwrap] at h
        cases h2 : HigherDb.getBranchMeta db b with
        | error e => rw [h2] at h; simp at h
        | ok y =>
          rw [h2] at h
          cases y with
          | none => simp at h
          | some m' =>
            simp only [Except.ok.injEq] at h
            subst h
            exact ptr_insertBranch _ _ _ d
  | .updateLeaf k v d b j, hT, r, h => by
    simp only [processIns] at h
    rcases hlt : updateLeafTable db k v d with ⟨db1, o⟩
    have h1 : PtrFrom T db db1 := by
      have := ptr_leafTable (T := T) db k v d
      rwa [hlt] at this
    rw [hlt] at h
    cases o with
    | none => cases h; exact h1
    | some lu =>
      have hlk : lu.key = k := leafTable_key (db := db) (v := v) (d := d) (by rw [hlt])
      simp only [bind, Except.bind] at h
      cases hb : updateBranchTable C (updateStemTable C db1 lu d).1 (updateStemTable C db1 lu d).2 b j d with
      | error e => rw [hb] at h; simp at h
      | ok x =>
        rw [hb] at h
        cases h
        exact (h1.trans (ptr_stemTable C db1 lu d)).trans (ptr_branchTable C _ _ _ _ _ (by
          show T lu.key.stem
          rw [hlk]
          exact hT) hb)
  | .chainInsert d chain parent c o k v n, ⟨hT, hT'⟩, r, h => by
    simp only [processIns] at h
    split at h
    · simp at h
    simp only [bind, Except.bind] at h
    cases hc : HigherDb.getBranchChild db parent c with
    | none => rw [hc] at h; simp [unwrap] at h
    | some ch =>
      rw [hc] at h
      cases ch with
      | branch m => simp [unwrap] at h
      | stem s =>
        have hs := hT' s hc
        simp only [unwrap] at h
        cases hb : (expandPath parent chain).reverse.head? with
        | none => rw [hb] at h; simp at h
        | some bot =>
          rw [hb] at h
          simp only at h
          have p1 := ptr_insertBranch (T := T) db bot (BranchMeta.zero F G) bot.length
          generalize (HigherDb.insertBranch db bot (BranchMeta.zero F G) bot.length).1 = db1 at *
          have p2 := p1.trans (ptr_leafTable db1 k v bot.length)
          cases hlt : (updateLeafTable db1 k v bot.length).2 with
          | none => rw [hlt] at h; simp at h
          | some lu =>
            rw [hlt] at h
            simp only at h
            have hlk := leafTable_key hlt
            generalize (updateLeafTable db1 k v bot.length).1 = db2 at *
            have p3 := p2.trans (ptr_stemTable C db2 lu bot.length)
            cases hbt : updateBranchTable C (updateStemTable C db2 lu bot.length).1 (updateStemTable C db2 lu bot.length).2 bot n
                bot.length with
            | error e => rw [hbt] at h; simp at h
            | ok bt =>
              rw [hbt] at h
              simp only at h
              have p4 := p3.trans (ptr_branchTable C _ _ _ _ _ (by
                show T lu.key.stem
                rw [hlk]
                exact hT) hbt)
              cases hsm : HigherDb.getStemMeta bt.1 s with
              | none => rw [hsm] at h; simp at h
              | some sm =>
                rw [hsm] at h
                simp only at h
                cases hbt2 : updateBranchTable C bt.1 ⟨none, sm.hashStem, s⟩ bot o bot.length with
                | error e => rw [hbt2] at h; simp at h
                | ok bt2 =>
                  rw [hbt2] at h
                  simp only at h
                  have p5 := p4.trans (ptr_branchTable C _ _ _ _ _ hs hbt2)
                  have p6 := p5.trans (ptr_chainLoop C (chain.reverse.zip (expandPath parent chain).reverse.tail) bt2.1 bt2.2)
                  generalize chainLoop C bt2.1 (chain.reverse.zip (expandPath parent chain).reverse.tail) bt2.2 = cl at *
                  cases hm : HigherDb.getBranchMeta cl.1 parent with
                  | error e => rw [hm] at h; simp at h
                  | ok x =>
                    rw [hm] at h
                    cases x with
                    | none => simp at h
                    | some top =>
                      simp only [Except.ok.injEq] at h
                      subst h
                      exact p6.trans (ptr_insertBranch _ _ _ d)

theorem Rows.Runs.points {db : MemoryDb F G} : ∀ {i : Ins F G}, S.Runs db i → Points S.HasStem db i
  | .fallThrough .., _ => trivial
  | .updateLeaf .., h => h.2.1
  | .chainInsert .., h => ⟨h.2.1, h.2.2.2.2.2.2.2⟩

theorem ptr_falls {T : Stem → Prop} : ∀ (l : List (Ins F G)) (db : MemoryDb F G), (∀ i ∈ l, S.Falls i) → ∀ {db' : MemoryDb F G},
    processRev C db l = .ok db' → PtrFrom T db db'
  | [], db, _, db', h => by
    simp only [processRev, Except.ok.injEq] at h
    exact h ▸ ptr_refl db
  | i :: l, db, hi, db', h => by
    have hP : Points T db i := by
      have := hi i List.mem_cons_self
      cases i <;> simp_all [Rows.Falls, Points]
    simp only [processRev, bind, Except.bind] at h
    cases hr : processIns C db i with
    | error e => rw [hr] at h; simp at h
    | ok r =>
      rw [hr] at h
      have h1 := ptr_processIns C db hP hr
      simp only at h
      split at h
      · cases h; exact h1
      · exact h1.trans (ptr_falls l r.1 (fun j hj => hi j (List.mem_cons_of_mem _ hj)) h)

theorem ptr_ready {db db' : MemoryDb F G} {l : List (Ins F G)} (hl : S.Ready db l) (h : processRev C db l = .ok db') :
    PtrFrom S.HasStem db db' := by
  rcases hl with hl | ⟨i, r, rfl, h1, h2⟩
  · exact ptr_falls C l db hl h
  · simp only [processRev, bind, Except.bind] at h
    cases hr : processIns C db i with
    | error e => rw [hr] at h; simp at h
    | ok x =>
      rw [hr] at h
      have h3 := ptr_processIns C db h1.points hr
      simp only at h
      split at h
      · cases h; exact h3
      · exact h3.trans (ptr_falls C r x.1 h2 h)

theorem ptr_insertSingle {db db' : MemoryDb F G} {kv : Key × Value} (hc : S.Covers db kv.1) (h : insertSingle C db kv = .ok db') :
    PtrFrom S.HasStem db db' := by
  simp only [insertSingle, createInsertInstructions, bind, Except.bind] at h
  cases hl : createGo db kv.1 kv.2 1 [] kv.1.1 [] with
  | error e => rw [hl] at h; simp at h
  | ok l =>
    rw [hl] at h
    exact ptr_ready C (createGo_ready hc kv.2 kv.1.1 [] [] l rfl (by simp) hl) h

theorem Rows.Covers.step {db db' : MemoryDb F G} {k : Key} (h : S.Covers db k) (hp : PtrFrom S.HasStem db db') : S.Covers db' k :=
  ⟨h.leaf, h.stem, h.path, fun p s hk hs => (hp p s hs).elim (h.found p s hk) id⟩

/-- Inserts into a database with rows removed: if the rows on the paths of the keys are kept, the same happens as in the full database. -/
theorem restrict_insert : ∀ (l : List (Key × Value)) (db : MemoryDb F G), (∀ x ∈ l, S.Covers db x.1) →
    insert C (S.restrict db) l = (insert C db l).map S.restrict
  | [], _, _ => rfl
  | kv :: l, db, h => by
    simp only [insert, restrict_insertSingle C (h kv List.mem_cons_self), bind, Except.bind]
    cases hr : insertSingle C db kv with
    | error e => rfl
    | ok db' =>
      have hp := ptr_insertSingle C (h kv List.mem_cons_self) hr
      exact restrict_insert l db' fun x hx => (h x (List.mem_cons_of_mem _ hx)).step hp

end
end Verif.Trie
