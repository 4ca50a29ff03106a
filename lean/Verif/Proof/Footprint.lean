import Verif.Proof.Model
import Verif.Trie.Footprint

/-!
# Which rows a proof needs

A database with some of its rows removed makes the same proofs as the full one as long as the rows the prover reads are kept.
-/

set_option autoImplicit false

namespace Verif.Proof
open Verif Verif.Trie
open scoped Classical

variable {F G : Type}

/-- The rows the prover reads for a key are in the set: the root, the children of the branches on its path, the records of the stems among
those children, and the leaves of its stem. -/
structure _root_.Verif.Trie.Rows.Opens (S : Rows) (db : MemoryDb F G) (k : Key) : Prop where
  root : S.branch []
  leaf : ∀ i, S.leaf (mkKey k.stem i)
  child : ∀ p m i, p <+: k.1 → db.branch p = some (.branch m) → S.branch (p ++ [i])
  stem : ∀ p m i s, p <+: k.1 → db.branch p = some (.branch m) → db.branch (p ++ [i]) = some (.stem s) → S.stem s

section
variable [Field F] [AddCommGroup G] [Module F G] {S : Rows} {db : MemoryDb F G}

theorem restrict_findGo {k : Key} (h : S.Opens db k) : ∀ (rest : List Byte) (cur : Path) (bm : BranchMeta F G)
    (nodes : List (Path × Byte × Meta F G)), cur ++ rest = k.1 → db.branch cur = some (.branch bm) →
    findGo (S.restrict db) k rest cur bm nodes = findGo db k rest cur bm nodes
  | [], _, _, _, _, _ => rfl
  | i :: rest, cur, bm, nodes, hk, hc => by
    have hp : cur <+: k.1 := ⟨_, hk⟩
    have h1 := restrict_child S db (h.child cur bm i hp hc)
    have hl : HigherDb.getLeaf (S.restrict db) k = HigherDb.getLeaf db k :=
      restrict_getLeaf S db (by simpa using h.leaf k.suffix)
    rw [findGo, findGo, h1]
    cases hg : HigherDb.getBranchChild db cur i with
    | none => rfl
    | some c =>
      cases c with
      | branch m => exact restrict_findGo h rest (cur ++ [i]) m _ (by simpa using hk) hg
      | stem s =>
        have h2 := restrict_stemMeta S db (h.stem cur bm i s hp hc hg)
        simp only [h2, hl]

theorem restrict_findKeyPath {k : Key} (h : S.Opens db k) : findKeyPath (F := F) (G := G) (S.restrict db) k = findKeyPath db k := by
  have hr := restrict_branchMeta S db h.root
  simp only [findKeyPath, hr, bind, Except.bind]
  cases hm : HigherDb.getBranchMeta db [] with
  | error e => rfl
  | ok o =>
    cases o with
    | none => rfl
    | some bm =>
      refine restrict_findGo h k.1 [] bm [] rfl ?_
      have hm : MemoryDb.getBranchMeta db [] = .ok (some bm) := hm
      unfold MemoryDb.getBranchMeta at hm
      cases hb : db.branch [] with
      | none => simp [hb] at hm
      | some c =>
        cases c with
        | stem s => simp [hb] at hm
        | branch m => simp [hb] at hm; rw [hm]

/-- The branch nodes of a path are branches on the path of the key. -/
def NodesOk (db : MemoryDb F G) (k : Key) (nodes : List (Path × Byte × Meta F G)) : Prop :=
  ∀ x ∈ nodes, ∀ m, x.2.2 = .branch m → x.1 <+: k.1 ∧ ∃ m', db.branch x.1 = some (.branch m')

theorem findGo_nodes {k : Key} : ∀ (rest : List Byte) (cur : Path) (bm : BranchMeta F G)
    (nodes : List (Path × Byte × Meta F G)), cur ++ rest = k.1 → db.branch cur = some (.branch bm) → NodesOk db k nodes →
    ∀ {kp : KeyPath F G}, findGo db k rest cur bm nodes = .ok kp → NodesOk db k kp.nodes
  | [], _, _, _, _, _, _, _, h => by cases h
  | i :: rest, cur, bm, nodes, hk, hc, hn, kp, h => by
    have hp : cur <+: k.1 := ⟨_, hk⟩
    have hn' : NodesOk db k (nodes ++ [(cur, i, .branch bm)]) := by
      intro x hx m hm
      rcases List.mem_append.1 hx with hx | hx
      · exact hn x hx m hm
      · rw [List.mem_singleton] at hx
        subst hx
        exact ⟨hp, bm, hc⟩
    have hs : ∀ (q : Path) (b : Byte) (sm : StemMeta F G), NodesOk db k (nodes ++ [(cur, i, .branch bm)] ++ [(q, b, .stem sm)]) := by
      intro q b sm x hx m hm
      rcases List.mem_append.1 hx with hx | hx
      · exact hn' x hx m hm
      · rw [List.mem_singleton] at hx
        subst hx
        cases hm
    rw [findGo] at h
    cases hg : HigherDb.getBranchChild db cur i with
    | none =>
      rw [hg] at h
      obtain rfl := Except.ok.inj h
      exact hn'
    | some c =>
      cases c with
      | branch m =>
        rw [hg] at h
        exact findGo_nodes rest (cur ++ [i]) m _ (by simpa using hk) hg hn' h
      | stem s =>
        rw [hg] at h
        simp only [bind, Except.bind] at h
        cases hsm : unwrap "stem meta missing" (HigherDb.getStemMeta db s) with
        | error e => rw [hsm] at h; cases h
        | ok sm =>
          rw [hsm] at h
          simp only at h
          split at h
          · split at h
            · obtain rfl := Except.ok.inj h; exact hs _ _ _
            · cases h
          · split at h <;> (obtain rfl := Except.ok.inj h; exact hs _ _ _)

theorem findKeyPath_nodes {k : Key} {kp : KeyPath F G} (h : findKeyPath db k = .ok kp) : NodesOk db k kp.nodes := by
  simp only [findKeyPath, bind, Except.bind] at h
  cases hm : HigherDb.getBranchMeta db [] with
  | error e => rw [hm] at h; cases h
  | ok o =>
    rw [hm] at h
    cases o with
    | none => cases h
    | some bm =>
      refine findGo_nodes k.1 [] bm [] rfl ?_ (fun x hx => by cases hx) h
      have hm : MemoryDb.getBranchMeta db [] = .ok (some bm) := hm
      unfold MemoryDb.getBranchMeta at hm
      cases hb : db.branch [] with
      | none => simp [hb] at hm
      | some c =>
        cases c with
        | stem s => simp [hb] at hm
        | branch m => simp [hb] at hm; rw [hm]

/-- The openings are of branches on the paths and of the stems of the keys. -/
def OpeningsOk (db : MemoryDb F G) (keys : List Key) (o : BMap Path (Openings F G)) : Prop :=
  ∀ x ∈ o, (∀ m ch, x.2 = .branch m ch → ∃ k ∈ keys, x.1 <+: k.1 ∧ ∃ m', db.branch x.1 = some (.branch m')) ∧
    (∀ e s, x.2 = .suffix e s → ∃ k ∈ keys, e.stem = k.stem)

omit [Field F] [AddCommGroup G] [Module F G] in
theorem mem_bmap {β : Type} {p : Path} {v : β} : ∀ {o : BMap Path β} {x : Path × β}, x ∈ BMap.insert p v o → x = (p, v) ∨ x ∈ o
  | [], x, h => by simpa [BMap.insert] using h
  | (q, w) :: r, x, h => by
    simp only [BMap.insert] at h
    split at h
    · simpa using h
    · split at h
      · rcases List.mem_cons.1 h with h | h
        · exact Or.inr (h ▸ List.mem_cons_self)
        · exact (mem_bmap h).imp_right (List.mem_cons_of_mem _)
      · exact (List.mem_cons.1 h).imp_right (List.mem_cons_of_mem _)

omit [Field F] [AddCommGroup G] [Module F G] in
theorem insertBranchOpening_ok {keys : List Key} {o o' : BMap Path (Openings F G)} {p : Path} {z : Byte} {m : Meta F G}
    (ho : OpeningsOk db keys o) (hp : ∃ k ∈ keys, p <+: k.1 ∧ ∃ m', db.branch p = some (.branch m'))
    (h : insertBranchOpening o p z m = .ok o') : OpeningsOk db keys o' := by
  have key : ∀ m' ch, OpeningsOk db keys (BMap.insert p (.branch m' ch) o) := by
    intro m' ch x hx
    rcases mem_bmap hx with rfl | hx
    · exact ⟨fun _ _ _ => hp, nofun⟩
    · exact ho x hx
  unfold insertBranchOpening at h
  split at h
  · obtain rfl := Except.ok.inj h; exact key _ _
  · obtain rfl := Except.ok.inj h; exact key _ _
  · cases h

omit [Field F] [AddCommGroup G] [Module F G] in
theorem insertBranchOpenings_ok {keys : List Key} {k : Key} (hk : k ∈ keys) : ∀ (nodes : List (Path × Byte × Meta F G))
    {o o' : BMap Path (Openings F G)}, OpeningsOk db keys o → NodesOk db k nodes → insertBranchOpenings o nodes = .ok o' →
    OpeningsOk db keys o'
  | [], o, o', ho, _, h => by obtain rfl := Except.ok.inj h; exact ho
  | (p, z, .branch m) :: rest, o, o', ho, hn, h => by
    simp only [insertBranchOpenings, bind, Except.bind] at h
    cases h1 : insertBranchOpening o p z (.branch m) with
    | error e => rw [h1] at h; cases h
    | ok o1 =>
      rw [h1] at h
      exact insertBranchOpenings_ok hk rest (insertBranchOpening_ok ho ⟨k, hk, hn _ List.mem_cons_self m rfl⟩ h1)
        (fun x hx => hn x (List.mem_cons_of_mem _ hx)) h
  | (p, z, .stem m) :: rest, o, o', ho, hn, h =>
    insertBranchOpenings_ok hk rest ho (fun x hx => hn x (List.mem_cons_of_mem _ hx)) h

omit [Field F] [AddCommGroup G] [Module F G] in
theorem insertExtOpening_ok {keys : List Key} {o : BMap Path (Openings F G)} {p : Path} {e : ExtOpening F G}
    (ho : OpeningsOk db keys o) : OpeningsOk db keys (insertExtOpening o p e) := by
  unfold insertExtOpening
  split
  · intro x hx
    rcases mem_bmap hx with rfl | hx
    · exact ⟨nofun, nofun⟩
    · exact ho x hx
  · exact ho

omit [Field F] [AddCommGroup G] [Module F G] in
theorem insertSuffixOpening_ok [DecidableEq F] [DecidableEq G] {keys : List Key} {o o' : BMap Path (Openings F G)} {p : Path}
    {e : ExtOpening F G} {sv : Byte × Option Value} (ho : OpeningsOk db keys o) (he : ∃ k ∈ keys, e.stem = k.stem)
    (h : insertSuffixOpening o p e sv = .ok o') : OpeningsOk db keys o' := by
  have key : ∀ s, OpeningsOk db keys (BMap.insert p (.suffix e s) o) := by
    intro s x hx
    rcases mem_bmap hx with rfl | hx
    · refine ⟨nofun, fun e' s' h => ?_⟩
      cases h
      exact he
    · exact ho x hx
  unfold insertSuffixOpening at h
  split at h
  · split at h
    · rename_i e' s _ hee
      subst hee
      obtain rfl := Except.ok.inj h
      exact key _
    · cases h
  · split at h
    · obtain rfl := Except.ok.inj h; exact key _
    · cases h
  · cases h
  · obtain rfl := Except.ok.inj h; exact key _

theorem collectOne_ok [DecidableEq F] [DecidableEq G] {keys : List Key} {k : Key} (hk : k ∈ keys) {od od' : OpeningData F G}
    (ho : OpeningsOk db keys od.openings) (h : collectOne db od k = .ok od') : OpeningsOk db keys od'.openings := by
  simp only [collectOne, bind, Except.bind] at h
  cases h1 : findKeyPath (F := F) (G := G) db k with
  | error e => rw [h1] at h; cases h
  | ok kp =>
    rw [h1] at h
    simp only at h
    cases h2 : unwrap "empty node path" kp.nodes.getLast? with
    | error e => rw [h2] at h; cases h
    | ok last =>
      rw [h2] at h
      simp only at h
      cases h3 : insertBranchOpenings od.openings kp.nodes with
      | error e => rw [h3] at h; cases h
      | ok o =>
        rw [h3] at h
        have ho' := insertBranchOpenings_ok hk kp.nodes ho (findKeyPath_nodes h1) h3
        simp only at h
        split at h
        · obtain rfl := Except.ok.inj h; exact ho'
        · split at h
          · cases h
          · split at h
            · cases h
            · split at h
              · obtain rfl := Except.ok.inj h; exact insertExtOpening_ok ho'
              · split at h
                · cases h
                · rename_i o2 h4
                  obtain rfl := Except.ok.inj h
                  exact insertSuffixOpening_ok ho' ⟨k, hk, rfl⟩ h4

theorem restrict_collectOne [DecidableEq F] [DecidableEq G] {k : Key} (h : S.Opens db k) (od : OpeningData F G) :
    collectOne (S.restrict db) od k = collectOne db od k := by
  simp only [collectOne, restrict_findKeyPath h]

theorem restrict_collect [DecidableEq F] [DecidableEq G] : ∀ (ks : List Key) (od : OpeningData F G), (∀ k ∈ ks, S.Opens db k) →
    collectOpeningData (S.restrict db) od ks = collectOpeningData db od ks
  | [], _, _ => rfl
  | k :: ks, od, h => by
    simp only [collectOpeningData, restrict_collectOne (h k List.mem_cons_self), bind, Except.bind]
    cases collectOne db od k with
    | error e => rfl
    | ok od' => exact restrict_collect ks od' fun k hk => h k (List.mem_cons_of_mem _ hk)

theorem collect_ok [DecidableEq F] [DecidableEq G] {keys : List Key} : ∀ (ks : List Key) {od od' : OpeningData F G}, ks ⊆ keys →
    OpeningsOk db keys od.openings → collectOpeningData db od ks = .ok od' → OpeningsOk db keys od'.openings
  | [], _, _, _, ho, h => by obtain rfl := Except.ok.inj h; exact ho
  | k :: ks, od, od', hs, ho, h => by
    simp only [collectOpeningData, bind, Except.bind] at h
    cases h1 : collectOne db od k with
    | error e => rw [h1] at h; cases h
    | ok od1 =>
      rw [h1] at h
      exact collect_ok ks (fun x hx => hs (List.mem_cons_of_mem _ hx)) (collectOne_ok (hs List.mem_cons_self) ho h1) h

theorem restrict_childHash {k : Key} (h : S.Opens db k) {p : Path} {m : BranchMeta F G} (hp : p <+: k.1)
    (hb : db.branch p = some (.branch m)) (i : Byte) : childHashOf (F := F) (G := G) (S.restrict db) p i = childHashOf (F := F) (G := G) db p i := by
  unfold childHashOf
  rw [restrict_child S db (h.child p m i hp hb)]
  cases hg : HigherDb.getBranchChild db p i with
  | none => rfl
  | some c =>
    cases c with
    | branch m => rfl
    | stem s => simp only [restrict_stemMeta S db (h.stem p m i s hp hb hg)]

theorem restrict_openQuery {keys : List Key} (h : ∀ k ∈ keys, S.Opens db k) {o : BMap Path (Openings F G)} (ho : OpeningsOk db keys o)
    {x : Path × Openings F G} (hx : x ∈ o) : openQuery (S.restrict db) x = openQuery db x := by
  obtain ⟨p, op⟩ := x
  cases op with
  | extension e => rfl
  | branch m ch =>
    obtain ⟨k, hk, hp, m', hb⟩ := (ho _ hx).1 m ch rfl
    have e : branchChildrenHashes (F := F) (G := G) (S.restrict db) p = branchChildrenHashes (F := F) (G := G) db p := by
      unfold branchChildrenHashes
      congr 1
      funext i
      exact restrict_childHash (h k hk) hp hb i
    simp only [openQuery, branchOpenQuery, e]
  | suffix e s =>
    obtain ⟨k, hk, he⟩ := (ho _ hx).2 e s rfl
    have e1 : ∀ start, halfOfStem (F := F) (G := G) (S.restrict db) e.stem start = halfOfStem (F := F) (G := G) db e.stem start := by
      intro start
      unfold halfOfStem
      congr 1
      funext i
      rw [restrict_getLeaf S db (he ▸ (h k hk).leaf _)]
    have e2 : suffixQueries (F := F) (G := G) (S.restrict db) e.stem = suffixQueries db e.stem := by
      funext sm sv
      simp only [suffixQueries, e1]
    simp only [openQuery, suffixOpenQuery, e2]

theorem restrict_openAll {keys : List Key} (h : ∀ k ∈ keys, S.Opens db k) {o : BMap Path (Openings F G)} (ho : OpeningsOk db keys o) :
    ∀ (l : List (Path × Openings F G)), l ⊆ o → openAll (S.restrict db) l = openAll db l
  | [], _ => rfl
  | x :: l, hl => by
    simp only [openAll, restrict_openQuery h ho (hl List.mem_cons_self),
      restrict_openAll h ho l fun y hy => hl (List.mem_cons_of_mem _ hy)]

/-- The prover's answer, error or not, does not depend on the rows outside the set. -/
theorem restrict_proof [DecidableEq F] [DecidableEq G] (O : Opener F G) (keys : List Key) (h : ∀ k ∈ keys, S.Opens db k) :
    createVerkleProof O (S.restrict db) keys = createVerkleProof O db keys := by
  have e : createProverQueries (F := F) (G := G) (S.restrict db) keys = createProverQueries db keys := by
    unfold createProverQueries
    split
    · rfl
    · rw [restrict_collect keys _ h]
      cases hc : collectOpeningData (F := F) (G := G) db ⟨[], [], []⟩ keys with
      | error e => rfl
      | ok od =>
        have ho := collect_ok keys (fun _ h => h) (fun x hx => by cases hx) hc
        simp only [bind, Except.bind, restrict_openAll h ho od.openings fun _ h => h]
  simp only [createVerkleProof, e]

end
end Verif.Proof
