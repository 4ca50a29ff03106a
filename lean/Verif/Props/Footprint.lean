import Verif.Props.Storage
import Verif.Props.Sound
import Verif.Proof.Footprint

/-!
# C80: inserts and proofs need only some of the rows

A database that holds some of the rows of a trie, among them those on the paths of the keys, gives the same results as the whole database.
-/

set_option autoImplicit false

namespace Verif.Props
open Verif Verif.Spec Verif.Trie Verif.Proof
open scoped Classical

variable {F G : Type} [Field F] [AddCommGroup G] [Module F G]

/-- The two databases agree on the rows of the set. -/
def AgreeOn (S : Rows) (a b : MemoryDb F G) : Prop :=
  (∀ k, S.leaf k → a.leaf k = b.leaf k) ∧ (∀ s, S.stem s → a.stem s = b.stem s) ∧ (∀ p, S.branch p → a.branch p = b.branch p)

omit [Field F] [AddCommGroup G] [Module F G] in
theorem agreeOn_iff (S : Rows) (a b : MemoryDb F G) : AgreeOn S a b ↔ S.restrict a = S.restrict b := by
  constructor
  · rintro ⟨h1, h2, h3⟩
    show MemoryDb.mk _ _ _ = MemoryDb.mk _ _ _
    congr 1
    · funext k; by_cases h : S.leaf k <;> simp [h, h1 k]
    · funext k; by_cases h : S.stem k <;> simp [h, h2 k]
    · funext k; by_cases h : S.branch k <;> simp [h, h3 k]
  · intro h
    refine ⟨fun k hk => ?_, fun k hk => ?_, fun k hk => ?_⟩
    · rw [← restrict_leaf S a hk, h, restrict_leaf S b hk]
    · rw [← restrict_stem S a hk, h, restrict_stem S b hk]
    · rw [← restrict_branch S a hk, h, restrict_branch S b hk]

/-- **C80.** The rows on the paths of the keys decide what an insert does: any two databases (also ones no insert ever produced) that agree
on a set of rows holding the leaf, the stem and the path of every key written, and the record and the path of every stem found on those
paths, fail with the same panic or give results that agree on the same set. -/
theorem C80_paths_decide (C : Crypto F G) (S : Rows) {a b : MemoryDb F G} (h : AgreeOn S a b) (l : List (Key × Value))
    (hl : ∀ x ∈ l, S.leaf x.1 ∧ S.stem x.1.stem ∧ (∀ p, p <+: x.1.1 → S.branch p) ∧
      ∀ p s, p <+: x.1.1 → a.branch p = some (.stem s) → S.stem s ∧ ∀ q, q <+: s.1 → S.branch q) :
    (∃ e, Trie.insert C a l = .error e ∧ Trie.insert C b l = .error e) ∨
      ∃ a' b', Trie.insert C a l = .ok a' ∧ Trie.insert C b l = .ok b' ∧ AgreeOn S a' b' := by
  have ha := restrict_insert (S := S) C l a fun x hx => ⟨(hl x hx).1, (hl x hx).2.1, (hl x hx).2.2.1, (hl x hx).2.2.2⟩
  have hb := restrict_insert (S := S) C l b fun x hx => ⟨(hl x hx).1, (hl x hx).2.1, (hl x hx).2.2.1, fun p s hp hs =>
    (hl x hx).2.2.2 p s hp ((h.2.2 p ((hl x hx).2.2.1 p hp)).trans hs)⟩
  rw [(agreeOn_iff S a b).1 h, hb] at ha
  cases h1 : Trie.insert C a l with
  | error e =>
    cases h2 : Trie.insert C b l with
    | error e' =>
      rw [h1, h2] at ha
      obtain rfl := Except.error.inj ha
      exact Or.inl ⟨_, rfl, rfl⟩
    | ok b' => rw [h1, h2] at ha; cases ha
  | ok a' =>
    cases h2 : Trie.insert C b l with
    | error e' => rw [h1, h2] at ha; cases ha
    | ok b' =>
      rw [h1, h2] at ha
      exact Or.inr ⟨_, _, rfl, rfl, (agreeOn_iff S a' b').2 (Except.ok.inj ha).symm⟩

/-- Two databases without any row agree on all rows; the insert fails in both with the same panic. -/
example (C : Crypto F G) (x : Key × Value) : AgreeOn ⟨fun _ => True, fun _ => True, fun _ => True⟩ (MemoryDb.new : MemoryDb F G) MemoryDb.new ∧
    ∃ e, Trie.insert C (MemoryDb.new : MemoryDb F G) [x] = .error e := by
  refine ⟨⟨fun _ _ => rfl, fun _ _ => rfl, fun _ _ => rfl⟩, ?_⟩
  obtain ⟨i, r, hk⟩ : ∃ i r, x.1.1 = i :: r := List.exists_cons_of_ne_nil fun e => by
    have := x.1.2
    rw [e] at this
    simp at this
  refine ⟨"update_branch_table: branch missing", ?_⟩
  have hc : createInsertInstructions (F := F) (G := G) (MemoryDb.new : MemoryDb F G) x.1 x.2 = .ok [.updateLeaf x.1 x.2 1 [] i] := by
    unfold createInsertInstructions
    rw [hk, createGo]
    rfl
  simp only [Trie.insert, insertSingle, hc, bind, Except.bind, processInstructions, List.reverse_singleton, processRev, processIns]
  rfl

/-- Every row of the first database is a row of the second. -/
structure PartOf (a b : MemoryDb F G) : Prop where
  leaf : ∀ k, a.leaf k = none ∨ a.leaf k = b.leaf k
  stem : ∀ s, a.stem s = none ∨ a.stem s = b.stem s
  branch : ∀ p, a.branch p = none ∨ a.branch p = b.branch p

omit [Field F] [AddCommGroup G] [Module F G] in
theorem partOf_restrict (S : Rows) (b : MemoryDb F G) : PartOf (S.restrict b) b := by
  refine ⟨fun k => ?_, fun k => ?_, fun k => ?_⟩
  · by_cases h : S.leaf k <;> simp [Rows.restrict, h]
  · by_cases h : S.stem k <;> simp [Rows.restrict, h]
  · by_cases h : S.branch k <;> simp [Rows.restrict, h]

omit [Field F] [AddCommGroup G] [Module F G] in
theorem PartOf.eq_restrict {a b : MemoryDb F G} (h : PartOf a b) :
    a = (Rows.mk (fun k => a.leaf k = b.leaf k) (fun s => a.stem s = b.stem s) (fun p => a.branch p = b.branch p)).restrict b := by
  obtain ⟨al, as, ab⟩ := a
  show MemoryDb.mk _ _ _ = MemoryDb.mk _ _ _
  congr 1
  · funext k
    by_cases e : al k = b.leaf k
    · simp [e]
    · simpa [e] using (h.leaf k).resolve_right e
  · funext k
    by_cases e : as k = b.stem k
    · simp [e]
    · simpa [e] using (h.stem k).resolve_right e
  · funext k
    by_cases e : ab k = b.branch k
    · simp [e]
    · simpa [e] using (h.branch k).resolve_right e

/-- In a trie at most one stem is found on a path. -/
theorem node_stem_unique {C : Crypto F G} {m : KV} {p q u : Path} {s t : Stem} (hp : p <+: u) (hq : q <+: u)
    (h1 : node C m p = some (.stem s)) (h2 : node C m q = some (.stem t)) : p = q := by
  have key : ∀ {p q : Path} {s t : Stem}, p <+: u → q <+: u → node C m p = some (.stem s) → node C m q = some (.stem t) →
      ¬ p.length < q.length := by
    intro p q s t hp hq h1 h2 hlt
    obtain ⟨hnb, -, -⟩ := node_eq_stem h1
    obtain ⟨-, -, hd⟩ := node_eq_stem h2
    have hpq := prefix_dropLast hp hq hlt
    rcases hd with hd | hd
    · rw [hd] at hpq
      exact hnb (Or.inl (List.prefix_nil.1 hpq))
    · exact hnb (Or.inr (hd.mono hpq))
  have := key hp hq h1 h2
  have := key hq hp h2 h1
  exact (List.prefix_of_prefix_length_le hp hq (by omega)).eq_of_length (by omega)

/-- Below a stem there are no rows. -/
theorem node_below {C : Crypto F G} {m : KV} {p q : Path} {s : Stem} (h : node C m p = some (.stem s)) (hpq : p <+: q) (hne : p ≠ q) :
    node C m q = none := by
  obtain ⟨hnb, -, -⟩ := node_eq_stem h
  have hlt : p.length < q.length := lt_of_le_of_ne hpq.length_le fun e => hne (hpq.eq_of_length e)
  have hnil : p ≠ [] := fun e => hnb (Or.inl e)
  have hpd := prefix_dropLast hpq (List.prefix_refl q) hlt
  have h1 : ¬ IsBranch m q := by
    rintro (e | e)
    · subst e; simp at hlt
    · exact hnb (Or.inr (e.mono hpq))
  have h2 : ¬ IsBranch m q.dropLast := by
    rintro (e | e)
    · rw [e] at hpd
      exact hnil (List.prefix_nil.1 hpd)
    · exact hnb (Or.inr (e.mono hpd))
  simp [node, h1, h2]

/-- The stems found on the path of a key. -/
noncomputable def foundStems (C : Crypto F G) (m : KV) (k : Key) : Finset Stem :=
  if h : ∃ s p, p <+: k.1 ∧ node C m p = some (.stem s) then {h.choose} else ∅

theorem mem_foundStems {C : Crypto F G} {m : KV} {k : Key} {p : Path} {s : Stem} (hp : p <+: k.1) (h : node C m p = some (.stem s)) :
    s ∈ foundStems C m k := by
  have hex : ∃ s p, p <+: k.1 ∧ node C m p = some (.stem s) := ⟨s, p, hp, h⟩
  obtain ⟨q, hq, hs⟩ := hex.choose_spec
  have e := node_stem_unique hp hq h hs
  subst e
  rw [h] at hs
  have := (BranchChild.stem.inj (Option.some.inj hs))
  rw [foundStems, dif_pos hex, Finset.mem_singleton]
  exact this

theorem foundStems_card (C : Crypto F G) (m : KV) (k : Key) : (foundStems C m k).card ≤ 1 := by
  unfold foundStems
  split <;> simp

/-- **C80.** A node that keeps part of the rows of a trie. For any keys there are at most two stems and 32 paths per key such that every
database holding rows of the trie, among them (where the trie has them) the leaves of the keys, those stems and those paths, takes any
writes to those keys without a panic, holds rows of the resulting trie only, reads the same values at the keys, and has its root. -/
theorem C80_partial_node (C : Crypto F G) (l : List (Key × Value)) {db : MemoryDb F G} (hb : build C l = .ok db) (keys : List Key) :
    ∃ (stems : Finset Stem) (paths : Finset Path), stems.card ≤ 2 * keys.length ∧ paths.card ≤ 32 * keys.length ∧
      ∀ part : MemoryDb F G, PartOf part db → (∀ k ∈ keys, part.leaf k = db.leaf k) → (∀ s ∈ stems, part.stem s = db.stem s) →
        (∀ p ∈ paths, part.branch p = db.branch p) → ∀ w : List (Key × Value), (∀ x ∈ w, x.1 ∈ keys) →
          ∃ db' part', Trie.insert C db w = .ok db' ∧ Trie.insert C part w = .ok part' ∧ PartOf part' db' ∧
            (∀ k ∈ keys, Trie.get part' k = Trie.get db' k) ∧
            (keys ≠ [] → Trie.rootCommitment part' = Trie.rootCommitment db' ∧ Trie.rootHash part' = Trie.rootHash db') := by
  rw [build_iff] at hb
  subst hb
  set m := lastWrite l with hm
  refine ⟨keys.toFinset.biUnion fun k => insert k.stem (foundStems C m k),
    keys.toFinset.biUnion fun k => (Finset.range 32).image fun n => k.1.take n, ?_, ?_, ?_⟩
  · refine Finset.card_biUnion_le.trans ?_
    refine (Finset.sum_le_card_nsmul _ _ 2 fun k _ => ?_).trans ?_
    · exact (Finset.card_insert_le _ _).trans (Nat.succ_le_succ (foundStems_card C m k))
    · rw [smul_eq_mul, mul_comm]; exact Nat.mul_le_mul_left 2 (List.toFinset_card_le keys)
  · refine Finset.card_biUnion_le.trans ?_
    refine (Finset.sum_le_card_nsmul _ _ 32 fun k _ => ?_).trans ?_
    · exact Finset.card_image_le.trans (by simp)
    · rw [smul_eq_mul, mul_comm]; exact Nat.mul_le_mul_left 32 (List.toFinset_card_le keys)
  intro part hpart hleaf hstem hbranch w hw
  set S := Rows.mk (fun k => part.leaf k = (specDb C m).leaf k) (fun s => part.stem s = (specDb C m).stem s)
    (fun p => part.branch p = (specDb C m).branch p) with hS
  have heq : part = S.restrict (specDb C m) := hpart.eq_restrict
  have habs : ∀ p, node C m p = none → S.branch p := by
    intro p hp
    have e : (specDb C m).branch p = none := hp
    show part.branch p = _
    rcases hpart.branch p with h | h
    · rw [h, e]
    · exact h
  have hpath : ∀ k ∈ keys, ∀ p, p <+: k.1 → S.branch p := by
    intro k hk p hp
    by_cases h32 : p.length < 32
    · exact hbranch p (Finset.mem_biUnion.2 ⟨k, List.mem_toFinset.2 hk, Finset.mem_image.2
        ⟨p.length, Finset.mem_range.2 h32, (List.prefix_iff_eq_take.1 hp).symm⟩⟩)
    · refine habs p ?_
      have h1 : ¬ Many m p := fun h => by have := h.length_lt; omega
      have h2 : ¬ IsBranch m p := by
        rintro (e | e)
        · subst e; simp at h32
        · exact h1 e
      have h3 : ¬ ∃ s, Under m p s := by
        rintro ⟨s, hs⟩
        have := hs.length_le
        omega
      simp [node, h2, h3]
  have hcov : ∀ k ∈ keys, S.Covers (specDb C m) k := by
    intro k hk
    refine ⟨hleaf k hk, hstem _ (Finset.mem_biUnion.2 ⟨k, List.mem_toFinset.2 hk, Finset.mem_insert_self _ _⟩), hpath k hk, ?_⟩
    intro p s hp hs
    have hs : node C m p = some (.stem s) := hs
    refine ⟨hstem _ (Finset.mem_biUnion.2 ⟨k, List.mem_toFinset.2 hk, Finset.mem_insert_of_mem (mem_foundStems hp hs)⟩), ?_⟩
    intro q hq
    obtain ⟨-, hu, -⟩ := node_eq_stem hs
    rcases le_total q.length p.length with h | h
    · exact hpath k hk q ((List.prefix_of_prefix_length_le hq hu.2 h).trans hp)
    · by_cases e : p = q
      · exact hpath k hk q (e ▸ hp)
      · exact habs q (node_below hs (List.prefix_of_prefix_length_le hu.2 hq h) e)
  have hins := restrict_insert (S := S) C w (specDb C m) fun x hx => hcov _ (hw x hx)
  rw [← heq, insert_spec C w m] at hins
  refine ⟨_, _, insert_spec C w m, hins, partOf_restrict _ _, ?_, ?_⟩
  · intro k hk
    exact restrict_leaf S _ (hleaf k hk)
  · intro hne
    obtain ⟨k, hk⟩ := List.exists_mem_of_ne_nil keys hne
    have hr := restrict_branchMeta S (specDb C (applyAll m w)) (hpath k hk [] List.nil_prefix)
    constructor
    · simp only [Trie.rootCommitment, hr]
    · simp only [Trie.rootHash, hr]

/-- A node that keeps, of the values of three stems, only the one it is going to overwrite. -/
example (C : Crypto F G) (v : Value) : ∃ db part db' part' : MemoryDb F G, build C demoHist = .ok db ∧ part ≠ db ∧
    (∀ k, part.leaf k ≠ none → k = demoKey 2 200) ∧ Trie.insert C db [(demoKey 2 200, v)] = .ok db' ∧
    Trie.insert C part [(demoKey 2 200, v)] = .ok part' ∧ Trie.rootCommitment part' = Trie.rootCommitment db' := by
  obtain ⟨stems, paths, -, -, h⟩ := C80_partial_node C demoHist (build_eq C demoHist) [demoKey 2 200]
  set db := specDb C (lastWrite demoHist)
  let part : MemoryDb F G := { db with leaf := fun k => if k = demoKey 2 200 then db.leaf k else none }
  obtain ⟨db', part', h1, h2, -, -, h3⟩ := h part ⟨fun k => by by_cases e : k = demoKey 2 200 <;> simp [part, e], fun _ => Or.inr rfl,
    fun _ => Or.inr rfl⟩ (by simp [part]) (fun _ _ => rfl) (fun _ _ => rfl) [(demoKey 2 200, v)] (by simp)
  refine ⟨db, part, db', part', build_eq C demoHist, fun e => ?_, fun k hk => ?_, h1, h2, (h3 (by simp)).1⟩
  · have e1 : part.leaf (demoKey 1 5) = db.leaf (demoKey 1 5) := by rw [e]
    have e2 : part.leaf (demoKey 1 5) = none := by
      have hn : demoKey 1 5 ≠ demoKey 2 200 := by decide
      simp [part, hn]
    have e3 : db.leaf (demoKey 1 5) = some zeroVal := by
      show lastWrite demoHist (demoKey 1 5) = _
      decide
    rw [e2, e3] at e1
    simp at e1
  · by_contra e
    exact hk (if_neg e)

/-- **C80.** The rows around the paths of the keys decide what the prover does: a database holding part of the rows of another (which need
not be a trie), among them the root, the children of the branches on the paths of the keys, the records of the stems among these children
and the leaves of the stems of the keys, gives the same proof, the same error or the same panic. -/
theorem C80_partial_prover [DecidableEq F] [DecidableEq G] (O : Opener F G) {part db : MemoryDb F G} (hpart : PartOf part db) (keys : List Key)
    (hroot : part.branch [] = db.branch []) (hleaf : ∀ k ∈ keys, ∀ i, part.leaf (mkKey k.stem i) = db.leaf (mkKey k.stem i))
    (hchild : ∀ k ∈ keys, ∀ p m i, p <+: k.1 → db.branch p = some (.branch m) → part.branch (p ++ [i]) = db.branch (p ++ [i]))
    (hstem : ∀ k ∈ keys, ∀ p m i s, p <+: k.1 → db.branch p = some (.branch m) → db.branch (p ++ [i]) = some (.stem s) →
      part.stem s = db.stem s) :
    createVerkleProof O part keys = createVerkleProof O db keys := by
  conv_lhs => rw [hpart.eq_restrict]
  exact restrict_proof O keys fun k hk => ⟨hroot, hleaf k hk, hchild k hk, hstem k hk⟩

/-- A node that keeps all of the paths and stems, but only the values of one stem, makes proofs of it that verify. -/
example [DecidableEq F] [DecidableEq G] (C : Crypto F G) (O : Opener F G) (hO : CompleteOpener C O) : ∃ db part root p,
    build C soloHist = .ok db ∧ (∀ k, part.leaf k ≠ none → k.stem = twinKey.stem) ∧ part ≠ db ∧ Trie.rootCommitment part = .ok root ∧
    createVerkleProof O part [twinKey] = .ok (.ok p) ∧
    (Separated C (lastWrite soloHist) (· ∈ [twinKey]) → ∃ uh, check C O p [twinKey] [none] root = .ok (true, some uh)) := by
  have hr := rootCommitment_spec C (lastWrite soloHist)
  obtain ⟨p, h1, h2, -⟩ := C20_honest_proofs_verify_partial C O hO soloHist (build_eq C soloHist) (keys := [twinKey]) (by simp) hr
  set db := specDb C (lastWrite soloHist) with hdb
  let part : MemoryDb F G := { db with leaf := fun k => if k.stem = twinKey.stem then db.leaf k else none }
  have hp : PartOf part db := ⟨fun k => by by_cases e : k.stem = twinKey.stem <;> simp [part, e], fun _ => Or.inr rfl, fun _ => Or.inr rfl⟩
  have e := C80_partial_prover O hp [twinKey] rfl (fun k hk i => by rw [List.mem_singleton] at hk; subst hk; simp [part])
    (fun _ _ _ _ _ _ _ => rfl) (fun _ _ _ _ _ _ _ _ _ => rfl)
  refine ⟨db, part, _, p, build_eq C soloHist, fun k hk => ?_, fun e => ?_, hr, e.trans h1, fun hs => ?_⟩
  · by_contra hn
    exact hk (if_neg hn)
  · have e1 : part.leaf soloKey = db.leaf soloKey := by rw [e]
    have e2 : part.leaf soloKey = none := by
      have hn : soloKey.stem ≠ twinKey.stem := by decide
      simp [part, hn]
    have e3 : db.leaf soloKey = some (valOf 7) := by
      show lastWrite soloHist soloKey = _
      decide
    rw [e2, e3] at e1
    simp at e1
  · obtain ⟨uh, h⟩ := h2 hs
    refine ⟨uh, ?_⟩
    have hg : Trie.get db twinKey = none := by
      show lastWrite soloHist twinKey = none
      decide
    rwa [List.map_singleton, hg] at h

/-- The database without the record of a stem. -/
noncomputable def withoutStem (db : MemoryDb F G) (s : Stem) : MemoryDb F G := { db with stem := fun t => if t = s then none else db.stem t }

omit [Field F] [AddCommGroup G] [Module F G] in
theorem partOf_withoutStem (db : MemoryDb F G) (s : Stem) : PartOf (withoutStem db s) db := by
  refine ⟨fun _ => Or.inr rfl, fun t => ?_, fun _ => Or.inr rfl⟩
  by_cases h : t = s <;> simp [withoutStem, h]

/-- The rows of the keys written are not enough: the record of the other stem found on the path is needed. With one key in the trie, a
node that keeps everything but the record of its stem panics when a key that shares the first byte is written. -/
theorem C80_neighbour_needed (C : Crypto F G) : ∃ db db', build C soloHist = .ok db ∧ twinKey.stem ≠ soloKey.stem ∧
    PartOf (withoutStem db soloKey.stem) db ∧ Trie.insert C db [(twinKey, valOf 9)] = .ok db' ∧
    Trie.insert C (withoutStem db soloKey.stem) [(twinKey, valOf 9)] = .error "old stem missing" := by
  have hb := build_eq C soloHist
  have h0 : (specDb C (lastWrite soloHist)).branch [] = some (.branch (branchMeta C (lastWrite soloHist) [])) := node_branch (Or.inl rfl)
  have h1 : (specDb C (lastWrite soloHist)).branch [1] = some (.stem soloKey.stem) :=
    node_stem (by rintro (h | h); · simp at h
                  · exact solo_not_many _ h) solo_under (Or.inl rfl)
  refine ⟨_, _, hb, by decide, partOf_withoutStem _ _, insert_spec C _ _, ?_⟩
  have hlf : (specDb C (lastWrite soloHist)).leaf twinKey = none := by
    show lastWrite soloHist twinKey = none
    decide
  generalize specDb C (lastWrite soloHist) = db at h0 h1 hlf
  have hd : pathDifference soloKey.stem.1 twinKey.stem.1 = ([1], some 9, some 4) := by decide
  have hk : twinKey.1 = 1 :: twinKey.1.tail := by decide
  have hg : HigherDb.getBranchChild (withoutStem db soloKey.stem) [] 1 = some (.stem soloKey.stem) := h1
  have hc : createInsertInstructions (F := F) (G := G) (withoutStem db soloKey.stem) twinKey (valOf 9) =
      .ok [.chainInsert 1 [1] [] 1 9 twinKey (valOf 9) 4] := by
    unfold createInsertInstructions
    rw [hk, createGo, hg]
    simp [hd, unwrap, bind, Except.bind]
  have hs : twinKey.stem ≠ soloKey.stem := by decide
  simp only [Trie.insert, insertSingle, hc, bind, Except.bind, processInstructions, List.reverse_singleton, processRev, processIns, hg,
    unwrap, expandPath, updateLeafTable, updateStemTable, updateBranchTable]
  simp [HigherDb.insertLeaf, MemoryDb.insertLeaf, withoutStem, hlf, HigherDb.getBranchMeta, MemoryDb.getBranchMeta,
    HigherDb.insertBranch, MemoryDb.insertBranch, HigherDb.insertStem, MemoryDb.insertStem, HigherDb.getStemMeta,
    HigherDb.addStemAsBranchChild, MemoryDb.addStemAsBranchChild, hs.symm]

end Verif.Props
