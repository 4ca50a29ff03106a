import Verif.Props.Multi
import Verif.Props.Db

/-!
# C77: the proof is determined by the contents and the keys asked for

Sources: `/repo/verkle-trie/src/proof/prover.rs`, `/repo/verkle-trie/src/proof/opening_data.rs`,
`/repo/verkle-trie/src/proof/key_path_finder.rs`, `/repo/verkle-trie/src/database/default.rs`.
-/

set_option autoImplicit false

namespace Verif.Props
open Spec Trie Proof Ipa HigherDb

section
variable {σ τ F G : Type} [Field F] [AddCommGroup G] [Module F G] [HigherDb σ F G] [HigherDb τ F G]

/-- Two databases that answer the single reads alike, and have the same root. -/
structure SameReads (a : σ) (b : τ) : Prop where
  root : getBranchMeta a [] = getBranchMeta b []
  child : ∀ p i, getBranchChild a p i = getBranchChild b p i
  stem : ∀ s, getStemMeta a s = getStemMeta b s
  leaf : ∀ k, getLeaf a k = getLeaf b k

variable {a : σ} {b : τ}

theorem findGo_same (h : SameReads a b) (key : Key) : ∀ (bs : List Byte) (cur : Path) (bm : BranchMeta F G) (nodes : List (Path × Byte × Meta F G)),
    findGo a key bs cur bm nodes = findGo b key bs cur bm nodes
  | [], _, _, _ => rfl
  | i :: bs, cur, bm, nodes => by
    unfold findGo
    rw [h.child]
    cases getBranchChild b cur i with
    | none => rfl
    | some c =>
      cases c with
      | stem s => simp only [h.stem, h.leaf]
      | branch m => exact findGo_same h key bs _ _ _

theorem findKeyPath_same (h : SameReads a b) (key : Key) : findKeyPath a key = findKeyPath b key := by
  simp only [findKeyPath, h.root, findGo_same h]

theorem childHashOf_same (h : SameReads a b) (p : Path) (i : Byte) : childHashOf a p i = childHashOf b p i := by
  unfold childHashOf
  rw [h.child]
  cases getBranchChild b p i with
  | none => rfl
  | some c => cases c <;> simp only [h.stem]

theorem openQuery_same (h : SameReads a b) (o : Path × Openings F G) : openQuery a o = openQuery b o := by
  obtain ⟨p, o⟩ := o
  have h1 : ∀ p, branchChildrenHashes a p = branchChildrenHashes b p := fun p => by
    unfold branchChildrenHashes
    congr 1
    funext i
    exact childHashOf_same h p i
  have h2 : ∀ s n, (halfOfStem a s n : List F) = halfOfStem b s n := fun s n => by simp only [halfOfStem, h.leaf]
  cases o with
  | suffix e s =>
    have h3 : ∀ sm : StemMeta F G, suffixQueries a e.stem sm = suffixQueries b e.stem sm := fun sm => by
      funext sv
      simp only [suffixQueries, h2]
    simp only [openQuery, suffixOpenQuery, h3]
  | branch m ch => simp only [openQuery, branchOpenQuery, h1]
  | extension e => rfl

theorem openAll_same (h : SameReads a b) : ∀ os : List (Path × Openings F G), openAll a os = openAll b os
  | [] => rfl
  | o :: os => by simp only [openAll, openQuery_same h, openAll_same h os]

variable [DecidableEq F] [DecidableEq G]

theorem collect_same (h : SameReads a b) : ∀ (keys : List Key) (od : OpeningData F G),
    collectOpeningData a od keys = collectOpeningData b od keys
  | [], _ => rfl
  | k :: ks, od => by
    have h1 : collectOne a od k = collectOne b od k := by simp only [collectOne, findKeyPath_same h]
    simp only [collectOpeningData, h1, collect_same h ks]

theorem proof_same (h : SameReads a b) (O : Opener F G) (keys : List Key) :
    createProverQueries a keys = createProverQueries b keys ∧ createVerkleProof O a keys = createVerkleProof O b keys := by
  have h1 : createProverQueries a keys = createProverQueries b keys := by
    simp only [createProverQueries, collect_same h, openAll_same h]
  exact ⟨h1, by simp only [createVerkleProof, h1]⟩

end

section
variable {F G : Type} [Field F] [AddCommGroup G] [Module F G] [DecidableEq F] [DecidableEq G]

/-- C77 in memory: two tries that hold the same map, whatever their histories, give the same proof for the same set of keys, whatever
order and repetitions the keys come in and in whatever order the prover walks its table of groups. -/
theorem C77_memory (O : Oracle F G) (C : Crypto F G) (Q : G) {order order' : List (ProverQuery F G) → List ℕ}
    (ho : ∀ qs, IsOrder qs (order qs)) (ho' : ∀ qs, IsOrder qs (order' qs)) (hF : Distinct F 256) {l l' : List (Key × Value)}
    (hl : ∀ k, lastWrite l k = lastWrite l' k) {db db' : MemoryDb F G} (hb : build C l = .ok db) (hb' : build C l' = .ok db')
    {keys keys' : List Key} (hk : ∀ k, k ∈ keys ↔ k ∈ keys') :
    (createVerkleProof (multiOpener O C Q order) db keys : Res (Except ProofCreationError (VerkleProof G (MultiProof F G)))) =
      createVerkleProof (multiOpener O C Q order') db' keys' := by
  obtain ⟨-, -, rfl⟩ := C03_root_history_independent C l l' hl hb hb'
  have h0 := (C23_order_insensitive C (multiOpener O C Q order) l hb hk).1
  by_cases hne : keys' = []
  · have hne' : keys = [] := by
      subst hne
      exact List.eq_nil_iff_forall_not_mem.2 fun k hm => by simpa using (hk k).1 hm
    simp only [createVerkleProof, if_pos hne, if_pos hne']
    rfl
  have hne' : keys ≠ [] := fun e => hne (List.eq_nil_iff_forall_not_mem.2 fun k hm => by rw [← hk k, e] at hm; cases hm)
  obtain ⟨root, hr⟩ : ∃ root, Trie.rootCommitment db = .ok root := by
    rw [build_iff] at hb
    subst hb
    exact ⟨_, root_of_build⟩
  obtain ⟨q, qs, hint, h1, h2, ht, -, -⟩ := honest_run C l hb hne hr
  obtain ⟨W, hW, -⟩ := new_good hF (by norm_num)
  have h3 := C35_order_irrelevant O (crs := crsOf C Q) hF (by norm_num [crsOf]) hW (qs := q :: qs)
    (fun q' hq' => ⟨((ht q' hq').opening Q).len, ((ht q' hq').opening Q).point⟩) (ho (q :: qs)) (ho' (q :: qs)) (newTranscript (lbl "vt"))
  rw [h1] at h0
  have h4 : (multiOpener O C Q order).openAll (q :: qs) = (multiOpener O C Q order').openAll (q :: qs) := by
    simp only [multiOpener, hW, bind, Except.bind, h3]
  simp only [createVerkleProof, if_neg hne, if_neg hne', h0, h1, bind, Except.bind]
  generalize ho1 : (multiOpener O C Q order).openAll (q :: qs) = x at h4 ⊢
  subst h4
  rfl

/-- C77, part that holds for the trie on disk.  The full claim has no hypothesis on the run; it fails with C11 (`C77_disk_fails`).
Where no flushed value is overwritten and nothing is changed below four bytes that two stems came to share since the trie was
opened, a trie on the cached disk database, at any point between inserts, flushes and restarts, gives the proof of an in-memory
trie that holds the inserts which were not lost. -/
theorem C77_disk_partial (O : Opener F G) (C : Crypto F G) (ops : List Op) (h1 : DeepFromOpening ops) (h2 : NoOverwriteOfFlushed ops)
    (keys : List Key) : ∃ v c, runV C ops = .ok v ∧ build C (inserts ops) = .ok c ∧
      createVerkleProof O v keys = createVerkleProof O c keys := by
  obtain ⟨v, c, h3, h4, R⟩ : ∃ v c, runV C ops = .ok v ∧ build C (inserts ops) = .ok c ∧ SameReads v c := by
    obtain ⟨v, _, hv, R, _⟩ := runV_rel C ops h1 h2
    exact ⟨v, _, hv, build_eq _ _, R.getBranchMeta [], R.getBranchChild, R.getStemMeta, R.getLeaf⟩
  exact ⟨v, c, h3, h4, (proof_same R O keys).2⟩

/-- C77, two nodes: one on disk, one in memory (or both on disk, by using this twice), with whatever histories, as long as they hold the
same map, give the same proof for the same set of keys. -/
theorem C77_nodes_partial (O : Oracle F G) (C : Crypto F G) (Q : G) {order order' : List (ProverQuery F G) → List ℕ}
    (ho : ∀ qs, IsOrder qs (order qs)) (ho' : ∀ qs, IsOrder qs (order' qs)) (hF : Distinct F 256) (ops ops' : List Op)
    (h1 : DeepFromOpening ops) (h2 : NoOverwriteOfFlushed ops) (h1' : DeepFromOpening ops') (h2' : NoOverwriteOfFlushed ops')
    (hl : ∀ k, lastWrite (inserts ops) k = lastWrite (inserts ops') k) {keys keys' : List Key} (hk : ∀ k, k ∈ keys ↔ k ∈ keys') :
    ∃ v v', runV C ops = .ok v ∧ runV C ops' = .ok v' ∧
      (createVerkleProof (multiOpener O C Q order) v keys : Res (Except ProofCreationError (VerkleProof G (MultiProof F G)))) =
        createVerkleProof (multiOpener O C Q order') v' keys' := by
  obtain ⟨v, c, h3, h4, h5⟩ := C77_disk_partial (multiOpener O C Q order) C ops h1 h2 keys
  obtain ⟨v', c', h3', h4', h5'⟩ := C77_disk_partial (multiOpener O C Q order') C ops' h1' h2' keys'
  exact ⟨v, v', h3, h3', h5.trans ((C77_memory O C Q ho ho' hF hl h4 h4' hk).trans h5'.symm)⟩

end

/-- Two runs with different orders, flushes and restarts that leave the same map and meet the hypotheses of `C77_nodes_partial`;
`restartRun_fits` is one with deep stems, `wide_distinct` and `anyOrder_isOrder` meet the others. -/
example : let a : Op := .ins (keyOf [1] 5) (valOf 1)
    let b : Op := .ins (keyOf [1, 2] 5) (valOf 2)
    (DeepFromOpening [a, .flush, b] ∧ NoOverwriteOfFlushed [a, .flush, b]) ∧
    (DeepFromOpening [b, a, .flush, .reopen] ∧ NoOverwriteOfFlushed [b, a, .flush, .reopen]) ∧
    ∀ k, lastWrite (inserts [a, .flush, b]) k = lastWrite (inserts [b, a, .flush, .reopen]) k := by
  refine ⟨⟨ShallowRun.deepFromOpening ?_, ?_⟩, ⟨ShallowRun.deepFromOpening ?_, ?_⟩, ?_⟩
  · intro k v k' v' ha hb hne
    simp only [List.mem_cons, List.not_mem_nil, or_false, Op.ins.injEq, reduceCtorEq, false_or] at ha hb
    rcases ha with ⟨rfl, _⟩ | ⟨rfl, _⟩ <;> rcases hb with ⟨rfl, _⟩ | ⟨rfl, _⟩ <;> revert hne <;> decide
  · intro pre k v post h
    left
    rw [track_map]
    match pre, h with
    | [], h => rfl
    | [_], h => simp at h
    | [_, _], h => simp at h; obtain ⟨rfl, rfl, ⟨rfl, rfl⟩, rfl⟩ := h; decide
    | _ :: _ :: _ :: _, h => simp at h
  · intro k v k' v' ha hb hne
    simp only [List.mem_cons, List.not_mem_nil, or_false, Op.ins.injEq, reduceCtorEq] at ha hb
    rcases ha with ⟨rfl, _⟩ | ⟨rfl, _⟩ <;> rcases hb with ⟨rfl, _⟩ | ⟨rfl, _⟩ <;> revert hne <;> decide
  · intro pre k v post h
    left
    rw [track_map]
    match pre, h with
    | [], h => rfl
    | [_], h => simp at h; obtain ⟨rfl, ⟨rfl, rfl⟩, rfl⟩ := h; decide
    | [_, _], h => simp at h
    | [_, _, _], h => simp at h
    | _ :: _ :: _ :: _ :: _, h => simp at h
  · intro k
    have h1 : inserts [.ins (keyOf [1] 5) (valOf 1), .flush, .ins (keyOf [1, 2] 5) (valOf 2)] =
      [(keyOf [1] 5, valOf 1), (keyOf [1, 2] 5, valOf 2)] := rfl
    have h2 : inserts [.ins (keyOf [1, 2] 5) (valOf 2), .ins (keyOf [1] 5) (valOf 1), .flush, .reopen] =
      [(keyOf [1, 2] 5, valOf 2), (keyOf [1] 5, valOf 1)] := rfl
    have h3 : ∀ (x y : Key × Value), lastWrite [x, y] = Function.update (Function.update (lastWrite []) x.1 (some x.2)) y.1 (some y.2) :=
      fun x y => by rw [show [x, y] = [x] ++ [y] from rfl, lastWrite_snoc, show [x] = [] ++ [x] from rfl, lastWrite_snoc]
    simp only [h1, h2, h3]
    rw [Function.update_comm (by decide)]

/-- Whether the polynomial opened is the one committed to. -/
def opensCommitted (C : Crypto (ZMod 101) (ZMod 101)) (q : ProverQuery (ZMod 101) (ZMod 101)) : Bool :=
  decide (q.commitment = ((q.poly.zipIdx).map fun x => x.1 • C.g x.2).sum)

/-- Whether every query of a proof is about the polynomial committed to; `none` when creating the queries panics. -/
def soundQueries (ops : List Op) (keys : List Key) : Option Bool :=
  match runV toy ops >>= fun v => createProverQueries v keys with
  | .ok (qs, _) => some (qs.all (opensCommitted toy))
  | .error _ => none

/-- C77 fails for the trie on disk: after a flushed value is overwritten the node opens, in the proof for this very key, a
polynomial which is not the one its commitment commits to.  (No honest proof for that commitment can convince, C56.) -/
theorem C77_disk_fails : soundQueries [.ins (keyOf [1] 0) (valOf 1), .flush, .ins (keyOf [1] 0) (valOf 2)] [keyOf [1] 0] = some false := by
  decide +kernel

/-- Without the flush, and with a restart instead of the second insert, the queries are sound. -/
example : soundQueries [.ins (keyOf [1] 0) (valOf 1), .ins (keyOf [1] 0) (valOf 2)] [keyOf [1] 0] = some true ∧
    soundQueries [.ins (keyOf [1] 0) (valOf 1), .flush, .reopen] [keyOf [1] 0] = some true := by decide +kernel

/-- What is asked of the opening argument in the proof, by the node on disk and by an in-memory trie with the same inserts. -/
def bothAsk (ops : List Op) (k : Key) : Option (Option Value × Option Value × List (ZMod 101 × List (ZMod 101)) × List (ZMod 101 × List (ZMod 101))) :=
  match runV toy ops, build toy (inserts ops) with
  | .ok v, .ok c =>
    match createProverQueries v [k], createProverQueries c [k] with
    | .ok (qs, _), .ok (qs', _) =>
      some (Trie.get v k, Trie.get c k, qs.map fun q => (q.commitment, q.poly), qs'.map fun q => (q.commitment, q.poly))
    | _, _ => none
  | _, _ => none

theorem bothAsk_some {ops : List Op} {k : Key} {x} (h : bothAsk ops k = some x) : ∃ v c qs qs' hint hint',
    runV toy ops = .ok v ∧ build toy (inserts ops) = .ok c ∧ createProverQueries v [k] = .ok (qs, hint) ∧
      createProverQueries c [k] = .ok (qs', hint') ∧
      x = (Trie.get v k, Trie.get c k, qs.map (fun q => (q.commitment, q.poly)), qs'.map fun q => (q.commitment, q.poly)) := by
  unfold bothAsk at h
  split at h
  · rename_i v c hv hc
    split at h
    · rename_i qs h1 qs' h2 e1 e2
      cases h
      exact ⟨v, c, qs, qs', h1, h2, hv, hc, e1, e2, rfl⟩
    · cases h
  · cases h

/-- C77, the full claim is false: after a flushed value is overwritten the node on disk and an in-memory trie with the same inserts hold the
same value under the key, and the proofs they make for it are about different commitments. -/
theorem C77_full_claim_false : ∃ (ops : List Op) (k : Key) (v : VerkleDb (ZMod 101) (ZMod 101)) (c : MemoryDb (ZMod 101) (ZMod 101))
    (qs qs' : List (ProverQuery (ZMod 101) (ZMod 101))) (hint hint' : VerificationHint),
    runV toy ops = .ok v ∧ build toy (inserts ops) = .ok c ∧ Trie.get v k = Trie.get c k ∧ Trie.get c k ≠ none ∧
    createProverQueries v [k] = .ok (qs, hint) ∧ createProverQueries c [k] = .ok (qs', hint') ∧
    qs.map ProverQuery.commitment ≠ qs'.map ProverQuery.commitment := by
  have h : ∃ x, bothAsk [.ins (keyOf [1] 0) (valOf 1), .flush, .ins (keyOf [1] 0) (valOf 2)] (keyOf [1] 0) = some x ∧ x.1 = x.2.1 ∧
      x.2.1 ≠ none ∧ x.2.2.1.map Prod.fst ≠ x.2.2.2.map Prod.fst := by
    have : ((bothAsk [.ins (keyOf [1] 0) (valOf 1), .flush, .ins (keyOf [1] 0) (valOf 2)] (keyOf [1] 0)).any fun x =>
        decide (x.1 = x.2.1 ∧ x.2.1 ≠ none ∧ x.2.2.1.map Prod.fst ≠ x.2.2.2.map Prod.fst)) = true := by decide +kernel
    obtain ⟨x, h1, h2⟩ := Option.any_eq_true _ _ |>.1 this
    exact ⟨x, h1, of_decide_eq_true h2⟩
  obtain ⟨x, hx, h1, h2, h3⟩ := h
  obtain ⟨v, c, qs, qs', hi, hi', e1, e2, e3, e4, rfl⟩ := bothAsk_some hx
  refine ⟨_, _, v, c, qs, qs', hi, hi', e1, e2, h1, h2, e3, e4, fun e => h3 ?_⟩
  simp only [List.map_map]
  exact e

end Verif.Props
