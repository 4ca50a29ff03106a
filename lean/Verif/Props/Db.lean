import Verif.Db.Sim
import Verif.Props.Trie
import Verif.Props.Codec
import Mathlib.Data.ZMod.Basic
import Mathlib.Algebra.Field.ZMod

/-!
# Properties of the databases: C11, C12, C16
-/

set_option autoImplicit false

namespace Verif.Props
open Verif.Spec Verif.Trie Verif.Db
open scoped Classical

variable {F G : Type} [Field F] [AddCommGroup G] [Module F G]

/-- What a user does with a trie on disk; `reopen` stands for a crash or a normal end, followed by opening the trie again. -/
inductive Op where
  | ins (k : Key) (v : Value)
  | flush
  | reopen
deriving DecidableEq

/-- Running operations on the cached database. -/
def runOps {F G : Type} [Field F] [AddCommGroup G] [SMul F G] (C : Crypto F G) : VerkleDb F G → List Op → Res (VerkleDb F G)
  | db, [] => .ok db
  | db, .ins k v :: rest => do
    let db' ← Trie.insert C db [(k, v)]
    runOps C db' rest
  | db, .flush :: rest => runOps C db.flush rest
  | db, .reopen :: rest => do
    let db' ← Trie.new (VerkleDb.reopen db.storage)
    runOps C db' rest

/-- A fresh trie on an empty disk after some operations. -/
def runV {F G : Type} [Field F] [AddCommGroup G] [SMul F G] (C : Crypto F G) (ops : List Op) : Res (VerkleDb F G) := do
  let db0 ← Trie.new (VerkleDb.new : VerkleDb F G)
  runOps C db0 ops

/-- The flushed inserts of a run, and those after the last flush, forgotten when the trie is opened again. -/
def written (ops : List Op) : List (Key × Value) × List (Key × Value) :=
  ops.foldl (fun st op => match op with
      | .ins k v => (st.1, st.2 ++ [(k, v)])
      | .flush => (st.1 ++ st.2, [])
      | .reopen => (st.1, [])) ([], [])

/-- The inserts of a run that are not forgotten. -/
def inserts (ops : List Op) : List (Key × Value) := (written ops).1 ++ (written ops).2

/-- What is known of a run: the current map, the keys whose value was changed since the last flush, the map at the last flush,
and that when the trie was last opened. -/
structure Track where
  now : KV
  fresh : Set Key
  disk : KV
  opened : KV

/-- The state after a run. -/
def track (ops : List Op) : Track :=
  ops.foldl (fun st op => match op with
      | .ins k v => ⟨Function.update st.now k (some v), if st.now k = some v then st.fresh else st.fresh ∪ {k}, st.disk, st.opened⟩
      | .flush => ⟨st.now, ∅, st.now, st.opened⟩
      | .reopen => ⟨st.disk, ∅, st.disk, st.disk⟩) ⟨emptyKV, ∅, emptyKV, emptyKV⟩

/-- No insert overwrites, with a different value, a key whose value was last changed before the most recent flush. -/
def NoOverwriteOfFlushed (ops : List Op) : Prop :=
  ∀ pre k v post, ops = pre ++ .ins k v :: post →
    (track pre).now k = none ∨ (track pre).now k = some v ∨ k ∈ (track pre).fresh

/-- Two different stems of the map start with these four bytes. -/
def Shared (m : KV) (p : List Byte) : Prop :=
  ∃ s t, s ≠ t ∧ HasStem m s ∧ HasStem m t ∧ s.1.take 4 = p ∧ t.1.take 4 = p

/-- If the first four bytes of an inserted key are those of two different stems, two stems shared them already when the trie was
opened.  (A change that first makes stems share four bytes is allowed; the next change below these bytes is not, until the trie
is opened again.) -/
def DeepFromOpening (ops : List Op) : Prop :=
  ∀ pre k v post, ops = pre ++ .ins k v :: post → (track pre).now k ≠ some v →
    Shared (track pre).now (k.stem.1.take 4) → Shared (track pre).opened (k.stem.1.take 4)

/-- Any two different stems used by the run differ within their first four bytes. -/
def ShallowRun (ops : List Op) : Prop :=
  ∀ k v k' v', .ins k v ∈ ops → .ins k' v' ∈ ops → k.stem ≠ k'.stem → k.stem.1.take 4 ≠ k'.stem.1.take 4

theorem shared_iff {m : KV} {p : List Byte} (hp : p.length = 4) : Shared m p ↔ Many m p := by
  constructor
  · rintro ⟨s, t, h, hs, ht, rfl, h4⟩
    exact ⟨s, t, h, ⟨hs, List.take_prefix _ _⟩, ⟨ht, h4 ▸ List.take_prefix _ _⟩⟩
  · rintro ⟨s, t, h, hs, ht⟩
    have e1 := prefix_iff_take.1 hs.2
    have e2 := prefix_iff_take.1 ht.2
    rw [hp] at e1 e2
    exact ⟨s, t, h, hs.1, ht.1, e1.symm, e2.symm⟩

theorem track_snoc (ops : List Op) (op : Op) : track (ops ++ [op]) = match op with
      | .ins k v => ⟨Function.update (track ops).now k (some v),
        if (track ops).now k = some v then (track ops).fresh else (track ops).fresh ∪ {k}, (track ops).disk, (track ops).opened⟩
      | .flush => ⟨(track ops).now, ∅, (track ops).now, (track ops).opened⟩
      | .reopen => ⟨(track ops).disk, ∅, (track ops).disk, (track ops).disk⟩ := by
  simp only [track, List.foldl_append, List.foldl_cons, List.foldl_nil]
  cases op <;> rfl

theorem written_snoc (ops : List Op) (op : Op) : written (ops ++ [op]) = match op with
      | .ins k v => ((written ops).1, (written ops).2 ++ [(k, v)])
      | .flush => ((written ops).1 ++ (written ops).2, [])
      | .reopen => ((written ops).1, []) := by
  simp only [written, List.foldl_append, List.foldl_cons, List.foldl_nil]

theorem track_maps (ops : List Op) : (track ops).now = lastWrite (inserts ops) ∧ (track ops).disk = lastWrite (written ops).1 := by
  induction ops using List.reverseRecOn with
  | nil => exact ⟨rfl, rfl⟩
  | append_singleton ops op ih =>
    unfold inserts at ih ⊢
    rw [track_snoc, written_snoc]
    cases op with
    | ins k v => exact ⟨by simp only; rw [← List.append_assoc, lastWrite_snoc, ih.1], ih.2⟩
    | flush => exact ⟨by simpa using ih.1, ih.1⟩
    | reopen => exact ⟨by simpa using ih.2, ih.2⟩

theorem track_map (ops : List Op) : (track ops).now = lastWrite (inserts ops) := (track_maps ops).1

theorem track_keeps (ops : List Op) (s : Stem) : HasStem (track ops).opened s → HasStem (track ops).now s := by
  induction ops using List.reverseRecOn with
  | nil => exact id
  | append_singleton ops op ih =>
    rw [track_snoc]
    cases op with
    | ins k v => exact fun h => hasStem_update.2 (Or.inl (ih h))
    | flush => exact ih
    | reopen => exact id

theorem track_ins (ops : List Op) : (∀ s, HasStem (track ops).now s → ∃ k v, .ins k v ∈ ops ∧ k.stem = s) ∧
    ∀ s, HasStem (track ops).disk s → ∃ k v, .ins k v ∈ ops ∧ k.stem = s := by
  induction ops using List.reverseRecOn with
  | nil => exact ⟨fun s ⟨_, h⟩ => absurd rfl h, fun s ⟨_, h⟩ => absurd rfl h⟩
  | append_singleton ops op ih =>
    have h1 : ∀ s, HasStem (track ops).now s → ∃ k v, Op.ins k v ∈ ops ++ [op] ∧ k.stem = s := by
      intro s h
      obtain ⟨k, v, h1, h2⟩ := ih.1 s h
      exact ⟨k, v, by simp [h1], h2⟩
    have h2 : ∀ s, HasStem (track ops).disk s → ∃ k v, Op.ins k v ∈ ops ++ [op] ∧ k.stem = s := by
      intro s h
      obtain ⟨k, v, h1, h2⟩ := ih.2 s h
      exact ⟨k, v, by simp [h1], h2⟩
    rw [track_snoc]
    cases op with
    | ins k v =>
      refine ⟨fun s h => ?_, h2⟩
      rcases hasStem_update.1 h with h | rfl
      · exact h1 s h
      · exact ⟨k, v, by simp, rfl⟩
    | flush => exact ⟨h1, h1⟩
    | reopen => exact ⟨h2, h2⟩

theorem ShallowRun.not_shared {pre post : List Op} (h : ShallowRun (pre ++ post)) (p : List Byte) : ¬ Shared (track pre).now p := by
  rintro ⟨s, t, hne, hs, ht, rfl, h4⟩
  obtain ⟨k, v, h1, rfl⟩ := (track_ins pre).1 s hs
  obtain ⟨k', v', h2, rfl⟩ := (track_ins pre).1 t ht
  exact h k v k' v' (by simp [h1]) (by simp [h2]) hne h4.symm

theorem ShallowRun.deepFromOpening {ops : List Op} (h : ShallowRun ops) : DeepFromOpening ops := by
  rintro pre k v post rfl _ hs
  exact absurd hs (h.not_shared _)

theorem DeepFromOpening.settled {ops : List Op} {k : Key} {v : Value} (h : DeepFromOpening (ops ++ [.ins k v]))
    (hk : (track ops).now k ≠ some v) : Settled (track ops).opened (track ops).now k := by
  have h4 : (k.stem.1.take 4).length = 4 := by simp [(k.stem).2]
  refine ⟨track_keeps ops, fun hm => ?_⟩
  rw [← shared_iff h4] at hm ⊢
  exact h ops k v [] rfl hk hm

theorem runOps_append (C : Crypto F G) (a b : List Op) : ∀ db : VerkleDb F G,
    runOps C db (a ++ b) = (runOps C db a >>= fun db' => runOps C db' b) := by
  induction a with
  | nil => intro db; rfl
  | cons op rest ih =>
    intro db
    cases op with
    | ins k v =>
      simp only [List.cons_append, runOps, bind, Except.bind]
      cases Trie.insert C db [(k, v)] with
      | error e => rfl
      | ok db' => exact ih db'
    | flush => exact ih _
    | reopen =>
      simp only [List.cons_append, runOps, bind, Except.bind]
      cases Trie.new (VerkleDb.reopen db.storage) with
      | error e => rfl
      | ok db' => exact ih db'

/-- Opening a trie which holds something leaves it as it is. -/
theorem new_reopen (C : Crypto F G) (m : KV) : Trie.new (VerkleDb.reopen (specDb C m)) = .ok (VerkleDb.reopen (specDb C m)) := by
  have h : HigherDb.getBranchMeta (VerkleDb.reopen (specDb C m)) [] = .ok (some (branchMeta C m [])) := by
    rw [(Rel.reopen (fun _ _ => False) (specDb C m)).getBranchMeta]
    show MemoryDb.getBranchMeta (specDb C m) [] = _
    unfold MemoryDb.getBranchMeta
    have : (specDb C m).branch [] = some (.branch (branchMeta C m [])) := node_branch (Or.inl rfl)
    rw [this]
  unfold Trie.new
  simp only [h, bind, Except.bind]

/-- A trie on an empty disk. -/
theorem new_empty (C : Crypto F G) {E : Prop} {o : KV} (ho : E → o = emptyKV) : ∃ v, Trie.new (VerkleDb.new : VerkleDb F G) = .ok v ∧
    Rel E (Zone o) .new v (specDb C emptyKV) ∅ := by
  have hg : HigherDb.getBranchMeta (VerkleDb.new : VerkleDb F G) [] = .ok none := rfl
  refine ⟨(VerkleDb.insertBranch VerkleDb.new [] (BranchMeta.zero F G) 0).1, ?_, ?_⟩
  · unfold Trie.new
    simp only [hg, bind, Except.bind]
    rfl
  · have hn := new_spec C
    have hg' : HigherDb.getBranchMeta (MemoryDb.new : MemoryDb F G) [] = .ok none := rfl
    unfold Trie.new at hn
    simp only [hg', bind, Except.bind] at hn
    have hn' : (MemoryDb.insertBranch MemoryDb.new [] (BranchMeta.zero F G) 0).1 = specDb C emptyKV := Except.ok.inj hn
    rw [← hn']
    refine Rel.insertBranch (v := VerkleDb.new) (c := MemoryDb.new) (B := ∅)
      ⟨fun _ _ h => (by cases h), fun _ _ h => (by cases h), fun _ _ h => (by cases h), fun e => ⟨rfl, ?_⟩, rfl,
        fun k => by simp [VerkleDb.new, MemoryDb.new], rfl⟩ [] (BranchMeta.zero F G) (by simp [Zone])
    rintro _ q ⟨_, s, t, _, ⟨⟨b, hb⟩, _⟩, _⟩
    rw [ho e] at hb
    exact hb rfl

theorem track_opened {ops : List Op} (h : .reopen ∉ ops) : (track ops).opened = emptyKV := by
  induction ops using List.reverseRecOn with
  | nil => rfl
  | append_singleton ops op ih =>
    rw [track_snoc]
    cases op with
    | ins k v => exact ih (fun h' => h (by simp [h']))
    | flush => exact ih (fun h' => h (by simp [h']))
    | reopen => exact absurd (by simp) h

theorem runV_rel (C : Crypto F G) (ops : List Op) (h1 : DeepFromOpening ops) (h2 : NoOverwriteOfFlushed ops) :
    ∃ v D, runV C ops = .ok v ∧
      Rel (.reopen ∉ ops ∧ ∀ p, p.length = 4 → ¬ Many (track ops).now p) (Zone (track ops).opened) D v (specDb C (lastWrite (inserts ops))) (track ops).fresh ∧
      (D = specDb C (track ops).disk ∨ D = .new ∧ (track ops).disk = emptyKV) := by
  rw [← track_map]
  induction ops using List.reverseRecOn with
  | nil =>
    obtain ⟨v, hv, R⟩ := new_empty C (E := Op.reopen ∉ ([] : List Op) ∧ ∀ p, p.length = 4 → ¬ Many (track []).now p) (o := (track []).opened) (fun _ => rfl)
    refine ⟨v, .new, ?_, R, Or.inr ⟨rfl, rfl⟩⟩
    unfold runV
    rw [hv]
    rfl
  | append_singleton ops op ih =>
    have h1' : DeepFromOpening ops := fun pre k x post e => h1 pre k x (post ++ [op]) (by rw [e]; simp)
    obtain ⟨v, D, hv, R, hD⟩ := ih h1' (fun pre k x post e => h2 pre k x (post ++ [op]) (by rw [e]; simp))
    have hrun : runV C (ops ++ [op]) = runOps C v [op] := by
      unfold runV at hv ⊢
      cases hn : Trie.new (VerkleDb.new : VerkleDb F G) with
      | error e => rw [hn] at hv; simp [bind, Except.bind] at hv
      | ok db0 =>
        rw [hn] at hv
        simp only [bind, Except.bind] at hv ⊢
        rw [runOps_append, hv]
        rfl
    rw [hrun, track_snoc]
    cases op with
    | flush =>
      refine ⟨v.flush, _, rfl, ?_, Or.inl rfl⟩
      have : Op.reopen ∉ ops ++ [.flush] ↔ Op.reopen ∉ ops := by simp
      rw [this]
      exact R.flush
    | reopen =>
      have : Op.reopen ∉ ops ++ [.reopen] ↔ False := by simp
      rw [this, false_and]
      have hs := R.disk
      rcases hD with rfl | ⟨rfl, h0⟩
      · refine ⟨VerkleDb.reopen (specDb C (track ops).disk), _, ?_, Rel.reopen _ _, Or.inl rfl⟩
        simp only [runOps, hs, new_reopen, bind, Except.bind]
      · obtain ⟨v', hv', R'⟩ := new_empty C (E := False) (o := (track ops).disk) False.elim
        refine ⟨v', .new, ?_, by rw [h0] at R' ⊢; exact R', Or.inr ⟨rfl, h0⟩⟩
        have : VerkleDb.reopen v.storage = (VerkleDb.new : VerkleDb F G) := by rw [hs]; rfl
        simp only [runOps, this, hv', bind, Except.bind]
    | ins k x =>
      have : Op.reopen ∉ ops ++ [.ins k x] ↔ Op.reopen ∉ ops := by simp
      rw [this]
      obtain ⟨v', B', e, R', hB1, hB2⟩ := insertSingle_rel C k x
        (E' := Op.reopen ∉ ops ∧ ∀ p, p.length = 4 → ¬ Many (Function.update (track ops).now k (some x)) p) R
        (fun ⟨e1, e2⟩ => ⟨e1, fun p hp hm => e2 p hp hm.update⟩)
        (fun ⟨_, e2⟩ hD => e2 (k.stem.1.take 4) (by simp [(k.stem).2]) (hD.1.mono (take_prefix_below (by omega))))
        (fun hk => h1.settled hk) (h2 ops k x [] rfl)
      refine ⟨v', D, ?_, ?_, hD⟩
      · simp only [runOps, Trie.insert, e, bind, Except.bind]
      · by_cases hm : (track ops).now k = some x
        · simp only [if_pos hm]; rw [← hB1 hm]; exact R'
        · simp only [if_neg hm]; rw [← hB2 hm]; exact R'

/-! ### C11 -/

/-- **C11** (part that holds).  Full claim: for *every* interleaving of inserts, flushes and restarts the trie on the cached
disk database gives the same reads and roots as the in-memory trie holding the inserts that were not lost.  That is false (see
the theorems below).  It holds when nothing is changed below four bytes which two stems came to share since the trie was opened
(so no cached entry is changed with a depth that is not cached) and no flushed value is overwritten. -/
theorem C11_cached_db_refines_memory_partial (C : Crypto F G) (ops : List Op) (h1 : DeepFromOpening ops)
    (h2 : NoOverwriteOfFlushed ops) :
    ∃ v c, runV C ops = .ok v ∧ build C (inserts ops) = .ok c
      ∧ (∀ k, Trie.get v k = Trie.get c k)
      ∧ Trie.rootCommitment v = Trie.rootCommitment c ∧ Trie.rootHash v = Trie.rootHash c
      ∧ (∀ p i, HigherDb.getBranchChild v p i = HigherDb.getBranchChild c p i)
      ∧ (∀ s, HigherDb.getStemMeta v s = HigherDb.getStemMeta c s) := by
  obtain ⟨v, _, hv, R, _⟩ := runV_rel C ops h1 h2
  refine ⟨v, _, hv, build_eq _ _, fun k => R.getLeaf k, ?_, ?_, fun p i => R.getBranchChild p i, fun s => R.getStemMeta s⟩
  · simp only [Trie.rootCommitment, R.getBranchMeta]
  · simp only [Trie.rootHash, R.getBranchMeta]

/-! Concrete runs.  `toy` is a small instance of the parameters in which everything can be evaluated. -/

instance : Fact (Nat.Prime 101) := ⟨by decide⟩

/-- Evaluable parameters over the field with 101 elements. -/
def toy : Crypto (ZMod 101) (ZMod 101) where
  g i := ((i + 1 : ℕ) : ZMod 101)
  h x := x
  h_zero := rfl

/-- The key with the given first bytes, zeros up to byte 30, and the given last byte. -/
def keyOf (pre : List Byte) (b : Byte) : Key :=
  ⟨(pre ++ List.replicate 31 0).take 31 ++ [b], by simp⟩
/-- The value with the given first byte. -/
def valOf (b : Byte) : Value := ⟨b :: List.replicate 31 0, by simp⟩

/-- Root commitment of a run, `none` when it panics. -/
def rootAfter (ops : List Op) : Option (ZMod 101) :=
  match runV toy ops >>= Trie.rootCommitment with
  | .ok x => some x
  | .error _ => none

/-- Value read after a run, for all parameters. -/
def readAfter (C : Crypto F G) (ops : List Op) (k : Key) : Option (Option Value) :=
  match runV C ops with
  | .ok v => some (Trie.get v k)
  | .error _ => none

/-- Root commitment of the in-memory trie. -/
def rootMem (l : List (Key × Value)) : Option (ZMod 101) :=
  match build toy l >>= Trie.rootCommitment with
  | .ok x => some x
  | .error _ => none

/-- A run with a flush and an overwrite that satisfies the hypotheses of the theorem. -/
example : ShallowRun [.ins (keyOf [1] 5) (valOf 1), .ins (keyOf [1, 2, 3] 5) (valOf 1), .ins (keyOf [1] 5) (valOf 2), .flush,
      .ins (keyOf [1] 7) (valOf 9)]
    ∧ NoOverwriteOfFlushed [.ins (keyOf [1] 5) (valOf 1), .ins (keyOf [1, 2, 3] 5) (valOf 1), .ins (keyOf [1] 5) (valOf 2),
      .flush, .ins (keyOf [1] 7) (valOf 9)] := by
  constructor
  · intro k v k' v' ha hb hne
    simp only [List.mem_cons, List.not_mem_nil, or_false, Op.ins.injEq, reduceCtorEq, false_or] at ha hb
    rcases ha with ⟨rfl, _⟩ | ⟨rfl, _⟩ | ⟨rfl, _⟩ | ⟨rfl, _⟩ <;> rcases hb with ⟨rfl, _⟩ | ⟨rfl, _⟩ | ⟨rfl, _⟩ | ⟨rfl, _⟩ <;>
      revert hne <;> decide
  · intro pre k v post h
    match pre, h with
    | [], h => left; rfl
    | [_], h =>
      simp at h
      obtain ⟨rfl, ⟨rfl, rfl⟩, rfl⟩ := h
      left
      rw [track_map]; decide
    | [_, _], h =>
      simp at h
      obtain ⟨rfl, rfl, ⟨rfl, rfl⟩, rfl⟩ := h
      right; right
      simp only [track, List.foldl_cons, List.foldl_nil]
      split <;> simp [emptyKV]
    | [_, _, _], h => simp at h
    | [_, _, _, _], h =>
      simp at h
      obtain ⟨rfl, rfl, rfl, rfl, ⟨rfl, rfl⟩, rfl⟩ := h
      left
      rw [track_map]; decide
    | _ :: _ :: _ :: _ :: _ :: _, h => simp at h

/-- Two stems sharing six bytes, a flush, an insert that is lost, a restart, and two changes below the shared bytes. -/
def restartRun : List Op :=
  [.ins (keyOf [1, 1, 1, 1, 1, 1, 1] 0) (valOf 1), .ins (keyOf [1, 1, 1, 1, 1, 1, 2] 0) (valOf 1), .flush, .ins (keyOf [9] 0) (valOf 1),
    .reopen, .ins (keyOf [1, 1, 1, 1, 1, 1, 3] 0) (valOf 1), .ins (keyOf [1, 1, 1, 1, 1, 1, 1] 3) (valOf 2)]

/-- A run with a restart and deep stems that satisfies the hypotheses of the theorem. -/
theorem restartRun_fits : DeepFromOpening restartRun ∧ NoOverwriteOfFlushed restartRun := by
  have hop : ∀ o : KV, o = Function.update (Function.update emptyKV (keyOf [1, 1, 1, 1, 1, 1, 1] 0) (some (valOf 1)))
      (keyOf [1, 1, 1, 1, 1, 1, 2] 0) (some (valOf 1)) → Shared o [1, 1, 1, 1] := by
    rintro o rfl
    exact ⟨(keyOf [1, 1, 1, 1, 1, 1, 1] 0).stem, (keyOf [1, 1, 1, 1, 1, 1, 2] 0).stem, by decide,
      hasStem_update.2 (Or.inl (hasStem_update.2 (Or.inr rfl))), hasStem_update.2 (Or.inr rfl), by decide, by decide⟩
  constructor
  · intro pre k v post h _ hs
    unfold restartRun at h
    match pre, h with
    | [], h =>
      obtain ⟨s, _, _, ⟨_, hs⟩, _⟩ := hs
      exact absurd rfl hs
    | [_], h =>
      simp at h
      obtain ⟨rfl, ⟨rfl, rfl⟩, rfl⟩ := h
      obtain ⟨s, t, hne, hs, ht, _⟩ := hs
      obtain ⟨_, _, h1, rfl⟩ := (track_ins _).1 s hs
      obtain ⟨_, _, h2, rfl⟩ := (track_ins _).1 t ht
      simp at h1 h2
      rw [h1.1, h2.1] at hne
      exact absurd rfl hne
    | [_, _], h => simp at h
    | [_, _, _], h =>
      simp at h
      obtain ⟨rfl, rfl, rfl, ⟨rfl, rfl⟩, rfl⟩ := h
      obtain ⟨s, t, hne, hs, ht, h4, _⟩ := hs
      obtain ⟨_, _, h1, rfl⟩ := (track_ins _).1 s hs
      simp at h1
      exfalso
      rcases h1 with ⟨rfl, _⟩ | ⟨rfl, _⟩ <;> revert h4 <;> decide
    | [_, _, _, _], h => simp at h
    | [_, _, _, _, _], h =>
      simp at h
      obtain ⟨rfl, rfl, rfl, rfl, rfl, ⟨rfl, rfl⟩, rfl⟩ := h
      exact hop _ rfl
    | [_, _, _, _, _, _], h =>
      simp at h
      obtain ⟨rfl, rfl, rfl, rfl, rfl, rfl, ⟨rfl, rfl⟩, rfl⟩ := h
      exact hop _ rfl
    | _ :: _ :: _ :: _ :: _ :: _ :: _ :: _, h => simp at h
  · intro pre k v post h
    left
    unfold restartRun at h
    rw [track_map]
    match pre, h with
    | [], h => rfl
    | [_], h => simp at h; obtain ⟨rfl, ⟨rfl, rfl⟩, rfl⟩ := h; decide
    | [_, _], h => simp at h
    | [_, _, _], h => simp at h; obtain ⟨rfl, rfl, rfl, ⟨rfl, rfl⟩, rfl⟩ := h; decide
    | [_, _, _, _], h => simp at h
    | [_, _, _, _, _], h => simp at h; obtain ⟨rfl, rfl, rfl, rfl, rfl, ⟨rfl, rfl⟩, rfl⟩ := h; decide
    | [_, _, _, _, _, _], h => simp at h; obtain ⟨rfl, rfl, rfl, rfl, rfl, rfl, ⟨rfl, rfl⟩, rfl⟩ := h; decide
    | _ :: _ :: _ :: _ :: _ :: _ :: _ :: _, h => simp at h

/-- What is left of that run. -/
example : inserts restartRun = [(keyOf [1, 1, 1, 1, 1, 1, 1] 0, valOf 1), (keyOf [1, 1, 1, 1, 1, 1, 2] 0, valOf 1),
    (keyOf [1, 1, 1, 1, 1, 1, 3] 0, valOf 1), (keyOf [1, 1, 1, 1, 1, 1, 1] 3, valOf 2)] := rfl

/-- **C11 fails (1), wrong root after flush.**  `insert_leaf` reports the previous value from the batch only, so
overwriting a flushed value computes the update as if the slot had been empty. -/
theorem C11_overwrite_after_flush_wrong_root :
    rootAfter [.ins (keyOf [1] 0) (valOf 1), .flush, .ins (keyOf [1] 0) (valOf 2)]
      ≠ rootMem [(keyOf [1] 0, valOf 1), (keyOf [1] 0, valOf 2)] := by decide +kernel

/-- The same run without the flush is fine. -/
example : rootAfter [.ins (keyOf [1] 0) (valOf 1), .ins (keyOf [1] 0) (valOf 2)]
      = rootMem [(keyOf [1] 0, valOf 1), (keyOf [1] 0, valOf 2)] := by decide +kernel

/-- **C11 fails (2), stale reads.**  Two stems sharing six bytes: the first was cached at depth 1, its later update happens
at depth 7 and reaches only the batch, and the read prefers the cache.  This holds for all parameters. -/
theorem C11_stale_read (C : Crypto F G) :
    readAfter C [.ins (keyOf [1, 1, 1, 1, 1, 1, 1] 0) (valOf 1), .ins (keyOf [1, 1, 1, 1, 1, 1, 2] 0) (valOf 1),
      .ins (keyOf [1, 1, 1, 1, 1, 1, 1] 0) (valOf 2)] (keyOf [1, 1, 1, 1, 1, 1, 1] 0) = some (some (valOf 1)) := by
  rfl

/-- **C11 fails (3), panic.**  Three inserts, no flush: the first two stems share exactly four bytes, the third shares
exactly five with the first.  The child pointer at length five was cached, its replacement by a branch is not, and
`get_branch_meta` panics on the cached stem.  This holds for all parameters. -/
theorem C11_insert_panics (C : Crypto F G) :
    ∃ e, runV C [.ins (keyOf [1, 1, 1, 1, 1] 0) (valOf 1), .ins (keyOf [1, 1, 1, 1, 2] 0) (valOf 1),
      .ins (keyOf [1, 1, 1, 1, 1, 1] 0) (valOf 2)] = .error e := ⟨_, rfl⟩

/-- The negation of C11 as stated: reads. -/
theorem C11_full_claim_false :
    ¬ ∀ ops : List Op, ∃ v c, runV toy ops = .ok v ∧ build toy (inserts ops) = .ok c ∧ ∀ k, Trie.get v k = Trie.get c k := by
  intro h
  obtain ⟨v, c, hv, hc, hg⟩ := h [.ins (keyOf [1, 1, 1, 1, 1, 1, 1] 0) (valOf 1), .ins (keyOf [1, 1, 1, 1, 1, 1, 2] 0) (valOf 1),
      .ins (keyOf [1, 1, 1, 1, 1, 1, 1] 0) (valOf 2)]
  have h1 := C11_stale_read toy
  unfold readAfter at h1
  rw [hv] at h1
  simp only [Option.some.injEq] at h1
  have h2 := hg (keyOf [1, 1, 1, 1, 1, 1, 1] 0)
  rw [build_iff] at hc
  subst hc
  rw [h1] at h2
  revert h2
  show some (valOf 1) = lastWrite [(keyOf [1, 1, 1, 1, 1, 1, 1] 0, valOf 1), (keyOf [1, 1, 1, 1, 1, 1, 2] 0, valOf 1),
    (keyOf [1, 1, 1, 1, 1, 1, 1] 0, valOf 2)] (keyOf [1, 1, 1, 1, 1, 1, 1] 0) → False
  decide

/-! ### C12 -/

/-- Low-level events on the database: any write the trie may issue, a flush, or a crash followed by reopening. -/
inductive Ev (F G : Type) where
  | leaf (k : Key) (v : Value) (d : ℕ)
  | stem (s : Stem) (m : StemMeta F G) (d : ℕ)
  | child (p : Path) (s : Stem) (d : ℕ)
  | branch (p : Path) (m : BranchMeta F G) (d : ℕ)
  | flush
  | crash

/-- Effect of an event. -/
def Ev.step (db : VerkleDb F G) : Ev F G → VerkleDb F G
  | .leaf k v d => (db.insertLeaf k v d).1
  | .stem s m d => (db.insertStem s m d).1
  | .child p s d => (db.addStemAsBranchChild p s d).1
  | .branch p m d => (db.insertBranch p m d).1
  | .flush => db.flush
  | .crash => VerkleDb.reopen db.storage

/-- Running events. -/
def runEv (db : VerkleDb F G) (evs : List (Ev F G)) : VerkleDb F G := evs.foldl Ev.step db

/-- Is this event a flush? -/
def Ev.isFlush : Ev F G → Bool
  | .flush => true
  | _ => false

omit [Field F] [AddCommGroup G] [Module F G] in
/-- **C12**, crash atomicity: whatever happens after a flush, the disk is as that flush left it until the next flush
completes; in particular a crash at any point recovers exactly the last completed flush. -/
theorem C12_disk_is_last_flush (db : VerkleDb F G) (before after : List (Ev F G)) (h : ∀ e ∈ after, e.isFlush = false) :
    (runEv db (before ++ [.flush] ++ after)).storage = (runEv db (before ++ [.flush])).storage
    ∧ Ev.step (runEv db (before ++ [.flush] ++ after)) .crash
        = VerkleDb.reopen (runEv db (before ++ [.flush])).storage := by
  have key : ∀ (l : List (Ev F G)) (d : VerkleDb F G), (∀ e ∈ l, e.isFlush = false) → (runEv d l).storage = d.storage := by
    intro l
    induction l with
    | nil => intro d _; rfl
    | cons e rest ih =>
      intro d hl
      have h1 := ih (e.step d) (fun x hx => hl x (by simp [hx]))
      have h2 : (e.step d).storage = d.storage := by
        have := hl e (by simp)
        cases e <;> first | rfl | simp [Ev.isFlush] at this
      show (runEv (e.step d) rest).storage = _
      rw [h1, h2]
  have h1 : (runEv db (before ++ [.flush] ++ after)).storage = (runEv db (before ++ [.flush])).storage := by
    unfold runEv
    rw [List.foldl_append]
    exact key after _ h
  exact ⟨h1, by show VerkleDb.reopen _ = _; rw [h1]⟩

/-- The byte rows `disk` hold exactly the typed tables `db`. -/
def Represents (K : NodeCodec F G) (disk : Rows) (db : MemoryDb F G) : Prop :=
  ∀ it : Item, disk it.row = itemBytes K db it

omit [Field F] [AddCommGroup G] [Module F G] in
theorem putAll_row (K : NodeCodec F G) (batch : MemoryDb F G) (it : Item) : ∀ (items : List Item) (disk : Rows),
    putAll disk (putsOf K batch items) it.row =
      if it ∈ items then (itemBytes K batch it).orElse (fun _ => disk it.row) else disk it.row
  | [], disk => by simp [putsOf, putAll]
  | x :: rest, disk => by
    have ih := putAll_row K batch it rest
    unfold putsOf at ih ⊢
    cases hx : itemBytes K batch x with
    | none =>
      rw [List.filterMap_cons_none (by simp [hx]), ih]
      by_cases h : it = x
      · subst h; simp [hx]
      · simp [h]
    | some y =>
      rw [List.filterMap_cons_some (by simp [hx]; rfl)]
      simp only [putAll]
      rw [ih]
      by_cases h : it = x
      · subst h; simp [hx]
      · have hne : it.row ≠ x.row := fun e => h (C13_rows_never_collide _ _ e)
        simp [h, Function.update_of_ne hne]

omit [Field F] [AddCommGroup G] [Module F G] in
/-- **C12**, the flush at byte level: whatever order the hash tables are iterated in (any list `items` containing every
batch entry), the rows on disk afterwards are exactly the batch laid over the previous disk. -/
theorem C12_flush_writes_batch (K : NodeCodec F G) (db : VerkleDb F G) (disk : Rows) (hr : Represents K disk db.storage)
    (items : List Item) (hcov : ∀ it, itemBytes K db.batch it ≠ none → it ∈ items) :
    Represents K (putAll disk (putsOf K db.batch items)) db.flush.storage := by
  intro it
  rw [putAll_row, hr it]
  have hov : itemBytes K db.flush.storage it = (itemBytes K db.batch it).orElse (fun _ => itemBytes K db.storage it) := by
    cases it with
    | leaf k =>
      simp only [itemBytes, VerkleDb.flush, VerkleDb.overlayDb, VerkleDb.overlay]
      cases db.batch.leaf k <;> rfl
    | stem s =>
      simp only [itemBytes, VerkleDb.flush, VerkleDb.overlayDb, VerkleDb.overlay]
      cases db.batch.stem s <;> rfl
    | branch p =>
      simp only [itemBytes, VerkleDb.flush, VerkleDb.overlayDb, VerkleDb.overlay]
      cases db.batch.branch p <;> rfl
  rw [hov]
  by_cases h : it ∈ items
  · rw [if_pos h]
  · rw [if_neg h]
    have : itemBytes K db.batch it = none := by
      by_contra hne; exact h (hcov it hne)
    rw [this]; rfl

/-- Every point stored in the tables passes the decoder's validation. -/
structure AllValid (K : NodeCodec F G) (db : MemoryDb F G) : Prop where
  stem : ∀ s m, db.stem s = some m → K.valid m.c1 ∧ K.valid m.c2 ∧ K.valid m.stemComm
  branch : ∀ p m, db.branch p = some (.branch m) → K.valid m.comm

omit [Field F] [AddCommGroup G] [Module F G] in
/-- **C12**, reads from disk: the rows answer every point read as the typed tables do. -/
theorem C12_disk_reads (K : NodeCodec F G) (disk : Rows) (db : MemoryDb F G) (hr : Represents K disk db)
    (hv : AllValid K db) :
    (∀ k, fetchLeaf disk k = .ok (db.leaf k))
    ∧ (∀ s, fetchStem K disk s = .ok (db.stem s))
    ∧ (∀ p i, fetchChild K disk p i = .ok (db.branch (p ++ [i])))
    ∧ (∀ p m, db.getBranchMeta p = .ok m → fetchBranchMeta K disk p = .ok m) := by
  refine ⟨fun k => ?_, fun s => ?_, fun p i => ?_, fun p m hm => ?_⟩
  · have := hr (.leaf k)
    simp only [Item.row, itemBytes] at this
    unfold fetchLeaf
    rw [this]
    cases h : db.leaf k with
    | none => rfl
    | some v => simp [v.2]
  · have := hr (.stem s)
    simp only [Item.row, itemBytes] at this
    unfold fetchStem
    rw [this]
    cases h : db.stem s with
    | none => rfl
    | some m =>
      simp only [Option.map_some]
      rw [C14_stem_round_trip, if_pos (hv.stem s m h)]
      rfl
  · have := hr (.branch (p ++ [i]))
    simp only [Item.row, itemBytes] at this
    unfold fetchChild
    rw [this]
    cases h : db.branch (p ++ [i]) with
    | none => rfl
    | some c =>
      cases c with
      | stem s => simp only [Option.map_some]; rw [(C14_child_round_trip K).1]; rfl
      | branch m =>
        simp only [Option.map_some]
        rw [(C14_child_round_trip K).2, if_pos (hv.branch _ m h)]; rfl
  · have := hr (.branch p)
    simp only [Item.row, itemBytes] at this
    unfold fetchBranchMeta
    rw [this]
    unfold MemoryDb.getBranchMeta at hm
    cases h : db.branch p with
    | none => rw [h] at hm; exact hm
    | some c =>
      rw [h] at hm
      cases c with
      | stem s => simp at hm
      | branch b =>
        simp only [Except.ok.injEq] at hm
        subst hm
        simp only [Option.map_some, childToBytes]
        rw [C14_branch_round_trip, if_pos (hv.branch _ b h)]
        rfl

/-- **C12** (part that holds).  Full claim: after a flush the disk alone answers every read as the database did before.
It holds for point reads of the runs of C11: the flushed disk is the whole in-memory database, so a reopened database
gives the same values, records and root, and opening the trie on it changes nothing. -/
theorem C12_flush_durable_partial (C : Crypto F G) (ops : List Op) (h1 : DeepFromOpening ops) (h2 : NoOverwriteOfFlushed ops) :
    ∃ v, runV C ops = .ok v ∧
      let r := VerkleDb.reopen v.flush.storage
      Trie.new r = .ok r
      ∧ (∀ k, Trie.get r k = Trie.get v k)
      ∧ (∀ s, HigherDb.getStemMeta r s = HigherDb.getStemMeta v s)
      ∧ (∀ p i, HigherDb.getBranchChild r p i = HigherDb.getBranchChild v p i)
      ∧ (∀ p, HigherDb.getBranchMeta r p = HigherDb.getBranchMeta v p)
      ∧ Trie.rootCommitment r = Trie.rootCommitment v := by
  obtain ⟨v, _, hv, R, _⟩ := runV_rel C ops h1 h2
  refine ⟨v, hv, ?_⟩
  have hst : v.flush.storage = specDb C (lastWrite (inserts ops)) := R.full
  simp only [hst]
  have R' := Rel.reopen (fun _ _ => False) (specDb C (lastWrite (inserts ops)))
  have hbm : ∀ p, HigherDb.getBranchMeta (VerkleDb.reopen (specDb C (lastWrite (inserts ops)))) p
      = HigherDb.getBranchMeta v p := fun p => (R'.getBranchMeta p).trans (R.getBranchMeta p).symm
  exact ⟨new_reopen C _, fun k => (R'.getLeaf k).trans (R.getLeaf k).symm, fun s => (R'.getStemMeta s).trans (R.getStemMeta s).symm,
    fun p i => (R'.getBranchChild p i).trans (R.getBranchChild p i).symm, hbm, by simp only [Trie.rootCommitment, hbm]⟩

/-- **C12 fails (1):** in general a read before the flush and the same read from the flushed disk differ, because the
former may come from a stale cache entry. -/
theorem C12_disk_differs_from_cache (C : Crypto F G) :
    ∃ v, runV C [.ins (keyOf [1, 1, 1, 1, 1, 1, 1] 0) (valOf 1), .ins (keyOf [1, 1, 1, 1, 1, 1, 2] 0) (valOf 1),
      .ins (keyOf [1, 1, 1, 1, 1, 1, 1] 0) (valOf 2)] = .ok v ∧
    Trie.get v (keyOf [1, 1, 1, 1, 1, 1, 1] 0) = some (valOf 1) ∧
    Trie.get (VerkleDb.reopen v.flush.storage) (keyOf [1, 1, 1, 1, 1, 1, 1] 0) = some (valOf 2) := ⟨_, rfl, rfl, rfl⟩

omit [Field F] [AddCommGroup G] [Module F G] in
/-- **C12 fails (2):** a reopened database lists no children for any branch in the cached levels, whatever is on disk. -/
theorem C12_reopened_lists_nothing (disk : MemoryDb F G) (p : Path) (hp : p.length ≤ 4) :
    HigherDb.getBranchChildren (VerkleDb.reopen disk) p = [] := by
  show VerkleDb.getBranchChildren _ p = []
  unfold VerkleDb.getBranchChildren
  rw [if_pos (by rw [Nat.mod_eq_of_lt (by omega)]; exact hp)]
  simp [VerkleDb.reopen, MemoryDb.getBranchChildren, MemoryDb.new]

/-- ... although the children are there. -/
example (C : Crypto F G) : ∃ v, runV C [.ins (keyOf [1] 0) (valOf 1), .flush] = .ok v ∧
    HigherDb.getBranchChild (VerkleDb.reopen v.storage) [] 1 = some (.stem (keyOf [1] 0).stem) ∧
    HigherDb.getBranchChildren (VerkleDb.reopen v.storage) [] = [] :=
  ⟨_, rfl, rfl, C12_reopened_lists_nothing _ _ (by simp)⟩

/-! ### C16 -/

omit [Field F] [AddCommGroup G] [Module F G] in
theorem filterMap_bytes {α : Type} (f : Byte → Option α) :
    (∀ i a, (i, a) ∈ MemoryDb.allBytes.filterMap (fun i => (f i).map fun c => (i, c)) ↔ f i = some a)
    ∧ ((MemoryDb.allBytes.filterMap (fun i => (f i).map fun c => (i, c))).map Prod.fst).Pairwise (· < ·) := by
  constructor
  · intro i a
    simp only [List.mem_filterMap, MemoryDb.allBytes, List.mem_finRange, true_and, Option.map_eq_some_iff, Prod.mk.injEq]
    constructor
    · rintro ⟨j, b, h, rfl, rfl⟩; exact h
    · intro h; exact ⟨i, a, h, rfl, rfl⟩
  · rw [List.map_filterMap]
    have : (fun i => Option.map Prod.fst ((f i).map fun c => (i, c))) = fun i => (if (f i).isSome then some i else none) := by
      funext i; cases f i <;> simp
    rw [this]
    have e : MemoryDb.allBytes.filterMap (fun i => if (f i).isSome then some i else none)
        = MemoryDb.allBytes.filter (fun i => (f i).isSome) := by
      have : (fun i => if (f i).isSome then some i else none) = Option.guard (fun i => (f i).isSome) := by
        funext i; simp [Option.guard]
      rw [this, List.filterMap_eq_filter]
    rw [e]
    exact (List.pairwise_lt_finRange 256).filter _

omit [Field F] [AddCommGroup G] [Module F G] in
/-- **C16**, in-memory database (every database state, not only reachable ones): the listing holds exactly the present
children with their indices, in strictly ascending order of index. -/
theorem C16_enumeration_complete (db : MemoryDb F G) (p : Path) (s : Stem) :
    (∀ i c, (i, c) ∈ HigherDb.getBranchChildren db p ↔ HigherDb.getBranchChild db p i = some c)
    ∧ ((HigherDb.getBranchChildren db p).map Prod.fst).Pairwise (· < ·)
    ∧ (∀ i v, (i, v) ∈ HigherDb.getStemChildren db s ↔ HigherDb.getLeaf db (mkKey s i) = some v)
    ∧ ((HigherDb.getStemChildren db s).map Prod.fst).Pairwise (· < ·) := by
  have h1 := filterMap_bytes (fun i => db.branch (p ++ [i]))
  have h2 := filterMap_bytes (fun i => db.leaf (mkKey s i))
  exact ⟨h1.1, h1.2, h2.1, h2.2⟩

/-- **C16** (part that holds for the cached database): for shallow runs without restarts the listings equal those of the in-memory
database.  (For uncached levels the order of the real code is that of a hash table; the model lists in ascending order,
so only the set of entries is claimed there.) -/
theorem C16_cached_enumeration_partial (C : Crypto F G) (ops : List Op) (h0 : .reopen ∉ ops) (h1 : ShallowRun ops)
    (h2 : NoOverwriteOfFlushed ops) (p : Path) (s : Stem) :
    ∃ v c, runV C ops = .ok v ∧ build C (inserts ops) = .ok c ∧
      HigherDb.getBranchChildren v p = HigherDb.getBranchChildren c p ∧
      HigherDb.getStemChildren v s = HigherDb.getStemChildren c s := by
  obtain ⟨v, _, hv, R, _⟩ := runV_rel C ops h1.deepFromOpening h2
  have hc := (R.all ⟨h0, fun p hp hm => by
    have h1 : ShallowRun (ops ++ []) := by simpa using h1
    exact h1.not_shared p ((shared_iff hp).2 hm)⟩).1
  refine ⟨v, _, hv, build_eq _ _, ?_, ?_⟩
  · show VerkleDb.getBranchChildren v p = MemoryDb.getBranchChildren _ p
    unfold VerkleDb.getBranchChildren
    rw [hc, R.full]
    split <;> rfl
  · show VerkleDb.getStemChildren v s = MemoryDb.getStemChildren _ s
    unfold VerkleDb.getStemChildren
    simp only [hc, R.full]
    split <;> rfl

/-- **C16 fails for the cached database:** after the first leaf of a stem was cached and the stem was pushed below the
cached levels, a second leaf of the same stem is missing from the listing. -/
theorem C16_stem_listing_incomplete (C : Crypto F G) :
    ∃ v, runV C [.ins (keyOf [1, 1, 1, 1, 1, 1, 1] 0) (valOf 1), .ins (keyOf [1, 1, 1, 1, 1, 1, 2] 0) (valOf 1),
      .ins (keyOf [1, 1, 1, 1, 1, 1, 1] 3) (valOf 2)] = .ok v ∧
    Trie.get v (keyOf [1, 1, 1, 1, 1, 1, 1] 3) = some (valOf 2) ∧
    ∀ x, (3, x) ∉ HigherDb.getStemChildren v (keyOf [1, 1, 1, 1, 1, 1, 1] 3).stem := by
  refine ⟨_, rfl, rfl, fun x hx => ?_⟩
  have key : ∀ (v : VerkleDb F G) (s : Stem) (a : Byte) (y : Value), v.cache.leaf (mkKey s a) = some y →
      (3, x) ∈ HigherDb.getStemChildren v s → v.cache.leaf (mkKey s 3) = some x := by
    intro v s a y hy h
    have h1 := (filterMap_bytes (fun i => v.cache.leaf (mkKey s i))).1
    have hm : (a, y) ∈ v.cache.getStemChildren s := (h1 a y).2 hy
    have hne : v.cache.getStemChildren s ≠ [] := List.ne_nil_of_mem hm
    have he : HigherDb.getStemChildren v s = v.cache.getStemChildren s := by
      show VerkleDb.getStemChildren v s = _
      unfold VerkleDb.getStemChildren
      simp only [if_pos hne]
    rw [he] at h
    exact (h1 3 x).1 h
  have h := key _ _ 0 (valOf 1) rfl hx
  have h' : (none : Option Value) = some x := h
  simp at h'

end Verif.Props
