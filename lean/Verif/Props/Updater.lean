import Verif.Proof.UpdateRoot
import Verif.Props.Multi

/-!
# Properties of the stateless updater: C26, C27

`verifyAndUpdate C O ord p root keys values updated` is the modelled `verify_and_update`; `ord` is the unspecified iteration
order of its `HashSet`s.  `writes keys updated` lists the keys whose new value is `Some`, with that value.
-/

set_option autoImplicit false

namespace Verif.Props
open Verif.Spec Verif.Trie Verif.Proof BOrd
open scoped Classical

variable {F G : Type} [Field F] [AddCommGroup G] [Module F G]

/-! ### C26 -/

/-- Some nonempty prefix of the stem is a prefix of exactly one stem of the trie: the place where the stem belongs is taken,
by the stem itself or by another one. -/
def PlaceTaken (m : KV) (s : Stem) : Prop := ∃ p : Path, p ≠ [] ∧ p <+: s.1 ∧ ∃! u, Under m p u

theorem placeTaken_iff {m : KV} {s : Stem} : PlaceTaken m s ↔ Occupied m (termPath m s) := by
  constructor
  · rintro ⟨p, hp, hps, u, hu, hun⟩
    have hb : ¬ IsBranch m p := by
      rintro (h | ⟨a, b, hne, ha, hb⟩)
      · exact hp h
      · exact hne ((hun a ha).trans (hun b hb).symm)
    rw [isBranch_prefix_iff hps] at hb
    have hpre : termPath m s <+: p := by
      apply List.prefix_of_prefix_length_le (termPath_prefix m s) hps
      rw [termPath_length]
      omega
    exact ⟨u, termStem_termPath (hu.mono hpre)⟩
  · rintro ⟨u, hu⟩
    exact ⟨_, hu.ne_nil, termPath_prefix m s, u, hu.2.2, fun v hv => Under.unique (fun h => hu.1 (Or.inr h)) hv hu.2.2⟩

theorem lastWrite_ne_none {l : List (Key × Value)} {k : Key} : lastWrite l k ≠ none ↔ ∃ v, (k, v) ∈ l := by
  unfold lastWrite
  rw [ne_eq, Option.map_eq_none_iff, List.find?_eq_none]
  push Not
  constructor
  · rintro ⟨⟨a, v⟩, h1, h2⟩
    obtain rfl : a = k := by simpa using h2
    exact ⟨v, by simpa using h1⟩
  · rintro ⟨v, h⟩
    exact ⟨(k, v), by simpa using h, by simp⟩

theorem mem_writes {keys : List Key} {updated : List (Option Value)} {k : Key} {v : Value} :
    (k, v) ∈ writes keys updated ↔ (k, some v) ∈ keys.zip updated := by
  unfold writes
  rw [List.mem_filterMap]
  constructor
  · rintro ⟨⟨a, o⟩, h1, h2⟩
    cases o with
    | none => simp at h2
    | some w =>
      simp only [Option.map_some, Option.some.injEq, Prod.mk.injEq] at h2
      obtain ⟨rfl, rfl⟩ := h2
      exact h1
  · exact fun h => ⟨_, h, rfl⟩

theorem usizeNot_ne (n : ℕ) : usizeNot n ≠ n := by
  unfold usizeNot
  omega

theorem hasStem_writes {keys : List Key} {updated : List (Option Value)} {s : Stem} :
    HasStem (applyAll emptyKV (writes keys updated)) s ↔ ∃ kv ∈ writes keys updated, kv.1.stem = s := by
  rw [applyAll_eq]
  constructor
  · rintro ⟨b, hb⟩
    obtain ⟨v, hv⟩ := lastWrite_ne_none.1 hb
    exact ⟨_, hv, mkKey_stem s b⟩
  · rintro ⟨⟨k, v⟩, h1, rfl⟩
    refine ⟨k.suffix, lastWrite_ne_none.2 ⟨v, ?_⟩⟩
    rw [mkKey_stem_suffix]
    exact h1

section
variable [DecidableEq F] [DecidableEq G]

/-- The updater after an opening argument that succeeds for the queries of the proof. -/
theorem update_core (C : Crypto F G) (O : Opener F G)
    {ord : Path → List Stem → List Stem} (hord : ∀ p l, (ord p l).Perm l)
    (l : List (Key × Value)) {db : MemoryDb F G} (hb : build C l = .ok db) {keys : List Key} (hk : keys ≠ [])
    (hnd : keys.Nodup) {updated : List (Option Value)} (hlen : updated.length = keys.length)
    {root : G} (hr : Trie.rootCommitment db = .ok root)
    (hO : ∀ qs hint, createProverQueries db keys = .ok (qs, hint) →
      ∃ pf, O.openAll qs = .ok pf ∧ O.check pf (qs.map ProverQuery.toVerifier) = .ok true) :
    ∃ p db' root', createVerkleProof O db keys = .ok (.ok p) ∧ Trie.insert C db (writes keys updated) = .ok db' ∧
      Trie.rootCommitment db' = .ok root' ∧
      (Separated C (lastWrite l) (· ∈ keys) →
        ((∀ kv ∈ writes keys updated, PlaceTaken (lastWrite l) kv.1.stem) →
          verifyAndUpdate C O ord p root keys (keys.map (Trie.get db)) updated = .ok (.ok root')) ∧
        ((∃ kv ∈ writes keys updated, ¬ PlaceTaken (lastWrite l) kv.1.stem) →
          verifyAndUpdate C O ord p root keys (keys.map (Trie.get db)) updated = .error "no entry found for key")) ∧
      (¬ Separated C (lastWrite l) (· ∈ keys) →
        verifyAndUpdate C O ord p root keys (keys.map (Trie.get db)) updated
          = .error "assert commitments.len() == all_paths.len()") := by
  obtain ⟨q, qs, hint, h1, h2, ht, h3, h4⟩ := honest_run C l hb hk hr
  obtain ⟨pf, hp1, hp2⟩ := hO (q :: qs) hint h1
  rw [build_iff] at hb
  subst hb
  rw [root_of_build] at hr
  have hr : nodeComm C (lastWrite l) [] = root := by simpa using hr
  subst hr
  refine ⟨⟨hint, commsSorted (nodeComm C (lastWrite l) []) (q :: qs), pf⟩, _,
    nodeComm C (applyAll (lastWrite l) (writes keys updated)) [], ?_, insert_spec C _ _, root_of_build, fun h => ?_, fun h => ?_⟩
  · simp only [createVerkleProof, if_neg hk, h1, bind, Except.bind, hp1, h2]
  · obtain ⟨uh, h5, H⟩ := h3 h
    have hget : ∀ k, Trie.get (specDb C (lastWrite l)) k = lastWrite l k := fun k => rfl
    have hv : verifyAndUpdate C O ord ⟨hint, commsSorted (nodeComm C (lastWrite l) []) (q :: qs), pf⟩ (nodeComm C (lastWrite l) [])
        keys (keys.map (Trie.get (specDb C (lastWrite l)))) updated
        = updateRoot C ord uh keys (keys.map (lastWrite l)) updated (nodeComm C (lastWrite l) []) := by
      simp only [verifyAndUpdate, check, h5, bind, Except.bind, hp2, Bool.true_eq_false, if_false, unwrap]
      rfl
    obtain ⟨r1, r2⟩ := updateRoot_spec H hord hnd (updated := updated) (by rw [hlen]; exact usizeNot_ne _) (fun k hk' => by
      rw [applyAll_eq] at hk'
      obtain ⟨v, hv⟩ := lastWrite_ne_none.1 hk'
      exact (List.of_mem_zip (mem_writes.1 hv)).1)
    rw [hv]
    constructor
    · intro hall
      rw [r1, nodeComm_branch (Or.inl rfl)]
      intro s hs
      obtain ⟨kv, hkv, rfl⟩ := hasStem_writes.1 hs
      exact placeTaken_iff.1 (hall kv hkv)
    · rintro ⟨kv, hkv, hno⟩
      exact r2 ⟨kv.1.stem, hasStem_writes.2 ⟨kv, hkv, rfl⟩, fun h => hno (placeTaken_iff.2 h)⟩
  · simp only [verifyAndUpdate, check, h4 h, bind, Except.bind]

/-- C26 (partial).  Take any reachable trie, an honest proof for distinct keys and any list of new values.  The stateless
updater, given the old root, the proof and the true old values, returns exactly the root of the full trie after inserting the
new values, whatever the iteration order of its hash sets - provided that the opened nodes are `Separated` (otherwise the
proof check panics, see C20) and that the place of every written key is taken.  If some written key belongs to an empty place
the updater panics.  So the missing part is false: `C26_full_claim_false`. -/
theorem C26_stateless_update_partial (C : Crypto F G) (O : Opener F G) (hO : CompleteOpener C O)
    {ord : Path → List Stem → List Stem} (hord : ∀ p l, (ord p l).Perm l)
    (l : List (Key × Value)) {db : MemoryDb F G} (hb : build C l = .ok db) {keys : List Key} (hk : keys ≠ [])
    (hnd : keys.Nodup) {updated : List (Option Value)} (hlen : updated.length = keys.length)
    {root : G} (hr : Trie.rootCommitment db = .ok root) :
    ∃ p db' root', createVerkleProof O db keys = .ok (.ok p) ∧ Trie.insert C db (writes keys updated) = .ok db' ∧
      Trie.rootCommitment db' = .ok root' ∧
      (Separated C (lastWrite l) (· ∈ keys) →
        ((∀ kv ∈ writes keys updated, PlaceTaken (lastWrite l) kv.1.stem) →
          verifyAndUpdate C O ord p root keys (keys.map (Trie.get db)) updated = .ok (.ok root')) ∧
        ((∃ kv ∈ writes keys updated, ¬ PlaceTaken (lastWrite l) kv.1.stem) →
          verifyAndUpdate C O ord p root keys (keys.map (Trie.get db)) updated = .error "no entry found for key")) ∧
      (¬ Separated C (lastWrite l) (· ∈ keys) →
        verifyAndUpdate C O ord p root keys (keys.map (Trie.get db)) updated
          = .error "assert commitments.len() == all_paths.len()") := by
  refine update_core C O hord l hb hk hnd hlen hr fun qs hint he => ?_
  obtain ⟨q, qs', hint', h1, _, ht, _⟩ := honest_run C l hb hk hr
  rw [h1] at he
  cases he
  exact hO (q :: qs') (by simp) ht

theorem empty_opened {K : Key → Prop} {p : Path} (h : Opened (lastWrite []) K p) : p = [] := by
  have hn : ∀ s, ¬ HasStem (lastWrite []) s := fun s ⟨b, hb⟩ => hb rfl
  rcases opened_cases h with (h1 | ⟨a, _, _, ha, _⟩) | ⟨u, hu⟩ | ⟨q, u, i, hu, _⟩
  · exact h1
  · exact absurd ha.1 (hn a)
  · exact absurd hu.2.2.1 (hn u)
  · exact absurd hu.2.2.1 (hn u)

omit [DecidableEq F] [DecidableEq G] in
theorem empty_separated (C : Crypto F G) (K : Key → Prop) : Separated C (lastWrite []) K := by
  intro p q hp hq hlt
  rw [empty_opened hp, empty_opened hq, not_lt_nil] at hlt
  cases hlt

/-- C26 fails for every commitment scheme, opening argument and iteration order: inserting a first value into an empty trie
by way of a proof panics. -/
theorem C26_full_claim_false (C : Crypto F G) (O : Opener F G) (hO : CompleteOpener C O)
    {ord : Path → List Stem → List Stem} (hord : ∀ p l, (ord p l).Perm l) :
    ∃ db root p, build C [] = .ok db ∧ Trie.rootCommitment db = .ok root ∧
      createVerkleProof O db [demoKey 1 5] = .ok (.ok p) ∧
      (∃ uh, check C O p [demoKey 1 5] [none] root = .ok (true, some uh)) ∧
      verifyAndUpdate C O ord p root [demoKey 1 5] [none] [some oneVal] = .error "no entry found for key" := by
  have hb := build_eq C []
  have hr := root_of_build (C := C) (m := lastWrite [])
  obtain ⟨p, db', root', h1, _, _, h4, _⟩ := C26_stateless_update_partial C O hO hord [] hb (keys := [demoKey 1 5])
    (by simp) (by simp) (updated := [some oneVal]) rfl hr
  obtain ⟨p', h1', h5, _⟩ := C20_honest_proofs_verify_partial C O hO [] hb (keys := [demoKey 1 5]) (by simp) hr
  obtain rfl : p = p' := by rw [h1] at h1'; simpa using h1'
  refine ⟨_, _, p, hb, hr, h1, h5 (empty_separated C _), (h4 (empty_separated C _)).2 ⟨(demoKey 1 5, oneVal), ?_, ?_⟩⟩
  · simp [writes]
  · rintro ⟨_, _, _, u, hu, _⟩
    obtain ⟨⟨b, hb⟩, _⟩ := hu
    exact hb rfl

/-! ### C27 -/

omit [DecidableEq F] in
/-- C27 (partial).  A request with a repeated key is refused, whatever the proof's hint, the values and the list lengths
are; `Err(DuplicateKeys)` if the three lists have the same length.  A request whose proof is rejected is refused too.  The
claim about list lengths is false: `C27_full_claim_false`, `C27_extra_ignored`, `C27_missing_ignored`. -/
theorem C27_rejects_partial (C : Crypto F G) (O : Opener F G) (ord : Path → List Stem → List Stem)
    (p : VerkleProof G O.Pf) (root : G) (keys : List Key) (values updated : List (Option Value)) :
    (∀ uh, check C O p keys values root = .ok (true, some uh) → ¬ keys.Nodup →
      (∃ e, verifyAndUpdate C O ord p root keys values updated = .ok (.error e)) ∧
      (values.length = updated.length → keys.length = updated.length →
        verifyAndUpdate C O ord p root keys values updated = .ok (.error .duplicateKeys))) ∧
    (∀ uh, check C O p keys values root = .ok (false, uh) →
      verifyAndUpdate C O ord p root keys values updated = .ok (.error .invalidProof)) := by
  constructor
  · intro uh h hd
    have hv : verifyAndUpdate C O ord p root keys values updated = updateRoot C ord uh keys values updated root := by
      simp only [verifyAndUpdate, h, bind, Except.bind, Bool.true_eq_false, if_false, unwrap]
    rw [hv]
    unfold updateRoot
    constructor
    · split_ifs
      · exact ⟨_, rfl⟩
      · exact ⟨_, rfl⟩
      · exact ⟨_, rfl⟩
    · intro e1 e2
      rw [e1, e2, if_neg (usizeNot_ne _), if_neg (usizeNot_ne _), if_pos hd]
  · intro uh h
    simp only [verifyAndUpdate, h, bind, Except.bind, if_true]

theorem zip_extra {α β : Type} (a : List α) (b c : List β) (h : a.length ≤ b.length) : a.zip (b ++ c) = a.zip b := by
  induction a generalizing b with
  | nil => simp
  | cons x a ih =>
    cases b with
    | nil => simp at h
    | cons y b => simp only [List.cons_append, List.zip_cons_cons, ih b (by simpa using h)]

omit [DecidableEq F] in
/-- Entries of the list of new values beyond the number of keys are ignored without an error (below `2^62` entries). -/
theorem C27_extra_ignored (C : Crypto F G) (O : Opener F G) (ord : Path → List Stem → List Stem)
    (p : VerkleProof G O.Pf) (root : G) (keys : List Key) (values updated extra : List (Option Value))
    (h1 : values.length = keys.length) (h2 : updated.length = keys.length) (h3 : keys.length + extra.length < 2 ^ 62) :
    verifyAndUpdate C O ord p root keys values (updated ++ extra) = verifyAndUpdate C O ord p root keys values updated := by
  have e1 : ∀ (hint : UpdateHint G), updateRoot C ord hint keys values (updated ++ extra) root
      = updateRoot C ord hint keys values updated root := by
    intro hint
    have a1 : ¬ usizeNot keys.length = (updated ++ extra).length := by
      rw [List.length_append, h2]
      unfold usizeNot
      omega
    have a2 : ¬ usizeNot keys.length = updated.length := by rw [h2]; exact usizeNot_ne _
    unfold updateRoot
    rw [h1, if_neg a1, if_neg a1, if_neg a2, if_neg a2, zip_extra _ _ _ (by simp [h1, h2])]
  unfold verifyAndUpdate
  simp only [e1]

theorem collectUpdates_none : ∀ (kv : List (Key × Option Value)) (n : ℕ) (us : BMap Stem SuffixUpdate),
    collectUpdates (kv.zip (List.replicate n none)) us = us
  | [], _, us => by simp [collectUpdates]
  | _ :: _, 0, us => by simp [collectUpdates]
  | x :: kv, n + 1, us => by
    rw [List.replicate_succ, List.zip_cons_cons, collectUpdates, collectUpdates_none kv n us]

theorem collectUpdates_missing : ∀ (kv : List (Key × Option Value)) (updated : List (Option Value)) (n : ℕ)
    (us : BMap Stem SuffixUpdate),
    collectUpdates (kv.zip (updated ++ List.replicate n none)) us = collectUpdates (kv.zip updated) us
  | kv, [], n, us => by rw [List.nil_append, collectUpdates_none, List.zip_nil_right]; rfl
  | [], _ :: _, _, us => rfl
  | (k, old) :: kv, none :: updated, n, us => by
    simp only [List.cons_append, List.zip_cons_cons, collectUpdates, collectUpdates_missing kv updated n]
  | (k, old) :: kv, some v :: updated, n, us => by
    simp only [List.cons_append, List.zip_cons_cons, collectUpdates, collectUpdates_missing kv updated n]

omit [DecidableEq F] in
/-- Missing entries of the list of new values count as "no change" without an error (below `2^62` entries). -/
theorem C27_missing_ignored (C : Crypto F G) (O : Opener F G) (ord : Path → List Stem → List Stem)
    (p : VerkleProof G O.Pf) (root : G) (keys : List Key) (values updated : List (Option Value)) (n : ℕ)
    (h1 : values.length = keys.length) (h2 : updated.length + n = keys.length) (h3 : keys.length < 2 ^ 62) :
    verifyAndUpdate C O ord p root keys values updated
      = verifyAndUpdate C O ord p root keys values (updated ++ List.replicate n none) := by
  have e1 : ∀ (hint : UpdateHint G), updateRoot C ord hint keys values updated root
      = updateRoot C ord hint keys values (updated ++ List.replicate n none) root := by
    intro hint
    have a1 : ¬ usizeNot keys.length = (updated ++ List.replicate n none).length := by
      rw [List.length_append, List.length_replicate, h2]
      exact usizeNot_ne _
    have a2 : ¬ usizeNot keys.length = updated.length := by
      unfold usizeNot
      omega
    unfold updateRoot
    rw [h1, if_neg a1, if_neg a1, if_neg a2, if_neg a2, collectUpdates_missing]
  unfold verifyAndUpdate
  simp only [e1]

/-- C27 fails for every commitment scheme, opening argument and iteration order: with one key and one value, a list of two new
values and an empty list of new values are both accepted, and the surplus value is dropped. -/
theorem C27_full_claim_false (C : Crypto F G) (O : Opener F G) (hO : CompleteOpener C O)
    {ord : Path → List Stem → List Stem} (hord : ∀ p l, (ord p l).Perm l) :
    ∃ db root p, build C [] = .ok db ∧ Trie.rootCommitment db = .ok root ∧
      createVerkleProof O db [demoKey 1 5] = .ok (.ok p) ∧
      verifyAndUpdate C O ord p root [demoKey 1 5] [none] [none, some oneVal] = .ok (.ok root) ∧
      verifyAndUpdate C O ord p root [demoKey 1 5] [none] [] = .ok (.ok root) := by
  have hb := build_eq C []
  have hr := root_of_build (C := C) (m := lastWrite [])
  obtain ⟨p, db', root', h1, h2, h3, h4, _⟩ := C26_stateless_update_partial C O hO hord [] hb (keys := [demoKey 1 5])
    (by simp) (by simp) (updated := [none]) rfl hr
  obtain rfl : specDb C (lastWrite []) = db' := by
    have : Trie.insert C (specDb C (lastWrite [])) (writes [demoKey 1 5] [none]) = .ok (specDb C (lastWrite [])) := rfl
    rw [this] at h2
    simpa using h2
  obtain rfl : nodeComm C (lastWrite []) [] = root' := by rw [hr] at h3; simpa using h3
  have h5 := (h4 (empty_separated C _)).1 (by simp [writes])
  refine ⟨_, _, p, hb, hr, h1, ?_, ?_⟩
  · rw [← h5]
    exact C27_extra_ignored C O ord p _ [demoKey 1 5] [none] [none] [some oneVal] rfl rfl (by norm_num)
  · rw [← h5]
    exact C27_missing_ignored C O ord p _ [demoKey 1 5] [none] [] 1 rfl rfl (by norm_num)

end

/-! ### Concrete cases -/

/-- Distinct keys of the trie `proofHist`: present, suffix absent, another stem in the way (twice, at the same place), and an
empty place. -/
def updKeys : List Key :=
  [keyOf [9, 9] 0, keyOf [1, 2, 3] 200, keyOf [1, 2, 3] 6, keyOf [1, 2, 4] 0, keyOf [1, 2, 3, 4] 9, keyOf [7] 1]
/-- New values for all but the first and the last. -/
def updVals : List (Option Value) := [none, some (valOf 3), some (valOf 4), some (valOf 5), some (valOf 6), none]

/-- The updater's root next to the trie's, and whether they differ from the old one. -/
def updRun (l : List (Key × Value)) (ks : List Key) (vs : List (Option Value)) (ord : Path → List Stem → List Stem) :
    Option (Bool × Bool) :=
  match (do
    let db ← build toy l
    let root ← Trie.rootCommitment db
    let db' ← Trie.insert toy db (writes ks vs)
    let root' ← Trie.rootCommitment db'
    match ← createVerkleProof (yesOpener _ _) db ks with
    | .error _ => .error "no proof"
    | .ok p =>
      match ← verifyAndUpdate toy (yesOpener _ _) ord p root ks (ks.map (Trie.get db)) vs with
      | .error _ => .error "refused"
      | .ok r => pure (decide (r = root'), decide (root' = root)) : Res (Bool × Bool)) with
  | .ok r => some r
  | .error _ => none

/-- The updater agrees with the trie in two iteration orders, and the root changes. -/
theorem updRun_demo : updRun proofHist updKeys updVals (fun _ l => l) = some (true, false) ∧
    updRun proofHist updKeys updVals (fun _ l => l.reverse) = some (true, false) := by decide +kernel

/-- Hypotheses of `C26_stateless_update_partial` in that case. -/
example : updKeys.Nodup ∧ updVals.length = updKeys.length ∧ (∀ (_ : Path) (l : List Stem), l.reverse.Perm l) ∧
    CompleteOpener toy (yesOpener _ _) :=
  ⟨by decide +kernel, rfl, fun _ l => List.reverse_perm l, yesOpener_complete toy⟩

example : Separated toy (lastWrite proofHist) (· ∈ updKeys) := by
  by_contra h
  have hb := build_eq toy proofHist
  have hr := root_of_build (C := toy) (m := lastWrite proofHist)
  obtain ⟨p, db', root', h1, h2, h3, _, h5⟩ := C26_stateless_update_partial toy _ (yesOpener_complete toy)
    (ord := fun _ l => l) (fun _ l => List.Perm.refl l) proofHist hb (keys := updKeys) (by simp [updKeys])
    (by decide +kernel) (updated := updVals) rfl hr
  have h6 := updRun_demo.1
  unfold updRun at h6
  simp only [hb, hr, h1, h2, h3, h5 h, bind, Except.bind] at h6
  simp at h6

theorem upd_placeTaken : ∀ kv ∈ writes updKeys updVals, PlaceTaken (lastWrite proofHist) kv.1.stem := by
  by_contra h
  push Not at h
  have hb := build_eq toy proofHist
  have hr := root_of_build (C := toy) (m := lastWrite proofHist)
  obtain ⟨p, db', root', h1, h2, h3, h4, h5⟩ := C26_stateless_update_partial toy _ (yesOpener_complete toy)
    (ord := fun _ l => l) (fun _ l => List.Perm.refl l) proofHist hb (keys := updKeys) (by simp [updKeys])
    (by decide +kernel) (updated := updVals) rfl hr
  have h6 := updRun_demo.1
  unfold updRun at h6
  by_cases hs : Separated toy (lastWrite proofHist) (· ∈ updKeys)
  · simp only [hb, hr, h1, h2, h3, (h4 hs).2 h, bind, Except.bind] at h6
    simp at h6
  · simp only [hb, hr, h1, h2, h3, h5 hs, bind, Except.bind] at h6
    simp at h6

/-- A written key in an empty place: the updater does not answer. -/
example : updRun proofHist updKeys [none, none, none, none, none, some (valOf 1)] (fun _ l => l) = none := by decide +kernel

/-- Hypotheses of `C27_rejects_partial`: an accepted proof for a list with a repeated key. -/
example : ∃ p uh, check toy (yesOpener _ _) p proofKeys (proofKeys.map (lastWrite proofHist))
      (nodeComm toy (lastWrite proofHist) []) = .ok (true, some uh) ∧ ¬ proofKeys.Nodup := by
  have hb := build_eq toy proofHist
  have hr := root_of_build (C := toy) (m := lastWrite proofHist)
  obtain ⟨p, h1, h2, h3⟩ := C20_honest_proofs_verify_partial toy _ (yesOpener_complete toy) proofHist hb (keys := proofKeys)
    (by simp [proofKeys]) hr
  have hs : Separated toy (lastWrite proofHist) (· ∈ proofKeys) := by
    by_contra h
    have h4 := roundTrip_demo
    unfold roundTrip at h4
    simp only [hb, hr, bind, Except.bind, h1, h3 h] at h4
    split at h4
    · rename_i e
      split at e <;> simp at e
    · simp at h4
  obtain ⟨uh, h⟩ := h2 hs
  exact ⟨p, uh, h, by decide +kernel⟩

end Verif.Props
