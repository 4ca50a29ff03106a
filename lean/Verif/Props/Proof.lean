import Verif.Proof.Honest
import Verif.Props.Db

/-!
# Properties of proofs: C17 - C20, C23
-/

set_option autoImplicit false

namespace Verif.Props
open Verif.Spec Verif.Trie Verif.Proof BOrd
open scoped Classical

variable {F G : Type} [Field F] [AddCommGroup G] [Module F G]

/-! ### C17 -/

/-- C17.  The walk for `k` visits the branch nodes at the first `n` prefixes of the stem of `k` (`1 ≤ n ≤ 31`) and stops at
the prefix of length `n`, which is no branch; the verdict is then exactly the one described.  The recorded depth is the
number of visited nodes: `n`, plus one if the walk ends at a stem. -/
theorem C17_key_path (C : Crypto F G) (l : List (Key × Value)) {db : MemoryDb F G} (hb : build C l = .ok db) (k : Key) :
    ∃ kp n, findKeyPath db k = .ok kp ∧ 1 ≤ n ∧ n ≤ 31 ∧
      (∀ i, i < n → IsBranch (lastWrite l) (k.stem.1.take i)) ∧ ¬ IsBranch (lastWrite l) (k.stem.1.take n) ∧
      kp.nodes.map Prod.fst = (List.range kp.nodes.length).map (fun i => k.stem.1.take i) ∧
      kp.depth.val = kp.nodes.length ∧
      kp.nodes.length = (if ∃ s, Under (lastWrite l) (k.stem.1.take n) s then n + 1 else n) ∧
      (∀ v, kp.keyState = .found v ↔ Trie.get db k = some v) ∧
      (kp.keyState = .stemFound ↔ Trie.get db k = none ∧ HasStem (lastWrite l) k.stem) ∧
      (∀ s, kp.keyState = .differentStem s ↔
        s ≠ k.stem ∧ ∀ t, Under (lastWrite l) (k.stem.1.take n) t ↔ t = s) ∧
      (kp.keyState = .empty ↔ ∀ t, ¬ Under (lastWrite l) (k.stem.1.take n) t) := by
  rw [build_iff] at hb
  subst hb
  generalize lastWrite l = m
  have hg : Trie.get (specDb C m) k = m k := rfl
  have hle := termLen_le m k.stem
  have hnm := termPath_not_many m k.stem
  have hhas : ∀ v, m k = some v → HasStem m k.stem := fun v h => ⟨k.suffix, by rw [mkKey_stem_suffix, h]; simp⟩
  refine ⟨keyPathSpec C m k, termLen m k.stem, findKeyPath_spec C m k, termLen_pos m k.stem, hle,
    fun i hi => isBranch_of_lt hi, termLen_spec m k.stem, ?_⟩
  by_cases hu : ∃ u, Under m (termPath m k.stem) u
  · obtain ⟨u, hu⟩ := hu
    have huu : ∃ s, Under m (k.stem.1.take (termLen m k.stem)) s := ⟨u, hu⟩
    rw [keyPathSpec_stem hu, hg]
    have hdv : (asU8 (termLen m k.stem + 1)).val = termLen m k.stem + 1 := asU8_val (by omega)
    have huq : ∀ t, Under m (k.stem.1.take (termLen m k.stem)) t ↔ t = u :=
      fun t => ⟨fun ht => Under.unique hnm ht hu, fun e => e ▸ hu⟩
    refine ⟨?_, ?_, ?_, ?_, ?_, ?_, ?_⟩
    · simp only [List.map_append, List.map_cons, List.map_nil, List.length_append, List.length_singleton, branchNodes_length,
        List.range_succ]
      simp [branchNodes, termPath]
    · simp only [hdv, List.length_append, List.length_singleton, branchNodes_length]
    · simp only [if_pos huu, List.length_append, List.length_singleton, branchNodes_length]
    · intro v
      unfold stateAt
      by_cases he : u = k.stem
      · subst he
        cases hm : m k <;> simp [hm]
      · simp only [he, if_false]
        constructor
        · intro h; simp at h
        · intro h
          exact absurd (Under.unique hnm hu ⟨hhas v h, termPath_prefix m k.stem⟩) he
    · unfold stateAt
      by_cases he : u = k.stem
      · subst he
        cases hm : m k <;> simp [hm, hu.1]
      · simp only [he, if_false]
        constructor
        · intro h; simp at h
        · rintro ⟨_, h⟩
          exact absurd (Under.unique hnm hu ⟨h, termPath_prefix m k.stem⟩) he
    · intro s
      simp only [huq]
      unfold stateAt
      by_cases he : u = k.stem
      · subst he
        have : (match m k with
          | some v => KeyState.found v
          | none => KeyState.stemFound) ≠ .differentStem s := by cases m k <;> simp
        simp only [if_true]
        constructor
        · intro h; exact absurd h this
        · rintro ⟨h1, h2⟩
          exact absurd ((h2 k.stem).1 rfl).symm h1
      · simp only [he, if_false, KeyState.differentStem.injEq]
        constructor
        · rintro rfl; exact ⟨he, fun t => Iff.rfl⟩
        · rintro ⟨_, h2⟩; exact (h2 u).1 rfl
    · simp only [huq]
      unfold stateAt
      constructor
      · intro h
        by_cases he : u = k.stem
        · rw [if_pos he] at h
          cases hm : m k <;> simp [hm] at h
        · rw [if_neg he] at h; simp at h
      · intro h; exact absurd rfl (h u)
  · have hu' : ∀ u, ¬ Under m (termPath m k.stem) u := fun u h => hu ⟨u, h⟩
    have hns : ¬ HasStem m k.stem := fun h => hu' _ ⟨h, termPath_prefix m k.stem⟩
    have hnone : m k = none := by
      cases hm : m k with
      | none => rfl
      | some v => exact absurd (hhas v hm) hns
    have hdv : (asU8 (termLen m k.stem)).val = termLen m k.stem := asU8_val (by omega)
    rw [keyPathSpec_empty hu', hg]
    refine ⟨?_, ?_, ?_, ?_, ?_, ?_, ?_⟩
    · simp only [branchNodes_length]
      simp [branchNodes]
    · simp only [hdv, branchNodes_length]
    · simp only [branchNodes_length]
      rw [if_neg]; exact fun h => hu h
    · intro v; simp [hnone]
    · simp [hns]
    · intro s
      simp only [reduceCtorEq, false_iff, not_and]
      intro _ h
      exact hu' s ((h s).2 rfl)
    · simp only [true_iff]
      exact hu'

/-! ### C18 -/

/-- A true opening: the commitment is that of the polynomial's 256 evaluations (missing ones are zero), the point is one of
the 256 indices and the result is the evaluation there. -/
structure TrueQuery (C : Crypto F G) (q : ProverQuery F G) : Prop where
  len : q.poly.length ≤ 256
  point : q.point < 256
  comm : q.commitment = commit C (fun i => q.poly.getD i.val 0)
  result : q.result = q.poly.getD q.point 0

theorem labelQuery_true (C : Crypto F G) (m : KV) (x : Path × Byte) : TrueQuery C (labelQuery C m x) := by
  have h := nodePoly_spec (C := C) (m := m) (p := x.1)
  refine ⟨h.1, x.2.2, ?_, ?_⟩
  · show nodeComm C m x.1 = _
    unfold nodeComm
    congr 1
    funext i
    exact (h.2 i).symm
  · exact (h.2 x.2).symm

variable [DecidableEq F] [DecidableEq G]

/-- C18.  Creating a proof never panics: for no keys the error `EmptyKeySet` is returned; otherwise the queries are all true
openings, there is at least one, the first is against the root, and a proof is returned provided the opening argument
(`O.openAll`, C32) does not panic on such queries. -/
theorem C18_creation_total (C : Crypto F G) (O : Opener F G) (l : List (Key × Value)) {db : MemoryDb F G}
    (hb : build C l = .ok db) (hO : ∀ qs, qs ≠ [] → (∀ q ∈ qs, TrueQuery C q) → ∃ pf, O.openAll qs = .ok pf) :
    createVerkleProof O db [] = .ok (.error .emptyKeySet) ∧
    ∀ keys, keys ≠ [] → ∃ p, createVerkleProof O db keys = .ok (.ok p) := by
  rw [build_iff] at hb
  subst hb
  refine ⟨rfl, fun keys hk => ?_⟩
  obtain ⟨L, d, he, hL, hLm, _, _⟩ := createProverQueries_spec C (lastWrite l) hk
  obtain ⟨z, hz⟩ := opened_nil (m := lastWrite l) hk
  have hne : L ≠ [] := List.ne_nil_of_mem ((hLm _).2 hz)
  obtain ⟨x, L', rfl⟩ := List.exists_cons_of_ne_nil hne
  obtain ⟨pf, hpf⟩ := hO ((x :: L').map (labelQuery C (lastWrite l))) (by simp) (by
    intro q hq
    obtain ⟨y, _, rfl⟩ := List.mem_map.1 hq
    exact labelQuery_true C _ y)
  rw [List.map_cons] at he hpf
  refine ⟨⟨honestHint (lastWrite l) keys d, commsSorted (nodeComm C (lastWrite l) x.1)
    (labelQuery C (lastWrite l) x :: L'.map (labelQuery C (lastWrite l))), pf⟩, ?_⟩
  simp only [createVerkleProof, if_neg hk, he, bind, Except.bind, hpf]
  rfl

/-! ### C19, C20 -/

/-- The root's query comes first. -/
theorem labels_head {m : KV} {keys : List Key} (hk : keys ≠ []) {L : List (Path × Byte)} (hL : Ascending L)
    (hLm : ∀ x, x ∈ L ↔ Label m (· ∈ keys) x) : ∃ z L', L = ([], z) :: L' := by
  obtain ⟨z, hz⟩ := opened_nil (m := m) hk
  have hmem := (hLm _).2 hz
  cases L with
  | nil => simp at hmem
  | cons x L' =>
    obtain ⟨p, w⟩ := x
    cases p with
    | nil => exact ⟨w, L', rfl⟩
    | cons b p =>
      rcases List.mem_cons.1 hmem with e | e
      · simp at e
      · have h1 : (if lt (b :: p) ([] : Path) then true else if lt ([] : Path) (b :: p) then false else lt w z) = true :=
          (List.pairwise_cons.1 hL).1 _ e
        have h2 : lt ([] : Path) (b :: p) = true := rfl
        rw [not_lt_nil, h2] at h1
        simp at h1

theorem root_of_build {C : Crypto F G} {m : KV} : Trie.rootCommitment (specDb C m) = .ok (nodeComm C m []) := by
  have hbm : HigherDb.getBranchMeta (specDb C m) [] = .ok (some (branchMeta C m [])) := by
    show MemoryDb.getBranchMeta (specDb C m) [] = _
    unfold MemoryDb.getBranchMeta
    have : (specDb C m).branch [] = some (.branch (branchMeta C m [])) := node_branch (Or.inl rfl)
    rw [this]
  simp only [Trie.rootCommitment, hbm, bind, Except.bind, unwrap]
  rw [nodeComm_branch (Or.inl rfl)]; rfl

/-- The queries, hint and commitments an honest prover produces, and what the verifier makes of them. -/
theorem honest_run (C : Crypto F G) (l : List (Key × Value)) {db : MemoryDb F G} (hb : build C l = .ok db) {keys : List Key}
    (hk : keys ≠ []) {root : G} (hr : Trie.rootCommitment db = .ok root) :
    ∃ q qs hint, createProverQueries db keys = .ok (q :: qs, hint) ∧ q.commitment = root ∧
      (∀ q' ∈ q :: qs, TrueQuery C q') ∧
      (Separated C (lastWrite l) (· ∈ keys) → ∃ uh, createVerifierQueries C hint (commsSorted root (q :: qs)) keys
          (keys.map (Trie.get db)) root = .ok (some ((q :: qs).map ProverQuery.toVerifier, uh)) ∧
          HintOk C (lastWrite l) keys uh) ∧
      (¬ Separated C (lastWrite l) (· ∈ keys) → createVerifierQueries C hint (commsSorted root (q :: qs)) keys
          (keys.map (Trie.get db)) root = .error "assert commitments.len() == all_paths.len()") := by
  rw [build_iff] at hb
  subst hb
  rw [root_of_build] at hr
  have hr : nodeComm C (lastWrite l) [] = root := by simpa using hr
  subst hr
  generalize lastWrite l = m
  obtain ⟨L, d, he, hL, hLm, hd, hdm⟩ := createProverQueries_spec C m hk
  have hs := honest_spec C m hk hL hLm hd hdm
  obtain ⟨z, L', rfl⟩ := labels_head hk hL hLm
  refine ⟨labelQuery C m ([], z), L'.map (labelQuery C m), honestHint m keys d, he, rfl, ?_, ?_, ?_⟩
  · intro q hq
    rw [← List.map_cons] at hq
    obtain ⟨y, _, rfl⟩ := List.mem_map.1 hq
    exact labelQuery_true C _ y
  · intro h
    obtain ⟨uh, h1, h2⟩ := hs.1 h
    refine ⟨uh, ?_, h2⟩
    rw [← List.map_cons, List.map_map]
    exact h1
  · exact hs.2

/-- C19 (partial).  The verifier rebuilds exactly the prover's openings, in order, if and only if the opened nodes are
`Separated`: no two opened nodes that are neighbours in path order have the same commitment and none has that of the root.
If they are not, the verifier panics.  The missing part is false: `C19_full_claim_false`. -/
theorem C19_same_queries_partial (C : Crypto F G) (l : List (Key × Value)) {db : MemoryDb F G} (hb : build C l = .ok db)
    {keys : List Key} (hk : keys ≠ []) {root : G} (hr : Trie.rootCommitment db = .ok root) :
    ∃ qs hint, createProverQueries db keys = .ok (qs, hint) ∧
      (Separated C (lastWrite l) (· ∈ keys) → ∃ uh, createVerifierQueries C hint (commsSorted root qs) keys
          (keys.map (Trie.get db)) root = .ok (some (qs.map ProverQuery.toVerifier, uh))) ∧
      (¬ Separated C (lastWrite l) (· ∈ keys) → createVerifierQueries C hint (commsSorted root qs) keys
          (keys.map (Trie.get db)) root = .error "assert commitments.len() == all_paths.len()") := by
  obtain ⟨q, qs, hint, h1, _, _, h3, h4⟩ := honest_run C l hb hk hr
  refine ⟨q :: qs, hint, h1, fun h => ?_, h4⟩
  obtain ⟨uh, h5, _⟩ := h3 h
  exact ⟨uh, h5⟩

/-- The opening argument is complete: true openings are proved and the proof is accepted (C32). -/
def CompleteOpener (C : Crypto F G) (O : Opener F G) : Prop :=
  ∀ qs, qs ≠ [] → (∀ q ∈ qs, TrueQuery C q) →
    ∃ pf, O.openAll qs = .ok pf ∧ O.check pf (qs.map ProverQuery.toVerifier) = .ok true

/-- C20 (partial).  With a complete opening argument an honest proof is accepted with the values returned by `get`, if and
only if the opened nodes are `Separated`; otherwise checking it panics.  The missing part is false:
`C20_full_claim_false`. -/
theorem C20_honest_proofs_verify_partial (C : Crypto F G) (O : Opener F G) (hO : CompleteOpener C O)
    (l : List (Key × Value)) {db : MemoryDb F G} (hb : build C l = .ok db) {keys : List Key} (hk : keys ≠ []) {root : G}
    (hr : Trie.rootCommitment db = .ok root) :
    ∃ p, createVerkleProof O db keys = .ok (.ok p) ∧
      (Separated C (lastWrite l) (· ∈ keys) → ∃ uh, check C O p keys (keys.map (Trie.get db)) root = .ok (true, some uh)) ∧
      (¬ Separated C (lastWrite l) (· ∈ keys) →
        check C O p keys (keys.map (Trie.get db)) root = .error "assert commitments.len() == all_paths.len()") := by
  obtain ⟨q, qs, hint, h1, h2, ht, h3, h4⟩ := honest_run C l hb hk hr
  obtain ⟨pf, hp1, hp2⟩ := hO (q :: qs) (by simp) ht
  refine ⟨⟨hint, commsSorted root (q :: qs), pf⟩, ?_, fun h => ?_, fun h => ?_⟩
  · simp only [createVerkleProof, if_neg hk, h1, bind, Except.bind, hp1, h2]
  · obtain ⟨uh, h5, _⟩ := h3 h
    refine ⟨uh, ?_⟩
    simp only [check, h5, bind, Except.bind, hp2]
  · simp only [check, h4 h, bind, Except.bind]

theorem between_prefix : ∀ (p : Path) {r : Path}, lt (p ++ [(2 : Byte)]) r = true → lt r (p ++ [(3 : Byte)]) = true →
    p ++ [(2 : Byte)] <+: r
  | [], r, h1, h2 => by
    cases r with
    | nil => rw [not_lt_nil] at h1; simp at h1
    | cons b r =>
      have h1' : (if lt (2 : Byte) b then true else if lt b 2 then false else ltList [] r) = true := h1
      have h2' : (if lt b (3 : Byte) then true else if lt (3 : Byte) b then false else ltList r []) = true := h2
      have e3 : ltList r [] = false := not_lt_nil r
      rw [e3] at h2'
      have hb3 : b.val < 3 := by
        by_contra hge
        have : lt b (3 : Byte) = false := decide_eq_false (by have : ((3 : Byte)).val = 3 := rfl; omega)
        rw [this] at h2'
        simp at h2'
      have hb2 : 2 ≤ b.val := by
        by_contra hlt
        have x1 : lt (2 : Byte) b = false := decide_eq_false (by have : ((2 : Byte)).val = 2 := rfl; omega)
        have x2 : lt b (2 : Byte) = true := decide_eq_true (by have : ((2 : Byte)).val = 2 := rfl; omega)
        rw [x1, x2] at h1'
        simp at h1'
      have : b = 2 := Fin.ext (by have : ((2 : Byte)).val = 2 := rfl; omega)
      subst this
      simp
  | a :: p, r, h1, h2 => by
    cases r with
    | nil => rw [not_lt_nil] at h1; simp at h1
    | cons b r =>
      have h1' : (if lt a b then true else if lt b a then false else ltList (p ++ [2]) r) = true := h1
      have h2' : (if lt b a then true else if lt a b then false else ltList r (p ++ [3])) = true := h2
      cases hab : lt a b
      · cases hba : lt b a
        · have e := ltTri a b hab hba
          subst e
          simp only [hab, Bool.false_eq_true, if_false] at h1' h2'
          have := between_prefix p (r := r) h1' h2'
          exact List.cons_prefix_cons.2 ⟨rfl, this⟩
        · simp [hab, hba] at h1'
      · rw [ltAsymm hab, hab] at h2'
        simp at h2'

omit [DecidableEq F] [DecidableEq G] in
/-- Requesting keys from both halves of a stem whose two suffix commitments coincide is not `Separated`. -/
theorem not_separated {C : Crypto F G} {m : KV} {K : Key → Prop} {k k' : Key} (hk : K k) (hk' : K k')
    (hs : k.stem = k'.stem) (hp : HasStem m k.stem) (h1 : k.suffix.val < 128) (h2 : ¬ k'.suffix.val < 128)
    (hc : suffixComm C m k.stem 0 = suffixComm C m k.stem 128) : ¬ Separated C m K := by
  intro h
  have hT := termStem_self hp
  have e2 : halfIdx k.suffix = 2 := by rw [halfIdx, if_pos h1]
  have e3 : halfIdx k'.suffix = 3 := by rw [halfIdx, if_neg h2]
  have o2 : halfOff k.suffix = 0 := by rw [halfOff, if_pos h1]
  have o3 : halfOff k'.suffix = 128 := by rw [halfOff, if_neg h2]
  have c2 := nodeComm_suffix (C := C) hT k.suffix
  have c3 := nodeComm_suffix (C := C) hT k'.suffix
  rw [e2, o2] at c2
  rw [e3, o3] at c3
  have l2 : Opened m K (termPath m k.stem ++ [2]) := by
    have := Label.low (K := K) _ k hk hT
    rw [e2] at this; exact ⟨_, this⟩
  have l3 : Opened m K (termPath m k.stem ++ [3]) := by
    have := Label.low (K := K) (termPath m k.stem) k' hk' (by rw [← hs]; exact hT)
    rw [e3] at this; exact ⟨_, this⟩
  obtain ⟨_, r, hr, hr1, hr2⟩ := h _ _ l2 l3 (ltList_append _ rfl) (by rw [c2, c3, hc])
  have hpre := between_prefix _ hr1 hr2
  have hne : r ≠ termPath m k.stem ++ [2] := by
    rintro rfl
    rw [ltSelf] at hr1; simp at hr1
  have hpre' := (List.prefix_append _ _).trans hpre
  rcases opened_cases hr with hb | ⟨u, hu⟩ | ⟨q, u, i, hq, rfl⟩
  · exact hT.not_proper hb hpre'
  · have := hT.antichain hu hpre'
    rw [← this] at hpre
    have := hpre.length_le
    simp at this
  · have hlen := hpre.length_le
    have hlt : (termPath m k.stem ++ [2]).length < (q ++ [i]).length := by
      rcases Nat.lt_or_ge (termPath m k.stem ++ [2]).length (q ++ [i]).length with hx | hx
      · exact hx
      · exact absurd (hpre.eq_of_length_le hx).symm hne
    have hpq : termPath m k.stem ++ [2] <+: q := by
      simp only [List.length_append, List.length_singleton] at hlt
      exact List.prefix_of_prefix_length_le hpre (List.prefix_append _ _) (by simp; omega)
    have := hT.antichain hq ((List.prefix_append _ _).trans hpq)
    rw [← this] at hpq
    have := hpq.length_le
    simp at this

/-- Two keys of one stem, in different halves, holding the same value. -/
def twinHist : List (Key × Value) := [(demoKey 1 0, oneVal), (demoKey 1 128, oneVal)]
/-- The two keys. -/
def twinKeys : List Key := [demoKey 1 0, demoKey 1 128]

omit [DecidableEq F] [DecidableEq G] in
theorem twin_not_separated (C : Crypto F G) : ¬ Separated C (lastWrite twinHist) (· ∈ twinKeys) := by
  have hst : (demoKey 1 0).stem = (demoKey 1 128).stem := rfl
  refine not_separated (k := demoKey 1 0) (k' := demoKey 1 128) (by simp [twinKeys]) (by simp [twinKeys]) hst
    ⟨0, ?_⟩ (by decide) (by decide) ?_
  · have e : mkKey (demoKey 1 0).stem 0 = demoKey 1 0 := mkKey_stem_suffix (demoKey 1 0)
    rw [e]; decide
  · unfold suffixComm
    apply Finset.sum_congr rfl
    intro i _
    have : ∀ i : Fin 128, lastWrite twinHist (mkKey (demoKey 1 0).stem (Fin.ofNat 256 (0 + i.val))) =
        lastWrite twinHist (mkKey (demoKey 1 0).stem (Fin.ofNat 256 (128 + i.val))) := by decide +kernel
    rw [this i]

/-- Checking an honest proof panics: one stem with the same value at suffixes 0 and 128, both requested.  The two suffix
commitments coincide, the prover sends them once (`dedup`), and the verifier's count is off by one. -/
theorem C20_full_claim_false (C : Crypto F G) (O : Opener F G) (hO : CompleteOpener C O) :
    ∃ db root p, build C twinHist = .ok db ∧ Trie.rootCommitment db = .ok root ∧
      createVerkleProof O db twinKeys = .ok (.ok p) ∧
      check C O p twinKeys (twinKeys.map (Trie.get db)) root = .error "assert commitments.len() == all_paths.len()" := by
  have hb := build_eq C twinHist
  have hr := root_of_build (C := C) (m := lastWrite twinHist)
  obtain ⟨p, h1, _, h3⟩ := C20_honest_proofs_verify_partial C O hO twinHist hb (keys := twinKeys) (by simp [twinKeys]) hr
  exact ⟨_, _, p, hb, hr, h1, h3 (twin_not_separated C)⟩

/-- The same case for the reconstruction of the queries alone. -/
theorem C19_full_claim_false (C : Crypto F G) :
    ∃ db root qs hint, build C twinHist = .ok db ∧ Trie.rootCommitment db = .ok root ∧
      createProverQueries db twinKeys = .ok (qs, hint) ∧
      createVerifierQueries C hint (commsSorted root qs) twinKeys (twinKeys.map (Trie.get db)) root =
        .error "assert commitments.len() == all_paths.len()" := by
  have hb := build_eq C twinHist
  have hr := root_of_build (C := C) (m := lastWrite twinHist)
  obtain ⟨qs, hint, h1, _, h3⟩ := C19_same_queries_partial C twinHist hb (keys := twinKeys) (by simp [twinKeys]) hr
  exact ⟨_, _, qs, hint, hb, hr, h1, h3 (twin_not_separated C)⟩

/-! ### C23 -/

omit [DecidableEq F] [DecidableEq G] in
theorem stemsOf_congr {keys keys' : List Key} (h : ∀ k, k ∈ keys ↔ k ∈ keys') : stemsOf keys = stemsOf keys' := by
  apply Ascending.ext (BSet.asc_ofList _) (BSet.asc_ofList _)
  intro s
  show s ∈ stemsOf keys ↔ s ∈ stemsOf keys'
  simp only [mem_stemsOf, h]

/-- C23.  Queries, hint, and with them the whole proof depend only on the set of requested keys. -/
theorem C23_order_insensitive (C : Crypto F G) (O : Opener F G) (l : List (Key × Value)) {db : MemoryDb F G}
    (hb : build C l = .ok db) {keys keys' : List Key} (h : ∀ k, k ∈ keys ↔ k ∈ keys') :
    createProverQueries db keys = createProverQueries db keys' ∧ createVerkleProof O db keys = createVerkleProof O db keys' := by
  rw [build_iff] at hb
  subst hb
  by_cases hk : keys = []
  · have hk' : keys' = [] := by
      subst hk
      cases keys' with
      | nil => rfl
      | cons a t => exact absurd ((h a).2 (by simp)) (by simp)
    rw [hk, hk']
    exact ⟨rfl, rfl⟩
  · have hk' : keys' ≠ [] := by
      rintro rfl
      cases keys with
      | nil => exact hk rfl
      | cons a t => exact absurd ((h a).1 (by simp)) (by simp)
    have e : createProverQueries (specDb C (lastWrite l)) keys = createProverQueries (specDb C (lastWrite l)) keys' := by
      obtain ⟨L, d, he, hL, hLm, hd, hdm⟩ := createProverQueries_spec C (lastWrite l) hk
      obtain ⟨L', d', he', hL', hLm', hd', hdm'⟩ := createProverQueries_spec C (lastWrite l) hk'
      have hK : (· ∈ keys) = (· ∈ keys') := funext fun k => propext (h k)
      rw [← hK] at hLm' hdm'
      rw [he, he', Ascending.ext hL hL' (fun x => by rw [hLm, hLm']), Ascending.ext hd hd' (fun x => by rw [hdm, hdm']),
        honestHint, honestHint, stemsOf_congr h]
    refine ⟨e, ?_⟩
    unfold createVerkleProof
    rw [if_neg hk, if_neg hk', e]

/-! ### Concrete cases -/

/-- A trie with a branch below the root, and keys of all four kinds. -/
def proofHist : List (Key × Value) :=
  [(keyOf [1] 5, valOf 1), (keyOf [1, 2, 3] 5, valOf 1), (keyOf [1, 2, 3] 200, valOf 7), (keyOf [9, 9] 0, valOf 0)]
/-- Present, present in the other half, suffix absent, another stem in the way, empty slot; unsorted, with a repetition. -/
def proofKeys : List Key :=
  [keyOf [9, 9] 0, keyOf [1, 2, 3] 200, keyOf [1, 2, 3] 5, keyOf [1, 2, 3] 6, keyOf [1, 2, 4] 0, keyOf [7] 1, keyOf [9, 9] 0]

/-- The opening argument that proves nothing and accepts everything is complete. -/
def yesOpener (F G : Type) : Opener F G := ⟨Unit, fun _ => .ok (), fun _ _ => .ok true⟩

theorem yesOpener_complete (C : Crypto F G) : CompleteOpener C (yesOpener F G) := fun _ _ _ => ⟨(), rfl, rfl⟩

/-- Verdicts of the walk. -/
def verdicts (l : List (Key × Value)) (ks : List Key) : Option (List (KeyState × ℕ)) :=
  match build toy l >>= fun db => ks.mapM (findKeyPath db) with
  | .ok r => some (r.map fun kp => (kp.keyState, kp.depth.val))
  | .error _ => none

/-- All four verdicts occur (C17). -/
example : verdicts proofHist proofKeys = some [(.found (valOf 0), 2), (.found (valOf 7), 3), (.found (valOf 1), 3),
    (.stemFound, 3), (.differentStem (keyOf [1, 2, 3] 0).stem, 3), (.empty, 1), (.found (valOf 0), 2)] := by decide +kernel

/-- Number of queries and the verifier's answer. -/
def roundTrip (l : List (Key × Value)) (ks : List Key) : Option (ℕ × Bool) :=
  match (do
    let db ← build toy l
    let root ← Trie.rootCommitment db
    let (qs, _) ← createProverQueries db ks
    match ← createVerkleProof (yesOpener _ _) db ks with
    | .error _ => .error "no proof"
    | .ok p =>
      let r ← check toy (yesOpener _ _) p ks (ks.map (Trie.get db)) root
      pure (qs.length, r.1) : Res (ℕ × Bool)) with
  | .ok r => some r
  | .error _ => none

/-- A whole run (C18, C19, C20). -/
theorem roundTrip_demo : roundTrip proofHist proofKeys = some (19, true) := by decide +kernel

/-- The hypothesis of C19 and C20 holds in that run: if it did not, checking would have panicked. -/
theorem proofHist_separated : Separated toy (lastWrite proofHist) (· ∈ proofKeys) := by
  by_contra h
  have hb := build_eq toy proofHist
  have hr := root_of_build (C := toy) (m := lastWrite proofHist)
  obtain ⟨p, h1, _, h3⟩ := C20_honest_proofs_verify_partial toy _ (yesOpener_complete toy) proofHist hb (keys := proofKeys)
    (by simp [proofKeys]) hr
  have h4 := roundTrip_demo
  unfold roundTrip at h4
  simp only [hb, hr, bind, Except.bind, h1, h3 h] at h4
  split at h4
  · rename_i e
    split at e <;> simp at e
  · simp at h4

/-- C23: the key list above and its sorted version without repetition. -/
example : ∀ k, k ∈ proofKeys ↔ k ∈ (BSet.ofList proofKeys) := fun k => (BSet.mem_ofList k proofKeys).symm

end Verif.Props
