import Verif.Proof.Verifier

/-!
# The verifier on an honest proof

`honest_ok` / `honest_panic`: the verifier rebuilds exactly the prover's queries if and only if the commitments that are
sent can be told apart (`Separated`).
-/

set_option autoImplicit false

namespace Verif.Proof
open Verif.Spec Verif.Trie BOrd
open scoped Classical

variable {F G : Type} [Field F] [AddCommGroup G] [Module F G]

/-! ### `dedup` -/

section
variable {α β : Type} [DecidableEq α] [DecidableEq β]

theorem dedup_cons_cons (a b : α) (l : List α) :
    dedup (a :: b :: l) = if a = b then dedup (b :: l) else a :: dedup (b :: l) := rfl

theorem dedup_cons_head (a : α) : ∀ l : List α, ∃ t, dedup (a :: l) = a :: t
  | [] => ⟨[], rfl⟩
  | b :: l => by
    rw [dedup_cons_cons]
    split
    · rename_i h; subst h; exact dedup_cons_head a l
    · exact ⟨_, rfl⟩

/-- `dedup` only looks at the next element kept. -/
theorem dedup_cons (a : α) (l : List α) : dedup (a :: l) = match dedup l with
    | [] => [a]
    | b :: t => if a = b then b :: t else a :: b :: t := by
  cases l with
  | nil => rfl
  | cons b l =>
    rw [dedup_cons_cons]
    obtain ⟨t, ht⟩ := dedup_cons_head b l
    rw [ht]

theorem dedup_idem (l : List α) : dedup (dedup l) = dedup l := by
  induction l with
  | nil => rfl
  | cons a l ih =>
    rw [dedup_cons a l]
    cases h : dedup l with
    | nil => rfl
    | cons b t =>
      rw [h] at ih
      by_cases hab : a = b
      · simp only [hab, if_true]; exact ih
      · simp only [hab, if_false]
        rw [dedup_cons_cons, if_neg hab, ih]

theorem dedup_length_le (l : List α) : (dedup l).length ≤ l.length := by
  induction l with
  | nil => simp [dedup]
  | cons a l ih =>
    rw [dedup_cons]
    cases h : dedup l with
    | nil => simp
    | cons b t =>
      rw [h] at ih
      simp only
      split
      · simp only [List.length_cons] at *; omega
      · simp only [List.length_cons] at *; omega

theorem dedup_of_chain : ∀ {l : List α}, l.IsChain (· ≠ ·) → dedup l = l
  | [], _ => rfl
  | [a], _ => rfl
  | a :: b :: l, h => by
    rw [List.isChain_cons_cons] at h
    rw [dedup_cons_cons, if_neg h.1, dedup_of_chain h.2]

theorem chain_of_dedup_length : ∀ {l : List α}, (dedup l).length = l.length → l.IsChain (· ≠ ·)
  | [], _ => by simp
  | [a], _ => by simp
  | a :: b :: l, h => by
    rw [dedup_cons_cons] at h
    have hle := dedup_length_le (b :: l)
    split at h
    · simp only [List.length_cons] at *; omega
    · rename_i hab
      rw [List.isChain_cons_cons]
      refine ⟨hab, chain_of_dedup_length (l := b :: l) ?_⟩
      simp only [List.length_cons] at *; omega

/-- Deduplicating after a map and a filter may start from the deduplicated list. -/
theorem dedup_map_filter (f : α → β) (P : α → Bool) : ∀ l : List α,
    dedup ((l.filter P).map f) = dedup (((dedup l).filter P).map f)
  | [] => rfl
  | [a] => rfl
  | a :: b :: l => by
    have ih := dedup_map_filter f P (b :: l)
    rw [dedup_cons_cons]
    by_cases hab : a = b
    · subst hab
      rw [if_pos rfl, ← ih]
      cases hP : P a
      · simp [List.filter_cons, hP]
      · have : ((a :: a :: l).filter P).map f = f a :: f a :: (l.filter P).map f := by simp [List.filter_cons, hP]
        rw [this, dedup_cons_cons, if_pos rfl]
        simp [List.filter_cons, hP]
    · rw [if_neg hab]
      cases hP : P a
      · rw [List.filter_cons_of_neg (a := a) (l := b :: l) (by simp [hP]),
          List.filter_cons_of_neg (a := a) (l := dedup (b :: l)) (by simp [hP]), ih]
      · rw [List.filter_cons_of_pos (a := a) (l := b :: l) (by simp [hP]),
          List.filter_cons_of_pos (a := a) (l := dedup (b :: l)) (by simp [hP]), List.map_cons, List.map_cons,
          dedup_cons, ih, ← dedup_cons]

end

theorem mem_dedup {α : Type} [DecidableEq α] (x : α) (l : List α) : x ∈ dedup l ↔ x ∈ l := by
  induction l with
  | nil => simp [dedup]
  | cons a l ih =>
    rw [dedup_cons, List.mem_cons, ← ih]
    cases h : dedup l with
    | nil => simp
    | cons b t =>
      simp only
      split
      · rename_i hab
        subst hab
        simp
      · simp

/-- `dedup` of a weakly ascending list is strictly ascending. -/
theorem asc_dedup {α : Type} [BOrd α] [DecidableEq α] (l : List α) (h : l.Pairwise fun a b => a = b ∨ lt a b = true) :
    Ascending (dedup l) := by
  induction l with
  | nil => exact List.Pairwise.nil
  | cons a l ih =>
    have p := List.pairwise_cons.1 h
    have i := ih p.2
    rw [dedup_cons]
    cases hd : dedup l with
    | nil => simp [Ascending]
    | cons b t =>
      rw [hd] at i
      have pt := List.pairwise_cons.1 i
      simp only
      split
      · exact i
      · rename_i hab
        have hb : b ∈ l := by rw [← mem_dedup, hd]; simp
        have hlt : lt a b = true := by
          rcases p.1 b hb with e | e
          · exact absurd e hab
          · exact e
        refine List.pairwise_cons.2 ⟨fun y hy => ?_, i⟩
        rcases List.mem_cons.1 hy with rfl | hy
        · exact hlt
        · exact ltTrans _ _ _ hlt (pt.1 y hy)

/-- Two opened nodes with the same commitment are never neighbours in path order, and no opened node shares the commitment
of the root. -/
def Separated (C : Crypto F G) (m : KV) (K : Key → Prop) : Prop :=
  ∀ p q, Opened m K p → Opened m K q → lt p q = true → nodeComm C m p = nodeComm C m q →
    p ≠ [] ∧ ∃ r, Opened m K r ∧ lt p r = true ∧ lt r q = true

/-- The paths opened by ascending labels. -/
theorem paths_of_labels {m : KV} {K : Key → Prop} {L : List (Path × Byte)} {P : BSet Path} (hL : Ascending L)
    (hLm : ∀ x, x ∈ L ↔ Label m K x) (hP : Ascending P) (hPm : ∀ p, p ∈ P ↔ Opened m K p) :
    dedup (L.map Prod.fst) = P := by
  apply Ascending.ext _ hP
  · intro p
    rw [mem_dedup, hPm, List.mem_map]
    constructor
    · rintro ⟨⟨p', z⟩, h, rfl⟩; exact ⟨z, (hLm _).1 h⟩
    · rintro ⟨z, h⟩; exact ⟨(p, z), (hLm _).2 h, rfl⟩
  · apply asc_dedup
    rw [List.pairwise_map]
    refine hL.imp ?_
    intro a b hab
    have hab' : (if lt a.1 b.1 then true else if lt b.1 a.1 then false else lt a.2 b.2) = true := hab
    cases h1 : lt a.1 b.1
    · cases h2 : lt b.1 a.1
      · exact Or.inl (ltTri _ _ h1 h2)
      · rw [h1, h2] at hab'; simp at hab'
    · exact Or.inr rfl

theorem opened_nil {m : KV} {keys : List Key} (h : keys ≠ []) : Opened m (· ∈ keys) [] := by
  obtain ⟨k, ks, rfl⟩ := List.exists_cons_of_ne_nil h
  have h0 : 0 < k.stem.1.length := by rw [k.stem.2]; omega
  refine ⟨k.stem.1[0], .branch [] _ k (by simp) (Or.inl rfl) ?_⟩
  have := List.take_append_getElem h0
  rw [List.take_zero] at this
  rw [this]
  exact List.take_prefix _ _

theorem not_lt_nil (p : Path) : lt p ([] : Path) = false := by
  cases p <;> rfl

/-- The root comes first. -/
theorem paths_cons {m : KV} {keys : List Key} (h : keys ≠ []) {P : BSet Path} (hP : Ascending P)
    (hPm : ∀ p, p ∈ P ↔ Opened m (· ∈ keys) p) : ∃ R, P = [] :: R := by
  have hmem := (hPm []).2 (opened_nil h)
  cases P with
  | nil => simp at hmem
  | cons a R =>
    rcases List.mem_cons.1 hmem with e | e
    · exact ⟨R, by rw [e]⟩
    · have := (List.pairwise_cons.1 hP).1 _ e
      rw [not_lt_nil] at this
      simp at this

variable [DecidableEq F] [DecidableEq G]

/-- The commitments sent by an honest prover. -/
noncomputable def honestComms (C : Crypto F G) (m : KV) (L : List (Path × Byte)) : List G :=
  commsSorted (nodeComm C m []) (L.map (labelQuery C m))

omit [DecidableEq F] in
theorem honestComms_eq (C : Crypto F G) (m : KV) {L : List (Path × Byte)} {R : List Path}
    (hR : dedup (L.map Prod.fst) = [] :: R) :
    honestComms C m L = dedup ((R.filter fun p => decide (nodeComm C m p ≠ nodeComm C m [])).map (nodeComm C m)) := by
  unfold honestComms commsSorted
  have e : ((L.map (labelQuery C m)).filter fun q => decide (q.commitment ≠ nodeComm C m [])).map ProverQuery.commitment =
      ((L.map Prod.fst).filter fun p => decide (nodeComm C m p ≠ nodeComm C m [])).map (nodeComm C m) := by
    rw [List.filter_map, List.filter_map, List.map_map, List.map_map]
    rfl
  rw [e, dedup_map_filter, hR, List.filter_cons_of_neg (by simp)]

omit [DecidableEq F] in
theorem separated_iff {C : Crypto F G} {m : KV} {keys : List Key} {P : BSet Path} {R : List Path} (hP : Ascending P)
    (hPm : ∀ p, p ∈ P ↔ Opened m (· ∈ keys) p) (hR : P = [] :: R) :
    Separated C m (· ∈ keys) ↔
      (∀ p ∈ R, nodeComm C m p ≠ nodeComm C m []) ∧ (R.map (nodeComm C m)).IsChain (· ≠ ·) := by
  subst hR
  have p := List.pairwise_cons.1 hP
  constructor
  · intro h
    refine ⟨fun q hq e => ?_, ?_⟩
    · exact (h [] q ((hPm _).1 (by simp)) ((hPm _).1 (by simp [hq])) (p.1 q hq) e.symm).1 rfl
    · rw [List.isChain_map, List.isChain_iff_getElem]
      intro i hi e
      have hlt : lt R[i] R[i+1] = true := (List.pairwise_iff_getElem.1 p.2) i (i + 1) (by omega) hi (by omega)
      obtain ⟨_, r, hr, h1, h2⟩ := h R[i] R[i+1] ((hPm _).1 (by simp)) ((hPm _).1 (by simp)) hlt e
      have hrm := (hPm r).2 hr
      rcases List.mem_cons.1 hrm with rfl | hrm
      · rw [not_lt_nil] at h1; simp at h1
      · obtain ⟨j, hj, rfl⟩ := List.getElem_of_mem hrm
        have hij : i < j := by
          by_contra hge
          rcases Nat.lt_or_ge j i with hlt' | hge'
          · have := (List.pairwise_iff_getElem.1 p.2) j i hj (by omega) hlt'
            rw [ltAsymm this] at h1; simp at h1
          · have : j = i := by omega
            subst this; rw [ltSelf] at h1; simp at h1
        have hji : j < i + 1 := by
          by_contra hge
          rcases Nat.lt_or_ge (i + 1) j with hlt' | hge'
          · have := (List.pairwise_iff_getElem.1 p.2) (i + 1) j hi hj hlt'
            rw [ltAsymm this] at h2; simp at h2
          · have : j = i + 1 := by omega
            subst this; rw [ltSelf] at h2; simp at h2
        omega
  · rintro ⟨h1, h2⟩ a b ha hb hab e
    have ha' := (hPm a).2 ha
    have hb' := (hPm b).2 hb
    have hbR : b ∈ R := by
      rcases List.mem_cons.1 hb' with rfl | h
      · rw [not_lt_nil] at hab; simp at hab
      · exact h
    have ha0 : a ≠ [] := fun e0 => h1 b hbR (by rw [← e, e0])
    have haR : a ∈ R := by
      rcases List.mem_cons.1 ha' with h | h
      · exact absurd h ha0
      · exact h
    refine ⟨ha0, ?_⟩
    obtain ⟨i, hi, rfl⟩ := List.getElem_of_mem haR
    obtain ⟨j, hj, rfl⟩ := List.getElem_of_mem hbR
    have hij : i < j := by
      by_contra hge
      rcases Nat.lt_or_ge j i with hlt' | hge'
      · have := (List.pairwise_iff_getElem.1 p.2) j i hj hi hlt'
        rw [ltAsymm this] at hab; simp at hab
      · have : j = i := by omega
        subst this; rw [ltSelf] at hab; simp at hab
    rw [List.isChain_map, List.isChain_iff_getElem] at h2
    have hne : j ≠ i + 1 := by
      rintro rfl
      exact h2 i hj e
    refine ⟨R[i+1], (hPm _).1 (by simp), ?_, ?_⟩
    · exact (List.pairwise_iff_getElem.1 p.2) i (i + 1) hi (by omega) (by omega)
    · exact (List.pairwise_iff_getElem.1 p.2) (i + 1) j (by omega) hj (by omega)

omit [DecidableEq F] in
/-- The number of commitments sent is right exactly when they can be told apart. -/
theorem honestComms_length {C : Crypto F G} {m : KV} {keys : List Key} {L : List (Path × Byte)} {P : BSet Path} {R : List Path}
    (hP : Ascending P) (hPm : ∀ p, p ∈ P ↔ Opened m (· ∈ keys) p) (hR : P = [] :: R)
    (hL : dedup (L.map Prod.fst) = P) :
    (Separated C m (· ∈ keys) → honestComms C m L = R.map (nodeComm C m)) ∧
    ((honestComms C m L).length = R.length → Separated C m (· ∈ keys)) := by
  rw [separated_iff hP hPm hR, honestComms_eq C m (hL.trans hR)]
  constructor
  · rintro ⟨h1, h2⟩
    have : R.filter (fun p => decide (nodeComm C m p ≠ nodeComm C m [])) = R :=
      List.filter_eq_self.2 (fun a ha => by simpa using h1 a ha)
    rw [this, dedup_of_chain h2]
  · intro hlen
    have hle := dedup_length_le ((R.filter fun p => decide (nodeComm C m p ≠ nodeComm C m [])).map (nodeComm C m))
    rw [hlen, List.length_map] at hle
    have hf := List.filter_sublist (l := R) (p := fun p => decide (nodeComm C m p ≠ nodeComm C m []))
    have hfe := hf.eq_of_length_le hle
    rw [hfe] at hlen
    refine ⟨fun p hp => ?_, chain_of_dedup_length (by rw [hlen, List.length_map])⟩
    have := List.filter_eq_self.1 hfe p hp
    simpa using this

theorem get_zip_map {α β : Type} [BOrd α] (f : α → β) {P : List α} (hP : Ascending P) (x : α) :
    BMap.get x (P.zip (P.map f)) = if x ∈ P then some (f x) else none := by
  have e : P.zip (P.map f) = P.map fun a => (a, f a) := by
    induction P with
    | nil => rfl
    | cons a P ih => simp [ih (List.pairwise_cons.1 hP).2]
  have hs : BMap.Sorted (P.zip (P.map f)) := by
    rw [e]
    show Ascending (List.map Prod.fst (List.map _ _))
    rw [List.map_map]
    have : (Prod.fst ∘ fun a => (a, f a)) = id := rfl
    rwa [this, List.map_id]
  by_cases hx : x ∈ P
  · rw [if_pos hx, BMap.get_eq_some_iff hs, e, List.mem_map]
    exact ⟨x, hx, rfl⟩
  · rw [if_neg hx, BMap.get_eq_none_iff, e, List.map_map, List.mem_map]
    rintro ⟨a, ha, rfl⟩
    exact hx ha

omit [DecidableEq F] [DecidableEq G] [Field F] [AddCommGroup G] [Module F G] in
theorem opened_cases {m : KV} {K : Key → Prop} {p : Path} (h : Opened m K p) :
    IsBranch m p ∨ (∃ u, TermStem m p u) ∨ ∃ q u i, TermStem m q u ∧ p = q ++ [i] := by
  obtain ⟨w, hw⟩ := h
  generalize hx : (p, w) = x at hw
  cases hw with
  | branch q z k' _ hb2 _ => cases hx; exact Or.inl hb2
  | ext q z u _ _ hu _ _ => cases hx; exact Or.inr (Or.inl ⟨u, hu⟩)
  | half q k' _ hu => cases hx; exact Or.inr (Or.inl ⟨_, hu⟩)
  | low q k' _ hu => cases hx; exact Or.inr (Or.inr ⟨q, _, _, hu, rfl⟩)
  | high q k' _ hu => cases hx; exact Or.inr (Or.inr ⟨q, _, _, hu, rfl⟩)

omit [DecidableEq F] [DecidableEq G] in
/-- The value the verifier claims for a label is the committed one. -/
theorem claimedValue_spec {C : Crypto F G} {m : KV} {keys : List Key} {st : VState F} (hI : VInv C m keys (· ∈ keys) st)
    {comms : BMap Path G} (hc : ∀ p, (p ∈ st.allPaths → BMap.get p comms = some (nodeComm C m p)) ∧ (p ∉ st.allPaths → BMap.get p comms = none))
    {p : Path} {z : Byte} (hl : Label m (· ∈ keys) (p, z)) : claimedValue C st.leafVals comms p z = nodeVec C m p z := by
  unfold claimedValue
  cases hg : BMap.get (p, z) st.leafVals with
  | some y => exact hI.leaf p z y hg
  | none =>
    simp only
    cases hl with
    | branch _ _ k hk hb hp =>
      by_cases hop : p ++ [z] ∈ st.allPaths
      · rw [(hc _).1 hop]
        show C.h _ = _
        rw [nodeVec_branch hb, branchVec]
        by_cases hb' : IsBranch m (p ++ [z])
        · rw [nodeComm_branch hb', childHash_many]
          rcases hb' with h | h
          · simp at h
          · exact h
        · -- the child is a stem: other opened paths do not extend a branch
          have ho := (hI.paths _).1 hop
          have hstem : ∃ u, TermStem m (p ++ [z]) u := by
            rcases opened_cases ho with h | h | ⟨q, u, i, hq, he⟩
            · exact absurd h hb'
            · exact h
            · have := List.append_inj' he rfl
              rw [← this.1] at hq
              exact absurd hb hq.1
          obtain ⟨u, hu⟩ := hstem
          rw [nodeComm_stem hu, childHash_single (fun h => hb' (Or.inr h)) hu.2.2]
      · rw [(hc _).2 hop]
        show (0 : F) = _
        rw [nodeVec_branch hb, branchVec, childHash_none]
        intro u hu
        apply hop
        rw [hI.paths]
        by_cases hb' : IsBranch m (p ++ [z])
        · exact ⟨_, .branch _ _ k hk hb' ((prefix_snoc_iff hp (IsBranch.len hb')).2 rfl)⟩
        · exact ⟨0, .ext _ _ u k hk ⟨hb', by simpa using hb, hu⟩ hp (Or.inl rfl)⟩
    | ext _ _ u k hk hu hp hz =>
      rcases hz with rfl | rfl
      · exact absurd hg (hI.leaf0 p u k hk hu hp)
      · exfalso
        by_cases hin : ∃ k' ∈ keys, k'.stem = u
        · obtain ⟨k', hk', rfl⟩ := hin
          exact hI.leaf1 p _ k' hk' hu hu.2.2.2 (Or.inl rfl) hg
        · exact hI.leaf1 p u k hk hu hp (Or.inr fun k' h e => hin ⟨k', h, e⟩) hg
    | half _ k hk hu =>
      have hop : p ++ [halfIdx k.suffix] ∈ st.allPaths := (hI.paths _).2 ⟨_, .low p k hk hu⟩
      rw [(hc _).1 hop]
      show C.h _ = _
      rw [nodeComm_suffix hu, nodeVec_stem hu]
      unfold halfIdx halfOff
      by_cases hb : k.suffix.val < 128
      · rw [if_pos hb, if_pos hb]; simp [stemVec]
      · rw [if_neg hb, if_neg hb]; simp [stemVec]
    | low q k hk hu => exact absurd hg (hI.leafV q k hk hu).1
    | high q k hk hu => exact absurd hg (hI.leafV q k hk hu).2

/-- The update hint returned with an honest proof. -/
structure HintOk (C : Crypto F G) (m : KV) (keys : List Key) (h : UpdateHint G) : Prop where
  depths : ∀ s, BMap.get s h.depthsAndExt =
    if ∃ k, k ∈ keys ∧ k.stem = s then some (extOf m s, asU8 (termLen m s)) else none
  comms : ∀ p, BMap.get p h.commsByPath = if Opened m (· ∈ keys) p then some (nodeComm C m p) else none
  commsSorted : BMap.Sorted h.commsByPath
  other : ∀ p u, BMap.get p h.otherStems = some u ↔ TermStem m p u ∧ ∃ k, k ∈ keys ∧ p <+: k.stem.1 ∧ k.stem ≠ u

omit [DecidableEq F] in
/-- The verifier on an honest hint and honest commitments. -/
theorem honest_spec (C : Crypto F G) (m : KV) {keys : List Key} (hk : keys ≠ []) {L : List (Path × Byte)} {d : BSet Stem}
    (hL : Ascending L) (hLm : ∀ x, x ∈ L ↔ Label m (· ∈ keys) x)
    (hd : Ascending d) (hdm : ∀ u, u ∈ d ↔ ForeignStem m (· ∈ keys) u) :
    (Separated C m (· ∈ keys) → ∃ uh, createVerifierQueries C (honestHint m keys d) (honestComms C m L) keys (keys.map m)
        (nodeComm C m []) = .ok (some (L.map fun x => (labelQuery C m x).toVerifier, uh)) ∧ HintOk C m keys uh) ∧
    (¬ Separated C m (· ∈ keys) → createVerifierQueries C (honestHint m keys d) (honestComms C m L) keys (keys.map m)
        (nodeComm C m []) = .error "assert commitments.len() == all_paths.len()") := by
  obtain ⟨st, he, hI⟩ := keyLoop_spec (C := C) hd hdm keys (fun k h => h) (vinv_empty C m keys)
  have hK : (fun k => False ∨ k ∈ keys) = (· ∈ keys) := by funext k; simp
  rw [hK] at hI
  have hzip : keys.zip (keys.map m) = keys.map fun k => (k, m k) := by
    clear he hI hLm hdm hk hK
    induction keys with
    | nil => rfl
    | cons a l ih => simp only [List.map_cons, List.zip_cons_cons, ih]
  have hused : (honestHint m keys d).diffStemNoProof = st.otherStemsUsed := by
    apply Ascending.ext hd hI.usedAsc
    intro u
    rw [hdm, hI.used]
    constructor
    · rintro ⟨p, h1, ⟨k, h2, h3⟩, h4⟩; exact ⟨p, k, h2, h1, h3, h4⟩
    · rintro ⟨p, k, h1, h2, h3, h4⟩; exact ⟨p, h2, ⟨k, h1, h3⟩, h4⟩
  obtain ⟨R, hR⟩ := paths_cons hk hI.pathsAsc hI.paths
  have hLP := paths_of_labels hL hLm hI.pathsAsc hI.paths
  obtain ⟨hlen1, hlen2⟩ := honestComms_length (C := C) hI.pathsAsc hI.paths hR hLP
  have hLz : st.allPathsZs = L := Ascending.ext hI.zsAsc hL (fun x => by rw [hI.zs, hLm])
  have hcv : ∀ r, assemble C (honestHint m keys d) (hintByStem (honestHint m keys d) (stemsOf keys))
      (nodeComm C m [] :: honestComms C m L) st = r →
      createVerifierQueries C (honestHint m keys d) (honestComms C m L) keys (keys.map m) (nodeComm C m [])
        = r.map some := by
    rintro r rfl
    unfold createVerifierQueries
    rw [hzip]
    have he' : keyLoop (honestHint m keys d) (hintByStem (honestHint m keys d) (BSet.ofList (keys.map Key.stem)))
        (stemsWithExtension (honestHint m keys d) (BSet.ofList (keys.map Key.stem))) (keys.map fun k => (k, m k))
        (⟨[], [], [], [], []⟩ : VState F) = .ok (some st) := he
    simp only [he', bind, Except.bind]
    rw [show BSet.ofList (keys.map Key.stem) = stemsOf keys from rfl]
    cases assemble C (honestHint m keys d) (hintByStem (honestHint m keys d) (stemsOf keys))
      (nodeComm C m [] :: honestComms C m L) st <;> rfl
  constructor
  · intro hS
    have hcomms : nodeComm C m [] :: honestComms C m L = st.allPaths.map (nodeComm C m) := by
      rw [hlen1 hS, hR]; rfl
    have hgc := get_zip_map (nodeComm C m) hI.pathsAsc
    have hgc' : ∀ p, (p ∈ st.allPaths → BMap.get p (st.allPaths.zip (st.allPaths.map (nodeComm C m))) = some (nodeComm C m p)) ∧
        (p ∉ st.allPaths → BMap.get p (st.allPaths.zip (st.allPaths.map (nodeComm C m))) = none) :=
      fun p => ⟨fun h => by rw [hgc, if_pos h], fun h => by rw [hgc, if_neg h]⟩
    refine ⟨⟨hintByStem (honestHint m keys d) (stemsOf keys), st.allPaths.zip (st.allPaths.map (nodeComm C m)),
      st.otherStems⟩, ?_, ?_⟩
    · rw [hcv (.ok (L.map fun x => (labelQuery C m x).toVerifier, _))]
      · rfl
      · unfold assemble
        rw [if_neg (by rw [hused]; simp), hcomms, if_neg (by simp)]
        have hm := mapM_ok (fun pz : Path × Byte => do
          let c ← unwrap "no commitment for the path" (BMap.get pz.1 (st.allPaths.zip (st.allPaths.map (nodeComm C m))))
          Except.ok (⟨c, (pz.2.val : F), claimedValue C st.leafVals (st.allPaths.zip (st.allPaths.map (nodeComm C m))) pz.1 pz.2⟩
            : VerifierQuery F G)) (fun x => (labelQuery C m x).toVerifier) L (by
            rintro ⟨p, z⟩ hx
            have hl := (hLm _).1 hx
            have hp : p ∈ st.allPaths := (hI.paths p).2 ⟨z, hl⟩
            simp only [hgc, if_pos hp, unwrap, bind, Except.bind, claimedValue_spec hI hgc' hl]
            rfl)
        simp only [bind, Except.bind] at hm
        simp only [hLz, bind, Except.bind]
        rw [hm]
    · refine ⟨fun s => hintByStem_spec m keys d s, fun p => ?_, ?_, hI.other⟩
      · rw [hgc]; simp only [hI.paths]
      · have e : st.allPaths.zip (st.allPaths.map (nodeComm C m)) = st.allPaths.map fun a => (a, nodeComm C m a) := by
          generalize st.allPaths = P
          induction P with
          | nil => rfl
          | cons a P ih => simp [ih]
        show Ascending (List.map Prod.fst (st.allPaths.zip _))
        rw [e, List.map_map]
        have : (Prod.fst ∘ fun a => (a, nodeComm C m a)) = id := rfl
        rw [this, List.map_id]
        exact hI.pathsAsc
  · intro hS
    rw [hcv (.error "assert commitments.len() == all_paths.len()")]
    · rfl
    · unfold assemble
      rw [if_neg (by rw [hused]; simp), if_pos]
      rw [hR]
      simp only [List.length_cons]
      intro e
      exact hS (hlen2 (by omega))

end Verif.Proof
