import Verif.Proof.Queries

/-!
# The verifier on an honest hint

`hint_spec`: what the prover writes into the hint.  `keyLoop_spec`: the verifier rebuilds exactly the labels of the prover.
-/

set_option autoImplicit false

namespace Verif.Proof
open Verif.Spec Verif.Trie BOrd
open scoped Classical

variable {F G : Type} [Field F] [AddCommGroup G] [Module F G]

/-- Stems met by the walk of some key although no requested key has them. -/
def ForeignStem (m : KV) (K : Key → Prop) (u : Stem) : Prop :=
  ∃ p, TermStem m p u ∧ (∃ k, K k ∧ p <+: k.stem.1) ∧ ∀ k, K k → k.stem ≠ u

theorem extensionStems_mem (u : Stem) : ∀ (os : List (Path × Openings F G)) (s : BSet Stem),
    u ∈ extensionStems os s ↔ u ∈ s ∨ ∃ p e, (p, Openings.extension e) ∈ os ∧ e.stem = u
  | [], s => by simp [extensionStems]
  | (p, .extension e) :: rest, s => by
    rw [extensionStems, extensionStems_mem u rest, BSet.mem_insert]
    constructor
    · rintro ((rfl | h) | ⟨p', e', h, rfl⟩)
      · exact Or.inr ⟨p, e, by simp, rfl⟩
      · exact Or.inl h
      · exact Or.inr ⟨p', e', by simp [h], rfl⟩
    · rintro (h | ⟨p', e', h, rfl⟩)
      · exact Or.inl (Or.inr h)
      · rcases List.mem_cons.1 h with h | h
        · simp only [Prod.mk.injEq, Openings.extension.injEq] at h
          rw [h.2]; exact Or.inl (Or.inl rfl)
        · exact Or.inr ⟨p', e', h, rfl⟩
  | (p, .branch _ _) :: rest, s => by
    rw [extensionStems, extensionStems_mem u rest]
    · simp
    · simp
  | (p, .suffix _ _) :: rest, s => by
    rw [extensionStems, extensionStems_mem u rest]
    · simp
    · simp

theorem extensionStems_asc : ∀ (os : List (Path × Openings F G)) {s : BSet Stem}, Ascending s → Ascending (extensionStems os s)
  | [], _, h => h
  | (p, .extension e) :: rest, s, h => extensionStems_asc rest (BSet.asc_insert _ h)
  | (p, .branch _ _) :: rest, s, h => by
    rw [extensionStems]
    · exact extensionStems_asc rest h
    · simp
  | (p, .suffix _ _) :: rest, s, h => by
    rw [extensionStems]
    · exact extensionStems_asc rest h
    · simp

theorem extensionStems_spec {C : Crypto F G} {m : KV} {K : Key → Prop} {od : OpeningData F G} (h : Inv C m K od) (u : Stem) :
    u ∈ extensionStems od.openings [] ↔ ForeignStem m K u := by
  rw [extensionStems_mem]
  constructor
  · rintro (h' | ⟨p, e, he, rfl⟩)
    · simp at h'
    · obtain ⟨v, hv, he', hk, hno⟩ := h.entry he
      rw [he']
      exact ⟨p, hv, hk, hno⟩
  · rintro ⟨p, hu, ⟨k, hk, hp⟩, hno⟩
    right
    rcases h.stem_entry hk hp hu with ⟨e, he⟩ | ⟨e, sfx, he⟩
    · obtain ⟨v, hv, he', _⟩ := h.entry he
      refine ⟨p, e, he, ?_⟩
      rw [he']; exact hv.unique hu
    · obtain ⟨v, hv, _, ⟨k', hk', e'⟩, _⟩ := h.entry he
      exact absurd (e'.trans (hv.unique hu)) (hno k' hk')

/-- The stems of the requested keys. -/
def stemsOf (keys : List Key) : BSet Stem := BSet.ofList (keys.map Key.stem)

theorem mem_stemsOf {keys : List Key} {s : Stem} : s ∈ stemsOf keys ↔ ∃ k, k ∈ keys ∧ k.stem = s := by
  rw [stemsOf, BSet.mem_ofList, List.mem_map]

theorem map_fst_eq {β : Type} {keys : List Key} {b : BMap Stem β} (f : Stem → β) (hs : BMap.Sorted b)
    (h : ∀ s, BMap.get s b = if ∃ k, k ∈ keys ∧ k.stem = s then some (f s) else none) :
    b = (stemsOf keys).map fun s => (s, f s) := by
  apply BMap.ext hs
  · show Ascending (List.map Prod.fst (List.map _ _))
    rw [List.map_map]
    have : (Prod.fst ∘ fun s => (s, f s)) = id := rfl
    rw [this, List.map_id]
    exact BSet.asc_ofList _
  · intro s
    have hs2 : BMap.Sorted ((stemsOf keys).map fun s => (s, f s)) := by
      show Ascending (List.map Prod.fst (List.map _ _))
      rw [List.map_map]
      have : (Prod.fst ∘ fun s => (s, f s)) = id := rfl
      rw [this, List.map_id]
      exact BSet.asc_ofList _
    rw [h]
    by_cases hk : ∃ k, k ∈ keys ∧ k.stem = s
    · rw [if_pos hk]
      symm
      rw [BMap.get_eq_some_iff hs2, List.mem_map]
      exact ⟨s, mem_stemsOf.2 hk, rfl⟩
    · rw [if_neg hk]
      symm
      rw [BMap.get_eq_none_iff]
      intro hm
      rw [List.map_map, List.mem_map] at hm
      obtain ⟨t, ht, rfl⟩ := hm
      exact hk (mem_stemsOf.1 ht)

/-- The hint of an honest prover. -/
noncomputable def honestHint (m : KV) (keys : List Key) (d : BSet Stem) : VerificationHint :=
  ⟨(stemsOf keys).map fun s => asU8 (termLen m s), (stemsOf keys).map (extOf m), d⟩

theorem createProverQueries_spec [DecidableEq F] [DecidableEq G] (C : Crypto F G) (m : KV) {keys : List Key} (hk : keys ≠ []) :
    ∃ L d, createProverQueries (specDb C m) keys = .ok (L.map (labelQuery C m), honestHint m keys d) ∧
      Ascending L ∧ (∀ x, x ∈ L ↔ Label m (· ∈ keys) x) ∧ Ascending d ∧ ∀ u, u ∈ d ↔ ForeignStem m (· ∈ keys) u := by
  obtain ⟨od, he, hI⟩ := collect_spec C m keys (inv_empty C m)
  have hK : (fun k => False ∨ k ∈ keys) = (· ∈ keys) := by funext k; simp
  rw [hK] at hI
  refine ⟨labels od.openings, extensionStems od.openings [], ?_, labels_asc hI, labels_mem hI,
    extensionStems_asc _ List.Pairwise.nil, extensionStems_spec hI⟩
  have h1 := map_fst_eq (keys := keys) (extOf m) hI.extSorted (fun s => by rw [hI.ext]; congr)
  have h2 := map_fst_eq (keys := keys) (fun s => asU8 (termLen m s)) hI.depthSorted (fun s => by rw [hI.depth]; congr)
  simp only [createProverQueries, if_neg hk, he, bind, Except.bind, openAll_spec od.openings (fun e he => hI.entry he)]
  congr 2
  rw [honestHint]
  congr 1
  · rw [h2, List.map_map]; rfl
  · rw [h1, List.map_map]; rfl

/-! ### Reading the hint -/

theorem get_foldl_insert {α β : Type} [BOrd α] (f : α → β) : ∀ (l : List α) {b : BMap α β}, BMap.Sorted b →
    BMap.Sorted (l.foldl (fun m x => BMap.insert x (f x) m) b) ∧
    ∀ s, BMap.get s (l.foldl (fun m x => BMap.insert x (f x) m) b) = if s ∈ l then some (f s) else BMap.get s b
  | [], b, hb => ⟨hb, fun s => by simp⟩
  | x :: l, b, hb => by
    obtain ⟨h1, h2⟩ := get_foldl_insert f l (BMap.sorted_insert x (f x) hb)
    refine ⟨h1, fun s => ?_⟩
    rw [List.foldl_cons, h2, BMap.get_insert _ _ _ hb]
    by_cases hs : s ∈ l
    · simp [hs]
    · by_cases hx : s = x
      · subst hx; simp [hs]
      · simp [hs, hx]

theorem zip_hint (m : KV) (l : List Stem) :
    (l.zip (l.map fun s => asU8 (termLen m s))).zip (l.map (extOf m)) = l.map fun s => ((s, asU8 (termLen m s)), extOf m s) := by
  induction l with
  | nil => rfl
  | cons a l ih => simp only [List.map_cons, List.zip_cons_cons, ih]

theorem hintByStem_spec (m : KV) (keys : List Key) (d : BSet Stem) (s : Stem) :
    BMap.get s (hintByStem (honestHint m keys d) (stemsOf keys)) =
      if ∃ k, k ∈ keys ∧ k.stem = s then some (extOf m s, asU8 (termLen m s)) else none := by
  unfold hintByStem honestHint
  simp only [zip_hint, List.foldl_map]
  rw [(get_foldl_insert (fun s => (extOf m s, asU8 (termLen m s))) (stemsOf keys) (b := []) List.Pairwise.nil).2]
  simp only [mem_stemsOf, BMap.get]

theorem mem_swe (m : KV) (keys : List Key) (d : BSet Stem) (s : Stem) :
    s ∈ stemsWithExtension (honestHint m keys d) (stemsOf keys) ↔ (∃ k, k ∈ keys ∧ k.stem = s) ∧ HasStem m s := by
  unfold stemsWithExtension honestHint
  simp only [zip_hint, List.foldl_map]
  have key : ∀ (l : List Stem) (b : BSet Stem),
      s ∈ l.foldl (fun s x => if extOf m x = .present then BSet.insert x s else s) b ↔ (s ∈ l ∧ HasStem m s) ∨ s ∈ b := by
    intro l
    induction l with
    | nil => simp
    | cons a l ih =>
      intro b
      rw [List.foldl_cons, ih]
      have hp : extOf m a = .present ↔ HasStem m a := by
        unfold extOf
        split
        · simp [*]
        · split <;> simp [*]
      by_cases ha : HasStem m a
      · rw [if_pos (hp.2 ha), BSet.mem_insert, List.mem_cons]
        constructor
        · rintro (⟨h1, h2⟩ | h | h)
          · exact Or.inl ⟨Or.inr h1, h2⟩
          · subst h; exact Or.inl ⟨Or.inl rfl, ha⟩
          · exact Or.inr h
        · rintro (⟨h1 | h1, h2⟩ | h)
          · exact Or.inr (Or.inl h1)
          · exact Or.inl ⟨h1, h2⟩
          · exact Or.inr (Or.inr h)
      · rw [if_neg (mt hp.1 ha), List.mem_cons]
        constructor
        · rintro (⟨h1, h2⟩ | h)
          · exact Or.inl ⟨Or.inr h1, h2⟩
          · exact Or.inr h
        · rintro (⟨h1 | h1, h2⟩ | h)
          · subst h1; exact absurd h2 ha
          · exact Or.inl ⟨h1, h2⟩
          · exact Or.inr h
  rw [key, mem_stemsOf]
  simp

theorem asc_swe (m : KV) (keys : List Key) (d : BSet Stem) :
    Ascending (stemsWithExtension (honestHint m keys d) (stemsOf keys)) := by
  unfold stemsWithExtension
  have key : ∀ (l : List ((Stem × Byte) × ExtPresent)) {b : BSet Stem}, Ascending b →
      Ascending (l.foldl (fun s x => if x.2 = .present then BSet.insert x.1.1 s else s) b) := by
    intro l
    induction l with
    | nil => intro b h; exact h
    | cons a l ih =>
      intro b h
      rw [List.foldl_cons]
      apply ih
      split
      · exact BSet.asc_insert _ h
      · exact h
  exact key _ List.Pairwise.nil

/-! ### The loop over the keys -/

theorem branchLoop_spec (s : Stem) : ∀ (n i : ℕ) (st : VState F), i + n ≤ 31 → Ascending st.allPaths →
    Ascending st.allPathsZs → ∃ st', branchLoop s i n st = .ok st' ∧ st'.otherStemsUsed = st.otherStemsUsed ∧
      st'.leafVals = st.leafVals ∧ st'.otherStems = st.otherStems ∧ Ascending st'.allPaths ∧ Ascending st'.allPathsZs ∧
      (∀ p, p ∈ st'.allPaths ↔ p ∈ st.allPaths ∨ (p <+: s.1 ∧ i ≤ p.length ∧ p.length < i + n)) ∧
      ∀ p z, (p, z) ∈ st'.allPathsZs ↔ (p, z) ∈ st.allPathsZs ∨ (p ++ [z] <+: s.1 ∧ i ≤ p.length ∧ p.length < i + n)
  | 0, i, st, _, h1, h2 => by
    refine ⟨st, rfl, rfl, rfl, rfl, h1, h2, fun p => ?_, fun p z => ?_⟩
    · constructor
      · exact Or.inl
      · rintro (h | h)
        · exact h
        · omega
    · constructor
      · exact Or.inl
      · rintro (h | h)
        · exact h
        · omega
  | n + 1, i, st, hn, h1, h2 => by
    have hi : i < s.1.length := by rw [s.2]; omega
    obtain ⟨st', e, a1, a2, a3, a4, a5, a6, a7⟩ := branchLoop_spec s n (i + 1)
      { st with allPaths := BSet.insert (s.1.take i) st.allPaths
                allPathsZs := BSet.insert (s.1.take i, s.1[i]) st.allPathsZs } (by omega)
      (BSet.asc_insert _ h1) (BSet.asc_insert _ h2)
    have hl : (s.1.take i).length = i := take_stem_length (by omega)
    refine ⟨st', ?_, a1, a2, a3, a4, a5, fun p => ?_, fun p z => ?_⟩
    · simp only [branchLoop, List.getElem?_eq_getElem hi, unwrap, bind, Except.bind]
      exact e
    · rw [a6, BSet.mem_insert]
      constructor
      · rintro ((h | h) | ⟨h, h', h''⟩)
        · subst h; exact Or.inr ⟨List.take_prefix _ _, by omega, by omega⟩
        · exact Or.inl h
        · exact Or.inr ⟨h, by omega, by omega⟩
      · rintro (h | ⟨h, h', h''⟩)
        · exact Or.inl (Or.inr h)
        · by_cases he : p.length = i
          · left; left
            rw [prefix_eq_take h, he]
          · exact Or.inr ⟨h, by omega, by omega⟩
    · rw [a7, BSet.mem_insert, Prod.mk.injEq]
      constructor
      · rintro ((⟨rfl, rfl⟩ | h) | ⟨h, h', h''⟩)
        · refine Or.inr ⟨?_, by omega, by omega⟩
          rw [List.take_append_getElem hi]; exact List.take_prefix _ _
        · exact Or.inl h
        · exact Or.inr ⟨h, by omega, by omega⟩
      · rintro (h | ⟨h, h', h''⟩)
        · exact Or.inl (Or.inr h)
        · by_cases he : p.length = i
          · left; left
            have := prefix_eq_take h
            rw [List.length_append, List.length_singleton, he, ← List.take_append_getElem hi] at this
            have h3 := List.append_inj this (by rw [he, hl])
            exact ⟨h3.1, by simpa using h3.2⟩
          · exact Or.inr ⟨h, by omega, by omega⟩

/-- A path that is opened somewhere. -/
def Opened (m : KV) (K : Key → Prop) (p : Path) : Prop := ∃ z, Label m K (p, z)

/-- The state of the verifier after processing the keys `K'` out of `keys`. -/
structure VInv (C : Crypto F G) (m : KV) (keys : List Key) (K' : Key → Prop) (st : VState F) : Prop where
  pathsAsc : Ascending st.allPaths
  zsAsc : Ascending st.allPathsZs
  paths : ∀ p, p ∈ st.allPaths ↔ Opened m K' p
  zs : ∀ x, x ∈ st.allPathsZs ↔ Label m K' x
  leafSorted : BMap.Sorted st.leafVals
  leaf : ∀ p z y, BMap.get (p, z) st.leafVals = some y → y = nodeVec C m p z
  leaf0 : ∀ p u k, K' k → TermStem m p u → p <+: k.stem.1 → BMap.get (p, 0) st.leafVals ≠ none
  leaf1 : ∀ p u k, K' k → TermStem m p u → p <+: k.stem.1 → (k.stem = u ∨ ∀ k' ∈ keys, k'.stem ≠ u) →
    BMap.get (p, 1) st.leafVals ≠ none
  leafV : ∀ p k, K' k → TermStem m p k.stem → BMap.get (p ++ [halfIdx k.suffix], lowIdx k.suffix) st.leafVals ≠ none ∧
    BMap.get (p ++ [halfIdx k.suffix], highIdx k.suffix) st.leafVals ≠ none
  usedAsc : Ascending st.otherStemsUsed
  used : ∀ u, u ∈ st.otherStemsUsed ↔ ∃ p k, K' k ∧ TermStem m p u ∧ p <+: k.stem.1 ∧ ∀ k' ∈ keys, k'.stem ≠ u
  otherSorted : BMap.Sorted st.otherStems
  other : ∀ p u, BMap.get p st.otherStems = some u ↔ TermStem m p u ∧ ∃ k, K' k ∧ p <+: k.stem.1 ∧ k.stem ≠ u

theorem label_or {m : KV} {K : Key → Prop} {k : Key} {x : Path × Byte} :
    Label m (fun k' => K k' ∨ k' = k) x ↔ Label m K x ∨ Label m (· = k) x := by
  constructor
  · intro h
    cases h with
    | branch p z k' hk hb hp =>
      rcases hk with hk | hk
      · exact Or.inl (.branch p z k' hk hb hp)
      · exact Or.inr (.branch p z k' hk hb hp)
    | ext p z u k' hk hu hp hz =>
      rcases hk with hk | hk
      · exact Or.inl (.ext p z u k' hk hu hp hz)
      · exact Or.inr (.ext p z u k' hk hu hp hz)
    | half p k' hk hu =>
      rcases hk with hk | hk
      · exact Or.inl (.half p k' hk hu)
      · exact Or.inr (.half p k' hk hu)
    | low p k' hk hu =>
      rcases hk with hk | hk
      · exact Or.inl (.low p k' hk hu)
      · exact Or.inr (.low p k' hk hu)
    | high p k' hk hu =>
      rcases hk with hk | hk
      · exact Or.inl (.high p k' hk hu)
      · exact Or.inr (.high p k' hk hu)
  · have mono : ∀ {A B : Key → Prop}, (∀ k, A k → B k) → Label m A x → Label m B x := by
      intro A B hAB h
      cases h with
      | branch p z k' hk hb hp => exact .branch p z k' (hAB _ hk) hb hp
      | ext p z u k' hk hu hp hz => exact .ext p z u k' (hAB _ hk) hu hp hz
      | half p k' hk hu => exact .half p k' (hAB _ hk) hu
      | low p k' hk hu => exact .low p k' (hAB _ hk) hu
      | high p k' hk hu => exact .high p k' (hAB _ hk) hu
    rintro (h | h)
    · exact mono (fun _ h => Or.inl h) h
    · exact mono (fun _ h => Or.inr h) h

theorem label_one {m : KV} {k : Key} {p : Path} {z : Byte} : Label m (· = k) (p, z) ↔
    (IsBranch m p ∧ p ++ [z] <+: k.stem.1) ∨ ((∃ u, TermStem m p u) ∧ p <+: k.stem.1 ∧ (z = 0 ∨ z = 1)) ∨
    (TermStem m p k.stem ∧ z = halfIdx k.suffix) ∨
    (∃ q, TermStem m q k.stem ∧ p = q ++ [halfIdx k.suffix] ∧ (z = lowIdx k.suffix ∨ z = highIdx k.suffix)) := by
  constructor
  · intro h
    cases h with
    | branch p z k' hk hb hp => subst hk; exact Or.inl ⟨hb, hp⟩
    | ext p z u k' hk hu hp hz => subst hk; exact Or.inr (Or.inl ⟨⟨u, hu⟩, hp, hz⟩)
    | half p k' hk hu => subst hk; exact Or.inr (Or.inr (Or.inl ⟨hu, rfl⟩))
    | low p k' hk hu => subst hk; exact Or.inr (Or.inr (Or.inr ⟨p, hu, rfl, Or.inl rfl⟩))
    | high p k' hk hu => subst hk; exact Or.inr (Or.inr (Or.inr ⟨p, hu, rfl, Or.inr rfl⟩))
  · rintro (⟨hb, hp⟩ | ⟨⟨u, hu⟩, hp, hz⟩ | ⟨hu, rfl⟩ | ⟨q, hu, rfl, rfl | rfl⟩)
    · exact .branch p z k rfl hb hp
    · exact .ext p z u k rfl hu hp hz
    · exact .half p k rfl hu
    · exact .low q k rfl hu
    · exact .high q k rfl hu

theorem opened_or {m : KV} {K : Key → Prop} {k : Key} {p : Path} :
    Opened m (fun k' => K k' ∨ k' = k) p ↔ Opened m K p ∨ Opened m (· = k) p := by
  unfold Opened
  simp only [label_or, exists_or]

theorem opened_one {m : KV} {k : Key} {p : Path} : Opened m (· = k) p ↔
    (IsBranch m p ∧ p <+: k.stem.1) ∨ ((∃ u, TermStem m p u) ∧ p <+: k.stem.1) ∨
    (∃ q, TermStem m q k.stem ∧ p = q ++ [halfIdx k.suffix]) := by
  unfold Opened
  simp only [label_one]
  constructor
  · rintro ⟨z, ⟨hb, hp⟩ | ⟨hu, hp, _⟩ | ⟨hu, _⟩ | ⟨q, hu, hq, _⟩⟩
    · exact Or.inl ⟨hb, (List.prefix_append _ _).trans hp⟩
    · exact Or.inr (Or.inl ⟨hu, hp⟩)
    · exact Or.inr (Or.inl ⟨⟨_, hu⟩, hu.2.2.2⟩)
    · exact Or.inr (Or.inr ⟨q, hu, hq⟩)
  · rintro (⟨hb, hp⟩ | ⟨hu, hp⟩ | ⟨q, hu, hq⟩)
    · exact ⟨_, Or.inl ⟨hb, (prefix_snoc_iff hp (IsBranch.len hb)).2 rfl⟩⟩
    · exact ⟨0, Or.inr (Or.inl ⟨hu, hp, Or.inl rfl⟩)⟩
    · exact ⟨_, Or.inr (Or.inr (Or.inr ⟨q, hu, hq, Or.inl rfl⟩))⟩

theorem filter_single {α : Type} [BOrd α] [DecidableEq α] (l : List α) (h : Ascending l) (P : α → Bool) (u : α) (hu : u ∈ l)
    (hP : ∀ x ∈ l, P x = true ↔ x = u) : l.filter P = [u] := by
  apply Ascending.ext (h.filter _)
  · simp [Ascending]
  · intro x
    rw [List.mem_filter, List.mem_singleton]
    constructor
    · rintro ⟨h1, h2⟩; exact (hP x h1).1 h2
    · rintro rfl; exact ⟨hu, (hP x hu).2 rfl⟩

theorem get_insert_ne_none {α β : Type} [BOrd α] (k x : α) (v : β) (b : BMap α β) :
    BMap.get x (BMap.insert k v b) ≠ none ↔ x = k ∨ BMap.get x b ≠ none := by
  rw [← BMap.mem_keys_iff, BMap.mem_keys_insert, BMap.mem_keys_iff]

theorem leaf_insert {f : Path → Byte → F} {b : BMap (Path × Byte) F} (hs : BMap.Sorted b)
    (h : ∀ p z y, BMap.get (p, z) b = some y → y = f p z) (q : Path) (w : Byte) {v : F} (hv : v = f q w) :
    ∀ p z y, BMap.get (p, z) (BMap.insert (q, w) v b) = some y → y = f p z := by
  intro p z y hy
  rw [BMap.get_insert _ _ _ hs] at hy
  by_cases he : (p, z) = (q, w)
  · rw [if_pos he] at hy
    simp only [Prod.mk.injEq] at he
    rw [he.1, he.2, ← hv]
    simpa using hy.symm
  · rw [if_neg he] at hy
    exact h p z y hy

theorem keyStep_spec {C : Crypto F G} {m : KV} {keys : List Key} {K' : Key → Prop} {st : VState F} {d : BSet Stem}
    (hd : Ascending d) (hdm : ∀ u, u ∈ d ↔ ForeignStem m (· ∈ keys) u)
    (hI : VInv C m keys K' st) (k : Key) (hk : k ∈ keys) :
    ∃ st', keyStep (honestHint m keys d) (hintByStem (honestHint m keys d) (stemsOf keys))
        (stemsWithExtension (honestHint m keys d) (stemsOf keys)) k (m k) st = .ok (some st') ∧
      VInv C m keys (fun k' => K' k' ∨ k' = k) st' := by
  have hle := termLen_le m k.stem
  have hpos := termLen_pos m k.stem
  obtain ⟨st1, hb, a1, a2, a3, a4, a5, a6, a7⟩ := branchLoop_spec k.stem (termLen m k.stem) 0 st (by omega) hI.pathsAsc hI.zsAsc
  have b6 : ∀ p, p ∈ st1.allPaths ↔ Opened m K' p ∨ (IsBranch m p ∧ p <+: k.stem.1) := by
    intro p
    rw [a6, hI.paths]
    constructor
    · rintro (h | ⟨h1, _, h2⟩)
      · exact Or.inl h
      · exact Or.inr ⟨(isBranch_prefix_iff h1).2 (by omega), h1⟩
    · rintro (h | ⟨h1, h2⟩)
      · exact Or.inl h
      · exact Or.inr ⟨h2, by omega, by have := (isBranch_prefix_iff h2).1 h1; omega⟩
  have b7 : ∀ p z, (p, z) ∈ st1.allPathsZs ↔ Label m K' (p, z) ∨ (IsBranch m p ∧ p ++ [z] <+: k.stem.1) := by
    intro p z
    rw [a7, hI.zs]
    constructor
    · rintro (h | ⟨h1, _, h2⟩)
      · exact Or.inl h
      · exact Or.inr ⟨(isBranch_prefix_iff ((List.prefix_append _ _).trans h1)).2 (by omega), h1⟩
    · rintro (h | ⟨h1, h2⟩)
      · exact Or.inl h
      · exact Or.inr ⟨h2, by omega, by have := (isBranch_prefix_iff ((List.prefix_append _ _).trans h2)).1 h1; omega⟩
  have hdv : (asU8 (termLen m k.stem)).val = termLen m k.stem := asU8_val (by omega)
  have hget : BMap.get k.stem (hintByStem (honestHint m keys d) (stemsOf keys)) =
      some (extOf m k.stem, asU8 (termLen m k.stem)) := by
    rw [hintByStem_spec, if_pos ⟨k, hk, rfl⟩]
  have hval : (m k).isSome → HasStem m k.stem := by
    intro h
    refine ⟨k.suffix, ?_⟩
    rw [mkKey_stem_suffix]
    intro e
    rw [e] at h
    simp at h
  have hpre := termPath_prefix m k.stem
  have htake : k.stem.1.take (termLen m k.stem) = termPath m k.stem := rfl
  by_cases hS : HasStem m k.stem
  · -- the stem is present
    have hT : TermStem m (termPath m k.stem) k.stem := termStem_self hS
    have huniq : ∀ p u, TermStem m p u → p <+: k.stem.1 → p = termPath m k.stem ∧ u = k.stem := by
      intro p u hu hp
      have e := (hu.termPath hp).symm
      subst e
      exact ⟨rfl, hu.unique hT⟩
    have hext : extOf m k.stem = .present := by rw [extOf, if_pos hS]
    have hvec := nodeVec_stem (C := C) hT
    have hvecs := nodeVec_suffix (C := C) hT k.suffix
    have s0 := hI.leafSorted
    have s1 := BMap.sorted_insert (termPath m k.stem, (0 : Byte)) (1 : F) s0
    have s2 := BMap.sorted_insert (termPath m k.stem, (1 : Byte)) (frLe F k.stem.1) s1
    have s3 := BMap.sorted_insert (termPath m k.stem ++ [halfIdx k.suffix], lowIdx k.suffix) (valueHalves F (m k)).1 s2
    have s4 := BMap.sorted_insert (termPath m k.stem ++ [halfIdx k.suffix], highIdx k.suffix) (valueHalves F (m k)).2 s3
    refine ⟨presentStep k (m k) (termPath m k.stem) (extStep (termPath m k.stem) st1), ?_, ?_⟩
    · simp only [keyStep, hget, unwrap, bind, Except.bind, hdv, hb, hext, htake]
    · have hlv : (presentStep k (m k) (termPath m k.stem) (extStep (termPath m k.stem) st1)).leafVals =
          BMap.insert (termPath m k.stem ++ [halfIdx k.suffix], highIdx k.suffix) (valueHalves F (m k)).2
            (BMap.insert (termPath m k.stem ++ [halfIdx k.suffix], lowIdx k.suffix) (valueHalves F (m k)).1
              (BMap.insert (termPath m k.stem, 1) (frLe F k.stem.1) (BMap.insert (termPath m k.stem, 0) 1 st.leafVals))) := by
        rw [← a2]; rfl
      have hap : (presentStep k (m k) (termPath m k.stem) (extStep (termPath m k.stem) st1)).allPaths =
          BSet.insert (termPath m k.stem ++ [halfIdx k.suffix]) (BSet.insert (termPath m k.stem) st1.allPaths) := rfl
      have haz : (presentStep k (m k) (termPath m k.stem) (extStep (termPath m k.stem) st1)).allPathsZs =
          BSet.insert (termPath m k.stem ++ [halfIdx k.suffix], highIdx k.suffix)
            (BSet.insert (termPath m k.stem ++ [halfIdx k.suffix], lowIdx k.suffix)
              (BSet.insert (termPath m k.stem, halfIdx k.suffix)
                (BSet.insert (termPath m k.stem, 1) (BSet.insert (termPath m k.stem, 0) st1.allPathsZs)))) := rfl
      constructor
      · rw [hap]; exact BSet.asc_insert _ (BSet.asc_insert _ a4)
      · rw [haz]
        exact BSet.asc_insert _ (BSet.asc_insert _ (BSet.asc_insert _ (BSet.asc_insert _ (BSet.asc_insert _ a5))))
      · intro p
        rw [hap, BSet.mem_insert, BSet.mem_insert, b6, opened_or, opened_one]
        constructor
        · rintro (rfl | rfl | h | h)
          · exact Or.inr (Or.inr (Or.inr ⟨_, hT, rfl⟩))
          · exact Or.inr (Or.inr (Or.inl ⟨⟨_, hT⟩, hpre⟩))
          · exact Or.inl h
          · exact Or.inr (Or.inl h)
        · rintro (h | h | ⟨⟨u, hu⟩, hp⟩ | ⟨q, hq, rfl⟩)
          · exact Or.inr (Or.inr (Or.inl h))
          · exact Or.inr (Or.inr (Or.inr h))
          · exact Or.inr (Or.inl (huniq p u hu hp).1)
          · rw [(huniq q _ hq hq.2.2.2).1]; exact Or.inl rfl
      · rintro ⟨p, z⟩
        rw [haz]
        simp only [BSet.mem_insert, b7, label_or, label_one, Prod.mk.injEq]
        constructor
        · rintro (⟨rfl, rfl⟩ | ⟨rfl, rfl⟩ | ⟨rfl, rfl⟩ | ⟨rfl, rfl⟩ | ⟨rfl, rfl⟩ | h | h)
          · exact Or.inr (Or.inr (Or.inr (Or.inr ⟨_, hT, rfl, Or.inr rfl⟩)))
          · exact Or.inr (Or.inr (Or.inr (Or.inr ⟨_, hT, rfl, Or.inl rfl⟩)))
          · exact Or.inr (Or.inr (Or.inr (Or.inl ⟨hT, rfl⟩)))
          · exact Or.inr (Or.inr (Or.inl ⟨⟨_, hT⟩, hpre, Or.inr rfl⟩))
          · exact Or.inr (Or.inr (Or.inl ⟨⟨_, hT⟩, hpre, Or.inl rfl⟩))
          · exact Or.inl h
          · exact Or.inr (Or.inl h)
        · rintro (h | h | ⟨⟨u, hu⟩, hp, rfl | rfl⟩ | ⟨hu, rfl⟩ | ⟨q, hq, rfl, rfl | rfl⟩)
          · simp [h]
          · simp [h]
          · simp [(huniq p u hu hp).1]
          · simp [(huniq p u hu hp).1]
          · simp [(huniq p _ hu hu.2.2.2).1]
          · simp [(huniq q _ hq hq.2.2.2).1]
          · simp [(huniq q _ hq hq.2.2.2).1]
      · rw [hlv]; exact s4
      · rw [hlv]
        refine leaf_insert s3 (leaf_insert s2 (leaf_insert s1 (leaf_insert s0 hI.leaf _ _ ?_) _ _ ?_) _ _ ?_) _ _ ?_
        · rw [hvec]; simp [stemVec]
        · rw [hvec]
          have v1 : ((1 : Byte)).val = 1 := rfl
          simp [stemVec, v1, frLe]
        · rw [hvecs, suffixVec_low, valueHalves_eq]
        · rw [hvecs, suffixVec_high, valueHalves_eq]
      · rintro p u k' (hk' | rfl) hu hp
        · rw [hlv]; simp only [get_insert_ne_none]
          simp [hI.leaf0 p u k' hk' hu hp]
        · rw [hlv, (huniq p u hu hp).1]; simp only [get_insert_ne_none]
          simp
      · rintro p u k' (hk' | rfl) hu hp hor
        · rw [hlv]; simp only [get_insert_ne_none]
          simp [hI.leaf1 p u k' hk' hu hp hor]
        · rw [hlv, (huniq p u hu hp).1]; simp only [get_insert_ne_none]
          simp
      · rintro p k' (hk' | rfl) hu
        · rw [hlv]; simp only [get_insert_ne_none]
          simp [hI.leafV p k' hk' hu]
        · rw [hlv, (huniq p _ hu hu.2.2.2).1]; simp only [get_insert_ne_none]
          simp
      · show Ascending st1.otherStemsUsed
        rw [a1]; exact hI.usedAsc
      · intro u
        show u ∈ st1.otherStemsUsed ↔ _
        rw [a1, hI.used]
        constructor
        · rintro ⟨p, k', h1, h2⟩; exact ⟨p, k', Or.inl h1, h2⟩
        · rintro ⟨p, k', h1 | rfl, h2, h3, h4⟩
          · exact ⟨p, k', h1, h2, h3, h4⟩
          · exact absurd (huniq p u h2 h3).2.symm (h4 k' hk)
      · show BMap.Sorted st1.otherStems
        rw [a3]; exact hI.otherSorted
      · intro p u
        show BMap.get p st1.otherStems = some u ↔ _
        rw [a3, hI.other]
        constructor
        · rintro ⟨h, k', h1, h2⟩; exact ⟨h, k', Or.inl h1, h2⟩
        · rintro ⟨h, k', h1 | rfl, h2, h3⟩
          · exact ⟨h, k', h1, h2, h3⟩
          · exact absurd (huniq p u h h2).2.symm h3
  have hnone : (m k).isSome = false := by
    cases hm : (m k).isSome
    · rfl
    · exact absurd (hval hm) hS
  by_cases hu : ∃ u, Under m (termPath m k.stem) u
  · -- another stem
    obtain ⟨u, hu⟩ := hu
    have hT := termStem_termPath hu
    have hne : k.stem ≠ u := fun e => hS (e ▸ hu.1)
    have huniq : ∀ p v, TermStem m p v → p <+: k.stem.1 → p = termPath m k.stem ∧ v = u := by
      intro p v hv hp
      have e := (hv.termPath hp).symm
      subst e
      exact ⟨rfl, hv.unique hT⟩
    have hext : extOf m k.stem = .differentStem := by rw [extOf, if_neg hS, if_pos ⟨u, hu⟩]
    have h31 : termLen m k.stem ≠ 31 := by
      intro e
      apply hne
      have h1 := hu.2
      have h2 : termPath m k.stem = k.stem.1 := by
        rw [termPath, e, List.take_of_length_le (by rw [k.stem.2])]
      rw [h2] at h1
      exact Subtype.ext (h1.eq_of_length (by rw [k.stem.2, u.2]))
    have htk : ∀ x : Stem, x.1.take (termLen m k.stem) = termPath m k.stem ↔ termPath m k.stem <+: x.1 := by
      intro x
      rw [prefix_iff_take, termPath_length]
      exact eq_comm
    have hvec := nodeVec_stem (C := C) hT
    have s0 := hI.leafSorted
    have s1 := BMap.sorted_insert (termPath m k.stem, (0 : Byte)) (1 : F) s0
    have hlv1 : (extStep (termPath m k.stem) st1).leafVals = BMap.insert (termPath m k.stem, 0) 1 st.leafVals := by
      rw [← a2]; rfl
    have hl1 := leaf_insert s0 hI.leaf (termPath m k.stem) 0 (v := 1) (by rw [hvec]; simp [stemVec])
    -- facts shared by the two subcases
    have hP : ∀ p, p ∈ (extStep (termPath m k.stem) st1).allPaths ↔ Opened m (fun k' => K' k' ∨ k' = k) p := by
      intro p
      show p ∈ BSet.insert (termPath m k.stem) st1.allPaths ↔ _
      rw [BSet.mem_insert, b6, opened_or, opened_one]
      constructor
      · rintro (rfl | h | h)
        · exact Or.inr (Or.inr (Or.inl ⟨⟨_, hT⟩, hpre⟩))
        · exact Or.inl h
        · exact Or.inr (Or.inl h)
      · rintro (h | h | ⟨⟨v, hv⟩, hp⟩ | ⟨q, hq, rfl⟩)
        · exact Or.inr (Or.inl h)
        · exact Or.inr (Or.inr h)
        · exact Or.inl (huniq p v hv hp).1
        · exact absurd hq.2.2.1 hS
    have hZ : ∀ x, x ∈ (extStep (termPath m k.stem) st1).allPathsZs ↔ Label m (fun k' => K' k' ∨ k' = k) x := by
      rintro ⟨p, z⟩
      show (p, z) ∈ BSet.insert (termPath m k.stem, 1) (BSet.insert (termPath m k.stem, 0) st1.allPathsZs) ↔ _
      simp only [BSet.mem_insert, b7, label_or, label_one, Prod.mk.injEq]
      constructor
      · rintro (⟨rfl, rfl⟩ | ⟨rfl, rfl⟩ | h | h)
        · exact Or.inr (Or.inr (Or.inl ⟨⟨_, hT⟩, hpre, Or.inr rfl⟩))
        · exact Or.inr (Or.inr (Or.inl ⟨⟨_, hT⟩, hpre, Or.inl rfl⟩))
        · exact Or.inl h
        · exact Or.inr (Or.inl h)
      · rintro (h | h | ⟨⟨v, hv⟩, hp, rfl | rfl⟩ | ⟨hv, rfl⟩ | ⟨q, hq, rfl, rfl | rfl⟩)
        · simp [h]
        · simp [h]
        · simp [(huniq p v hv hp).1]
        · simp [(huniq p v hv hp).1]
        · exact absurd hv.2.2.1 hS
        · exact absurd hq.2.2.1 hS
        · exact absurd hq.2.2.1 hS
    have hPA : Ascending (extStep (termPath m k.stem) st1).allPaths := BSet.asc_insert _ a4
    have hZA : Ascending (extStep (termPath m k.stem) st1).allPathsZs := BSet.asc_insert _ (BSet.asc_insert _ a5)
    have hO : ∀ p v, BMap.get p (BMap.insert (termPath m k.stem) u st1.otherStems) = some v ↔
        TermStem m p v ∧ ∃ k', (K' k' ∨ k' = k) ∧ p <+: k'.stem.1 ∧ k'.stem ≠ v := by
      intro p v
      rw [BMap.get_insert _ _ _ (by rw [a3]; exact hI.otherSorted), a3]
      by_cases hp : p = termPath m k.stem
      · subst hp
        rw [if_pos rfl]
        constructor
        · intro h
          have : u = v := by simpa using h
          subst this
          exact ⟨hT, k, Or.inr rfl, hpre, hne⟩
        · rintro ⟨hv, _⟩
          rw [hT.unique hv]
      · rw [if_neg hp, hI.other]
        constructor
        · rintro ⟨h, k', h1, h2⟩; exact ⟨h, k', Or.inl h1, h2⟩
        · rintro ⟨h, k', h1 | rfl, h2, h3⟩
          · exact ⟨h, k', h1, h2, h3⟩
          · exact absurd (huniq p v h h2).1 hp
    by_cases hin : ∃ k' ∈ keys, k'.stem = u
    · -- the other stem is opened for another key
      obtain ⟨k2, hk2, hk2u⟩ := hin
      have hfilter : (stemsWithExtension (honestHint m keys d) (stemsOf keys)).filter
          (fun x => decide (x.1.take (termLen m k.stem) = termPath m k.stem)) = [u] := by
        apply filter_single _ (asc_swe m keys d)
        · rw [mem_swe]; exact ⟨⟨k2, hk2, hk2u⟩, hu.1⟩
        · intro x hx
          rw [mem_swe] at hx
          rw [decide_eq_true_iff, htk]
          constructor
          · intro hp
            exact Under.unique (termPath_not_many m k.stem) ⟨hx.2, hp⟩ hu
          · rintro rfl; exact hu.2
      refine ⟨{ extStep (termPath m k.stem) st1 with otherStems := BMap.insert (termPath m k.stem) u st1.otherStems }, ?_, ?_⟩
      · simp only [keyStep, hget, unwrap, bind, Except.bind, hdv, hb, hext, htake, hnone, Bool.false_eq_true, if_false,
          diffStemStep, if_neg h31, hfilter]
        rfl
      · refine ⟨hPA, hZA, hP, hZ, ?_, ?_, ?_, ?_, ?_, ?_, ?_, ?_, hO⟩
        · show BMap.Sorted (extStep (termPath m k.stem) st1).leafVals
          rw [hlv1]; exact s1
        · show ∀ p z y, BMap.get (p, z) (extStep (termPath m k.stem) st1).leafVals = some y → _
          rw [hlv1]; exact hl1
        · show ∀ p v k', _ → _ → _ → BMap.get (p, 0) (extStep (termPath m k.stem) st1).leafVals ≠ none
          rw [hlv1]
          rintro p v k' (hk' | rfl) hv hp
          · rw [get_insert_ne_none]; exact Or.inr (hI.leaf0 p v k' hk' hv hp)
          · rw [get_insert_ne_none, (huniq p v hv hp).1]; exact Or.inl rfl
        · show ∀ p v k', _ → _ → _ → _ → BMap.get (p, 1) (extStep (termPath m k.stem) st1).leafVals ≠ none
          rw [hlv1]
          rintro p v k' (hk' | rfl) hv hp hor
          · rw [get_insert_ne_none]; exact Or.inr (hI.leaf1 p v k' hk' hv hp hor)
          · have := (huniq p v hv hp).2
            subst this
            rcases hor with h | h
            · exact absurd h hne
            · exact absurd hk2u (h k2 hk2)
        · show ∀ p k', _ → _ → BMap.get _ (extStep (termPath m k.stem) st1).leafVals ≠ none ∧
            BMap.get _ (extStep (termPath m k.stem) st1).leafVals ≠ none
          rw [hlv1]
          rintro p k' (hk' | rfl) hv
          · rw [get_insert_ne_none, get_insert_ne_none]
            exact ⟨Or.inr (hI.leafV p k' hk' hv).1, Or.inr (hI.leafV p k' hk' hv).2⟩
          · exact absurd hv.2.2.1 hS
        · show Ascending st1.otherStemsUsed
          rw [a1]; exact hI.usedAsc
        · intro v
          show v ∈ st1.otherStemsUsed ↔ _
          rw [a1, hI.used]
          constructor
          · rintro ⟨p, k', h1, h2⟩; exact ⟨p, k', Or.inl h1, h2⟩
          · rintro ⟨p, k', h1 | rfl, h2, h3, h4⟩
            · exact ⟨p, k', h1, h2, h3, h4⟩
            · have := (huniq p v h2 h3).2
              subst this
              exact absurd hk2u (h4 k2 hk2)
        · exact BMap.sorted_insert _ _ (by rw [a3]; exact hI.otherSorted)
    · -- a foreign stem
      have hfor : ∀ k' ∈ keys, k'.stem ≠ u := fun k' h e => hin ⟨k', h, e⟩
      have hfilter : (stemsWithExtension (honestHint m keys d) (stemsOf keys)).filter
          (fun x => decide (x.1.take (termLen m k.stem) = termPath m k.stem)) = [] := by
        rw [List.filter_eq_nil_iff]
        intro x hx
        rw [mem_swe] at hx
        rw [decide_eq_true_iff, htk]
        intro hp
        obtain ⟨⟨k2, hk2, rfl⟩, hx2⟩ := hx
        exact hfor k2 hk2 (Under.unique (termPath_not_many m k.stem) ⟨hx2, hp⟩ hu)
      have hlast : ((honestHint m keys d).diffStemNoProof.filter
          (fun x => decide (x.1.take (termLen m k.stem) = termPath m k.stem))) = [u] := by
        apply filter_single _ hd
        · exact (hdm u).2 ⟨_, hT, ⟨k, hk, hpre⟩, hfor⟩
        · intro x hx
          obtain ⟨p, hx1, _⟩ := (hdm x).1 hx
          rw [decide_eq_true_iff, htk]
          constructor
          · intro hp
            exact Under.unique (termPath_not_many m k.stem) ⟨hx1.2.2.1, hp⟩ hu
          · rintro rfl; exact hu.2
      have s2 := BMap.sorted_insert (termPath m k.stem, (1 : Byte)) (frLe F u.1) s1
      refine ⟨{ extStep (termPath m k.stem) st1 with
        otherStemsUsed := BSet.insert u st1.otherStemsUsed
        leafVals := BMap.insert (termPath m k.stem, 1) (frLe F u.1) (BMap.insert (termPath m k.stem, 0) 1 st.leafVals)
        otherStems := BMap.insert (termPath m k.stem) u st1.otherStems }, ?_, ?_⟩
      · simp only [keyStep, hget, unwrap, bind, Except.bind, hdv, hb, hext, htake, hnone, Bool.false_eq_true, if_false,
          diffStemStep, if_neg h31, hfilter, hlast, List.getLast?_singleton, ← a2]
        rfl
      · refine ⟨hPA, hZA, hP, hZ, s2, ?_, ?_, ?_, ?_, ?_, ?_, ?_, hO⟩
        · refine leaf_insert s1 hl1 _ _ ?_
          rw [hvec]
          have v1 : ((1 : Byte)).val = 1 := rfl
          simp [stemVec, v1, frLe]
        · rintro p v k' (hk' | rfl) hv hp
          · simp only [get_insert_ne_none]; exact Or.inr (Or.inr (hI.leaf0 p v k' hk' hv hp))
          · simp only [get_insert_ne_none, (huniq p v hv hp).1]; exact Or.inr (Or.inl trivial)
        · rintro p v k' (hk' | rfl) hv hp hor
          · simp only [get_insert_ne_none]; exact Or.inr (Or.inr (hI.leaf1 p v k' hk' hv hp hor))
          · simp only [get_insert_ne_none, (huniq p v hv hp).1]; exact Or.inl trivial
        · rintro p k' (hk' | rfl) hv
          · simp only [get_insert_ne_none]
            exact ⟨Or.inr (Or.inr (hI.leafV p k' hk' hv).1), Or.inr (Or.inr (hI.leafV p k' hk' hv).2)⟩
          · exact absurd hv.2.2.1 hS
        · show Ascending (BSet.insert u st1.otherStemsUsed)
          rw [a1]; exact BSet.asc_insert _ hI.usedAsc
        · intro v
          show v ∈ BSet.insert u st1.otherStemsUsed ↔ _
          rw [BSet.mem_insert, a1, hI.used]
          constructor
          · rintro (rfl | ⟨p, k', h1, h2⟩)
            · exact ⟨_, k, Or.inr rfl, hT, hpre, hfor⟩
            · exact ⟨p, k', Or.inl h1, h2⟩
          · rintro ⟨p, k', h1 | rfl, h2, h3, h4⟩
            · exact Or.inr ⟨p, k', h1, h2, h3, h4⟩
            · exact Or.inl (huniq p v h2 h3).2
        · exact BMap.sorted_insert _ _ (by rw [a3]; exact hI.otherSorted)
  · -- an empty slot
    have hu' : ∀ u, ¬ Under m (termPath m k.stem) u := fun u h => hu ⟨u, h⟩
    have hno : ∀ p v, TermStem m p v → p <+: k.stem.1 → False := by
      intro p v hv hp
      have e := (hv.termPath hp).symm
      subst e
      exact hu' v hv.2.2
    have hext : extOf m k.stem = .none := by rw [extOf, if_neg hS, if_neg hu]
    have hlen : termLen m k.stem - 1 < k.stem.1.length := by rw [k.stem.2]; omega
    -- the entry that is written
    obtain ⟨x, hx1, hx2⟩ : ∃ x : Path × Byte, noneStep k.stem (termLen m k.stem) st1 =
        .ok { st1 with leafVals := BMap.insert x 0 st1.leafVals } ∧ (0 : F) = nodeVec C m x.1 x.2 := by
      unfold noneStep
      rw [if_neg (by omega), List.getElem?_eq_getElem hlen]
      simp only [unwrap, bind, Except.bind]
      by_cases h1 : termLen m k.stem = 1
      · rw [if_pos h1]
        refine ⟨_, rfl, ?_⟩
        rw [nodeVec_branch (Or.inl rfl)]
        have : ([] : Path) ++ [k.stem.1[termLen m k.stem - 1]] = termPath m k.stem := by
          have e := List.take_append_getElem hlen
          have h0 : k.stem.1.take (termLen m k.stem - 1) = [] := by
            rw [show termLen m k.stem - 1 = 0 by omega]; rfl
          rw [h0] at e
          rw [e, termPath]
          congr 1
          omega
        simp only [branchVec, this]
        exact (childHash_none hu').symm
      · rw [if_neg h1]
        refine ⟨_, rfl, ?_⟩
        show (0 : F) = nodeVec C m (termPath m k.stem) _
        rw [nodeVec_empty (p := termPath m k.stem) (termLen_spec m k.stem) hu' (termPath_dropLast_branch m k.stem)]
    refine ⟨{ st1 with leafVals := BMap.insert x 0 st1.leafVals }, ?_, ?_⟩
    · simp only [keyStep, hget, unwrap, bind, Except.bind, hdv, hb, hext, hnone, Bool.false_eq_true, if_false, hx1]
    · refine ⟨a4, a5, ?_, ?_, ?_, ?_, ?_, ?_, ?_, ?_, ?_, ?_, ?_⟩
      · intro p
        show p ∈ st1.allPaths ↔ _
        rw [b6, opened_or, opened_one]
        constructor
        · rintro (h | h)
          · exact Or.inl h
          · exact Or.inr (Or.inl h)
        · rintro (h | h | ⟨⟨v, hv⟩, hp⟩ | ⟨q, hq, rfl⟩)
          · exact Or.inl h
          · exact Or.inr h
          · exact (hno p v hv hp).elim
          · exact absurd hq.2.2.1 hS
      · rintro ⟨p, z⟩
        show (p, z) ∈ st1.allPathsZs ↔ _
        rw [b7, label_or, label_one]
        constructor
        · rintro (h | h)
          · exact Or.inl h
          · exact Or.inr (Or.inl h)
        · rintro (h | h | ⟨⟨v, hv⟩, hp, _⟩ | ⟨hv, _⟩ | ⟨q, hq, _⟩)
          · exact Or.inl h
          · exact Or.inr h
          · exact (hno p v hv hp).elim
          · exact absurd hv.2.2.1 hS
          · exact absurd hq.2.2.1 hS
      · show BMap.Sorted (BMap.insert x 0 st1.leafVals)
        rw [a2]; exact BMap.sorted_insert _ _ hI.leafSorted
      · show ∀ p z y, BMap.get (p, z) (BMap.insert x 0 st1.leafVals) = some y → _
        rw [a2]
        exact leaf_insert hI.leafSorted hI.leaf x.1 x.2 hx2
      · rintro p v k' (hk' | rfl) hv hp
        · show BMap.get _ (BMap.insert x 0 st1.leafVals) ≠ none
          rw [get_insert_ne_none, a2]; exact Or.inr (hI.leaf0 p v k' hk' hv hp)
        · exact (hno p v hv hp).elim
      · rintro p v k' (hk' | rfl) hv hp hor
        · show BMap.get _ (BMap.insert x 0 st1.leafVals) ≠ none
          rw [get_insert_ne_none, a2]; exact Or.inr (hI.leaf1 p v k' hk' hv hp hor)
        · exact (hno p v hv hp).elim
      · rintro p k' (hk' | rfl) hv
        · show BMap.get _ (BMap.insert x 0 st1.leafVals) ≠ none ∧ BMap.get _ (BMap.insert x 0 st1.leafVals) ≠ none
          rw [get_insert_ne_none, get_insert_ne_none, a2]
          exact ⟨Or.inr (hI.leafV p k' hk' hv).1, Or.inr (hI.leafV p k' hk' hv).2⟩
        · exact absurd hv.2.2.1 hS
      · show Ascending st1.otherStemsUsed
        rw [a1]; exact hI.usedAsc
      · intro v
        show v ∈ st1.otherStemsUsed ↔ _
        rw [a1, hI.used]
        constructor
        · rintro ⟨p, k', h1, h2⟩; exact ⟨p, k', Or.inl h1, h2⟩
        · rintro ⟨p, k', h1 | rfl, h2, h3, h4⟩
          · exact ⟨p, k', h1, h2, h3, h4⟩
          · exact (hno p v h2 h3).elim
      · show BMap.Sorted st1.otherStems
        rw [a3]; exact hI.otherSorted
      · intro p v
        show BMap.get p st1.otherStems = some v ↔ _
        rw [a3, hI.other]
        constructor
        · rintro ⟨h, k', h1, h2⟩; exact ⟨h, k', Or.inl h1, h2⟩
        · rintro ⟨h, k', h1 | rfl, h2, h3⟩
          · exact ⟨h, k', h1, h2, h3⟩
          · exact (hno p v h h2).elim

theorem vinv_empty (C : Crypto F G) (m : KV) (keys : List Key) :
    VInv C m keys (fun _ => False) (⟨[], [], [], [], []⟩ : VState F) := by
  have hl : ∀ x, ¬ Label m (fun _ => False) x := by
    intro x h
    cases h <;> assumption
  refine ⟨List.Pairwise.nil, List.Pairwise.nil, fun p => ?_, fun x => ?_, List.Pairwise.nil, ?_, ?_, ?_, ?_, List.Pairwise.nil,
    fun u => ?_, List.Pairwise.nil, fun p u => ?_⟩
  · simp [Opened, hl]
  · simp [hl]
  · intro p z y h; simp [BMap.get] at h
  · intro p u k h; exact h.elim
  · intro p u k h; exact h.elim
  · intro p k h; exact h.elim
  · simp
  · simp [BMap.get]

theorem keyLoop_spec {C : Crypto F G} {m : KV} {keys : List Key} {d : BSet Stem}
    (hd : Ascending d) (hdm : ∀ u, u ∈ d ↔ ForeignStem m (· ∈ keys) u) : ∀ (ks : List Key) {K' : Key → Prop} {st : VState F},
    (∀ k ∈ ks, k ∈ keys) → VInv C m keys K' st →
    ∃ st', keyLoop (honestHint m keys d) (hintByStem (honestHint m keys d) (stemsOf keys))
        (stemsWithExtension (honestHint m keys d) (stemsOf keys)) (ks.map fun k => (k, m k)) st = .ok (some st') ∧
      VInv C m keys (fun k => K' k ∨ k ∈ ks) st'
  | [], K', st, _, h => ⟨st, rfl, by simpa using h⟩
  | k :: ks, K', st, hks, h => by
    obtain ⟨st1, e1, h1⟩ := keyStep_spec hd hdm h k (hks k (by simp))
    obtain ⟨st2, e2, h2⟩ := keyLoop_spec hd hdm ks (fun k' hk' => hks k' (by simp [hk'])) h1
    refine ⟨st2, ?_, ?_⟩
    · simp only [List.map_cons, keyLoop, e1, bind, Except.bind]; exact e2
    · have : (fun k' => (K' k' ∨ k' = k) ∨ k' ∈ ks) = fun k' => K' k' ∨ k' ∈ k :: ks := by
        funext k'; simp [or_assoc]
      rwa [this] at h2

end Verif.Proof
