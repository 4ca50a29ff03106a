import Verif.Proof.Path
import Verif.Trie.Binding

/-!
# What the prover collects

`Inv C m K od` characterises the opening data collected for a set of keys `K` (as a predicate) on the trie of `m`.
-/

set_option autoImplicit false

namespace Verif.Proof
open Verif.Spec Verif.Trie BOrd
open scoped Classical

variable {F G : Type} [Field F] [AddCommGroup G] [Module F G]

/-- The node at path `p` is the stem `u`. -/
def TermStem (m : KV) (p : Path) (u : Stem) : Prop := ¬ IsBranch m p ∧ IsBranch m p.dropLast ∧ Under m p u

theorem TermStem.unique {m : KV} {p : Path} {u v : Stem} (h : TermStem m p u) (h' : TermStem m p v) : u = v :=
  Under.unique (fun hm => h.1 (Or.inr hm)) h.2.2 h'.2.2

theorem prefix_eq_take {p : Path} {s : Stem} (h : p <+: s.1) : p = s.1.take p.length := prefix_iff_take.1 h

theorem prefix_len {p : Path} {s : Stem} (h : p <+: s.1) : p.length ≤ 31 := by
  have := h.length_le
  rwa [s.2] at this

theorem isBranch_prefix_iff {m : KV} {p : Path} {s : Stem} (h : p <+: s.1) : IsBranch m p ↔ p.length < termLen m s := by
  have := isBranch_take_iff (m := m) (s := s) (prefix_len h)
  rwa [← prefix_eq_take h] at this

theorem dropLast_prefix {p : Path} : p.dropLast <+: p := List.dropLast_prefix p

theorem TermStem.ne_nil {m : KV} {p : Path} {u : Stem} (h : TermStem m p u) : p ≠ [] := fun e => h.1 (Or.inl e)

theorem TermStem.termLen {m : KV} {p : Path} {u s : Stem} (h : TermStem m p u) (hp : p <+: s.1) :
    termLen m s = p.length := by
  have h1 := mt (isBranch_prefix_iff (m := m) hp).2 h.1
  have h2 := (isBranch_prefix_iff (m := m) (dropLast_prefix.trans hp)).1 h.2.1
  have h3 : p.length ≠ 0 := fun e => h.ne_nil (List.length_eq_zero_iff.1 e)
  rw [List.length_dropLast] at h2
  omega

theorem TermStem.termPath {m : KV} {p : Path} {u s : Stem} (h : TermStem m p u) (hp : p <+: s.1) :
    termPath m s = p := by
  rw [Proof.termPath, h.termLen hp, ← prefix_eq_take hp]

theorem termStem_termPath {m : KV} {s u : Stem} (h : Under m (termPath m s) u) : TermStem m (termPath m s) u :=
  ⟨termLen_spec m s, termPath_dropLast_branch m s, h⟩

theorem termStem_self {m : KV} {s : Stem} (h : HasStem m s) : TermStem m (termPath m s) s :=
  termStem_termPath ⟨h, termPath_prefix m s⟩

theorem TermStem.not_proper {m : KV} {p q : Path} {u : Stem} (h : TermStem m p u) (hq : IsBranch m q) : ¬ p <+: q := by
  intro hpq
  rcases hq with rfl | hq
  · exact h.ne_nil (List.prefix_nil.1 hpq)
  · exact h.1 (Or.inr (hq.mono hpq))

theorem TermStem.antichain {m : KV} {p q : Path} {u v : Stem} (h : TermStem m p u) (h' : TermStem m q v) (hpq : p <+: q) :
    p = q := by
  by_contra hne
  have hlt : p.length < q.length := by
    rcases Nat.lt_or_ge p.length q.length with h1 | h1
    · exact h1
    · exact absurd (hpq.eq_of_length_le h1) hne
  have : p <+: q.dropLast := by
    rw [List.prefix_iff_eq_take] at hpq ⊢
    rw [List.dropLast_eq_take, List.take_take, hpq]
    simp
    omega
  exact h.not_proper h'.2.1 this

/-- The extension status of a stem. -/
noncomputable def extOf (m : KV) (s : Stem) : ExtPresent :=
  if HasStem m s then .present
  else if ∃ u, Under m (termPath m s) u then .differentStem
  else .none

/-- The opening collected at path `p` for the keys `K`. -/
def OpeningOk (C : Crypto F G) (m : KV) (K : Key → Prop) (p : Path) : Option (Openings F G) → Prop
  | none => ∀ k, K k → p <+: k.stem.1 → ¬ IsBranch m p ∧ ∀ u, ¬ TermStem m p u
  | some (.branch mt ch) => IsBranch m p ∧ mt = .branch (branchMeta C m p) ∧ Ascending ch ∧ ch ≠ []
      ∧ ∀ i, i ∈ ch ↔ ∃ k, K k ∧ p ++ [i] <+: k.stem.1
  | some (.extension e) => ∃ u, TermStem m p u ∧ e = ⟨u, .stem (stemMeta C m u)⟩ ∧ (∃ k, K k ∧ p <+: k.stem.1)
      ∧ ∀ k, K k → k.stem ≠ u
  | some (.suffix e sfx) => ∃ u, TermStem m p u ∧ e = ⟨u, .stem (stemMeta C m u)⟩ ∧ (∃ k, K k ∧ k.stem = u)
      ∧ Ascending sfx ∧ ∀ x, x ∈ sfx ↔ ∃ k, K k ∧ k.stem = u ∧ x = (k.suffix, m k)

/-- Everything collected for the keys `K`. -/
structure Inv (C : Crypto F G) (m : KV) (K : Key → Prop) (od : OpeningData F G) : Prop where
  sorted : BMap.Sorted od.openings
  opening : ∀ p, OpeningOk C m K p (BMap.get p od.openings)
  extSorted : BMap.Sorted od.extByStem
  ext : ∀ s, BMap.get s od.extByStem = if ∃ k, K k ∧ k.stem = s then some (extOf m s) else none
  depthSorted : BMap.Sorted od.depthByStem
  depth : ∀ s, BMap.get s od.depthByStem = if ∃ k, K k ∧ k.stem = s then some (asU8 (termLen m s)) else none

theorem insertBranchOpenings_append : ∀ (a b : List (Path × Byte × Meta F G)) (o : BMap Path (Openings F G)),
    insertBranchOpenings o (a ++ b) = (insertBranchOpenings o a >>= fun o' => insertBranchOpenings o' b)
  | [], b, o => rfl
  | (p, z, .branch m) :: rest, b, o => by
    simp only [List.cons_append, insertBranchOpenings, bind, Except.bind]
    cases insertBranchOpening o p z (.branch m) with
    | error e => rfl
    | ok o' => exact insertBranchOpenings_append rest b o'
  | (p, z, .stem m) :: rest, b, o => by
    simp only [List.cons_append, insertBranchOpenings]
    exact insertBranchOpenings_append rest b o

/-- The opening at a branch after adding one child. -/
def addChild (mt : Meta F G) (z : Byte) : Option (Openings F G) → Openings F G
  | some (.branch m' ch) => .branch m' (BSet.insert z ch)
  | _ => .branch mt (BSet.insert z [])

theorem getD_take_ne {s : Stem} {n d : ℕ} (hn : n ≤ 31) (hd : d ≤ 31) (h : s.1.take n = s.1.take d) : n = d := by
  have := congrArg List.length h
  rwa [take_stem_length hn, take_stem_length hd] at this

theorem insertBranchOpenings_spec (C : Crypto F G) (m : KV) (s : Stem) (o : BMap Path (Openings F G)) (ho : BMap.Sorted o) :
    ∀ n, n ≤ 31 → (∀ i, i < n → ∀ x, BMap.get (s.1.take i) o = some x → ∃ m' ch, x = .branch m' ch) →
    ∃ o', insertBranchOpenings o (branchNodes C m s n) = .ok o' ∧ BMap.Sorted o' ∧
      ∀ p, BMap.get p o' = if p <+: s.1 ∧ p.length < n then
          some (addChild (.branch (branchMeta C m p)) (s.1.getD p.length 0) (BMap.get p o)) else BMap.get p o
  | 0, _, _ => ⟨o, rfl, ho, fun p => by simp⟩
  | n + 1, hn, hb => by
    obtain ⟨o1, h1, hs1, hg1⟩ := insertBranchOpenings_spec C m s o ho n (by omega) (fun i hi => hb i (by omega))
    have hl : (s.1.take n).length = n := take_stem_length (by omega)
    have hgn : BMap.get (s.1.take n) o1 = BMap.get (s.1.take n) o := by
      rw [hg1, if_neg]; rw [hl]; omega
    have key : ∃ o', insertBranchOpening o1 (s.1.take n) (s.1.getD n 0) (.branch (branchMeta C m (s.1.take n))) = .ok o' ∧
        o' = BMap.insert (s.1.take n) (addChild (.branch (branchMeta C m (s.1.take n))) (s.1.getD n 0) (BMap.get (s.1.take n) o)) o1 := by
      unfold insertBranchOpening
      rw [hgn]
      cases hx : BMap.get (s.1.take n) o with
      | none => exact ⟨_, rfl, rfl⟩
      | some x =>
        obtain ⟨m', ch, rfl⟩ := hb n (by omega) x hx
        exact ⟨_, rfl, rfl⟩
    obtain ⟨o', e', he'⟩ := key
    refine ⟨o', ?_, he' ▸ BMap.sorted_insert _ _ hs1, fun p => ?_⟩
    · rw [branchNodes_succ, insertBranchOpenings_append, h1]
      show insertBranchOpenings o1 _ = _
      simp only [insertBranchOpenings, e', bind, Except.bind]
    · rw [he', BMap.get_insert _ _ _ hs1]
      by_cases hp : p = s.1.take n
      · rw [if_pos hp, if_pos ⟨hp ▸ List.take_prefix _ _, by rw [hp, hl]; omega⟩]
        have : p.length = n := by rw [hp, hl]
        rw [this, hp]
      · rw [if_neg hp, hg1]
        have : (p <+: s.1 ∧ p.length < n) ↔ (p <+: s.1 ∧ p.length < n + 1) := by
          constructor
          · rintro ⟨a, b⟩; exact ⟨a, by omega⟩
          · rintro ⟨a, b⟩
            refine ⟨a, ?_⟩
            by_contra hlt
            have hpl : p.length = n := by omega
            apply hp
            rw [prefix_eq_take a, hpl]
        simp only [this]

theorem asU8_val {n : ℕ} (h : n < 256) : (asU8 n).val = n := Nat.mod_eq_of_lt h

theorem prefix_snoc_iff {p : Path} {s : Stem} {i : Byte} (h : p <+: s.1) (hl : p.length < 31) :
    p ++ [i] <+: s.1 ↔ i = s.1.getD p.length 0 := by
  have e : s.1.take (p.length + 1) = p ++ [s.1.getD p.length 0] := by
    rw [stem_take_succ' hl, ← prefix_eq_take h]
  constructor
  · intro hi
    have := prefix_eq_take hi
    rw [List.length_append, List.length_singleton, e] at this
    simpa using this
  · rintro rfl
    rw [← e]
    exact List.take_prefix _ _

theorem addChild_ok {C : Crypto F G} {m : KV} {K : Key → Prop} {k : Key} {p : Path} {x : Option (Openings F G)}
    (hx : OpeningOk C m K p x) (hp : p <+: k.stem.1) (hb : IsBranch m p) :
    OpeningOk C m (fun k' => K k' ∨ k' = k) p
      (some (addChild (.branch (branchMeta C m p)) (k.stem.1.getD p.length 0) x)) := by
  have hl : p.length < 31 := by
    have h1 := (isBranch_prefix_iff hp).1 hb
    have h2 := termLen_le m k.stem
    omega
  match x, hx with
  | none, hx =>
    refine ⟨hb, rfl, BSet.asc_insert _ List.Pairwise.nil, by simp [BSet.insert], fun i => ?_⟩
    rw [BSet.mem_insert]
    constructor
    · rintro (h | h)
      · exact ⟨k, Or.inr rfl, (prefix_snoc_iff hp hl).2 h⟩
      · simp at h
    · rintro ⟨k', h' | rfl, hi⟩
      · exact absurd hb (hx k' h' ((List.prefix_append _ _).trans hi)).1
      · exact Or.inl ((prefix_snoc_iff hp hl).1 hi)
  | some (.branch m' ch), hx =>
    obtain ⟨_, hm, ha, hne, hc⟩ := hx
    refine ⟨hb, hm, BSet.asc_insert _ ha, ?_, fun i => ?_⟩
    · exact List.ne_nil_of_mem ((BSet.mem_insert _ _ _).2 (Or.inl rfl))
    · rw [BSet.mem_insert, hc]
      constructor
      · rintro (h | ⟨k', h', hi⟩)
        · exact ⟨k, Or.inr rfl, (prefix_snoc_iff hp hl).2 h⟩
        · exact ⟨k', Or.inl h', hi⟩
      · rintro ⟨k', h' | rfl, hi⟩
        · exact Or.inr ⟨k', h', hi⟩
        · exact Or.inl ((prefix_snoc_iff hp hl).1 hi)
  | some (.extension e), hx =>
    obtain ⟨u, hu, _⟩ := hx
    exact absurd hb hu.1
  | some (.suffix e sfx), hx =>
    obtain ⟨u, hu, _⟩ := hx
    exact absurd hb hu.1

/-- An opening at a path the new key does not open. -/
theorem opening_other {C : Crypto F G} {m : KV} {K : Key → Prop} {k : Key} {p : Path} {x : Option (Openings F G)}
    (hx : OpeningOk C m K p x) (h1 : p <+: k.stem.1 → ¬ IsBranch m p)
    (h2 : p <+: k.stem.1 → ∀ u, ¬ TermStem m p u) :
    OpeningOk C m (fun k' => K k' ∨ k' = k) p x := by
  match x, hx with
  | none, hx =>
    intro k' hk' hp
    rcases hk' with h | rfl
    · exact hx k' h hp
    · exact ⟨h1 hp, h2 hp⟩
  | some (.branch m' ch), hx =>
    obtain ⟨hb, hm, ha, hne, hc⟩ := hx
    refine ⟨hb, hm, ha, hne, fun i => ?_⟩
    rw [hc]
    constructor
    · rintro ⟨k', h', hi⟩; exact ⟨k', Or.inl h', hi⟩
    · rintro ⟨k', h' | rfl, hi⟩
      · exact ⟨k', h', hi⟩
      · exact absurd hb (h1 ((List.prefix_append _ _).trans hi))
  | some (.extension e), hx =>
    obtain ⟨u, hu, he, ⟨k0, hk0, hp0⟩, hno⟩ := hx
    refine ⟨u, hu, he, ⟨k0, Or.inl hk0, hp0⟩, ?_⟩
    rintro k' (h' | rfl)
    · exact hno k' h'
    · rintro rfl
      exact h2 hu.2.2.2 _ hu
  | some (.suffix e sfx), hx =>
    obtain ⟨u, hu, he, ⟨k0, hk0, hp0⟩, ha, hs⟩ := hx
    refine ⟨u, hu, he, ⟨k0, Or.inl hk0, hp0⟩, ha, fun x => ?_⟩
    rw [hs]
    constructor
    · rintro ⟨k', h', hi⟩; exact ⟨k', Or.inl h', hi⟩
    · rintro ⟨k', h' | rfl, hi, hx⟩
      · exact ⟨k', h', hi, hx⟩
      · subst hi
        exact absurd hu (h2 hu.2.2.2 _)

theorem ext_update {m : KV} {K : Key → Prop} {k : Key} {β : Type} (f : Stem → β) {b : BMap Stem β} (hs : BMap.Sorted b)
    (h : ∀ s, BMap.get s b = if ∃ k, K k ∧ k.stem = s then some (f s) else none) (s : Stem) :
    BMap.get s (BMap.insert k.stem (f k.stem) b) = if ∃ k', (K k' ∨ k' = k) ∧ k'.stem = s then some (f s) else none := by
  rw [BMap.get_insert _ _ _ hs, h]
  by_cases hk : s = k.stem
  · subst hk
    rw [if_pos rfl, if_pos ⟨k, Or.inr rfl, rfl⟩]
  · rw [if_neg hk]
    have : (∃ k, K k ∧ k.stem = s) ↔ ∃ k', (K k' ∨ k' = k) ∧ k'.stem = s := by
      constructor
      · rintro ⟨k', h', e⟩; exact ⟨k', Or.inl h', e⟩
      · rintro ⟨k', h' | rfl, e⟩
        · exact ⟨k', h', e⟩
        · exact absurd e.symm hk
    simp only [this]

theorem stateAt_self {m : KV} {k : Key} : (stateAt m k k.stem).value = m k ∧ (stateAt m k k.stem).otherStem = none ∧
    (stateAt m k k.stem).ext = .present ∧ stateAt m k k.stem ≠ .empty := by
  unfold stateAt
  rw [if_pos rfl]
  cases m k <;> simp [KeyState.value, KeyState.otherStem, KeyState.ext]

variable [DecidableEq F] [DecidableEq G]

theorem collectOne_spec {C : Crypto F G} {m : KV} {K : Key → Prop} {od : OpeningData F G} (hI : Inv C m K od) (k : Key) :
    ∃ od', collectOne (specDb C m) od k = .ok od' ∧ Inv C m (fun k' => K k' ∨ k' = k) od' := by
  have hle := termLen_le m k.stem
  have hpos := termLen_pos m k.stem
  -- branch openings
  obtain ⟨o', hins, hsort, hget⟩ := insertBranchOpenings_spec C m k.stem od.openings hI.sorted (termLen m k.stem) hle
    (fun i hi x hx => by
      have h1 := hI.opening (k.stem.1.take i)
      rw [hx] at h1
      have hb : IsBranch m (k.stem.1.take i) := isBranch_of_lt hi
      match x, h1 with
      | .branch m' ch, _ => exact ⟨m', ch, rfl⟩
      | .extension e, ⟨u, hu, _⟩ => exact absurd hb hu.1
      | .suffix e s, ⟨u, hu, _⟩ => exact absurd hb hu.1)
  have hbr : ∀ p, p <+: k.stem.1 → (p.length < termLen m k.stem ↔ IsBranch m p) := fun p hp => (isBranch_prefix_iff hp).symm
  by_cases hu : ∃ u, Under m (termPath m k.stem) u
  · obtain ⟨u, hu⟩ := hu
    have ht := termStem_termPath hu
    have htl := termPath_length m k.stem
    -- the opening at the end of the path before this key
    have hgt : BMap.get (termPath m k.stem) o' = BMap.get (termPath m k.stem) od.openings := by
      rw [hget, if_neg]
      rw [htl]; omega
    have hfind := findKeyPath_spec C m k
    rw [keyPathSpec_stem hu] at hfind
    have hins' : insertBranchOpenings od.openings (branchNodes C m k.stem (termLen m k.stem) ++
        [(termPath m k.stem, k.suffix, .stem (stemMeta C m u))]) = .ok o' := by
      rw [insertBranchOpenings_append, hins]
      rfl
    have hdv : (asU8 (termLen m k.stem + 1)).val = termLen m k.stem + 1 := asU8_val (by omega)
    -- paths other than the last
    have hother : ∀ p, p ≠ termPath m k.stem →
        OpeningOk C m (fun k' => K k' ∨ k' = k) p (BMap.get p o') := by
      intro p hp
      rw [hget]
      by_cases hc : p <+: k.stem.1 ∧ p.length < termLen m k.stem
      · rw [if_pos hc]
        exact addChild_ok (hI.opening p) hc.1 ((hbr p hc.1).1 hc.2)
      · rw [if_neg hc]
        exact opening_other (hI.opening p) (fun h hb => hc ⟨h, (hbr p h).2 hb⟩)
          (fun h v hv => hp (hv.termPath h).symm)
    by_cases hk : u = k.stem
    · -- the key's own stem
      subst hk
      have hst := stateAt_self (m := m) (k := k)
      have hkey : ∃ o2, insertSuffixOpening o' (termPath m k.stem) ⟨k.stem, .stem (stemMeta C m k.stem)⟩ (k.suffix, m k)
            = .ok o2 ∧ BMap.Sorted o2 ∧ ∀ p, OpeningOk C m (fun k' => K k' ∨ k' = k) p (BMap.get p o2) := by
        have hprev := hI.opening (termPath m k.stem)
        unfold insertSuffixOpening
        rw [hgt]
        have hexp : extOf m k.stem = .present := by rw [extOf, if_pos hu.1]
        match hx : BMap.get (termPath m k.stem) od.openings, hprev with
        | none, hprev =>
          refine ⟨_, rfl, BMap.sorted_insert _ _ hsort, fun p => ?_⟩
          rw [BMap.get_insert _ _ _ hsort]
          by_cases hp : p = termPath m k.stem
          · subst hp
            rw [if_pos rfl]
            refine ⟨k.stem, ht, rfl, ⟨k, Or.inr rfl, rfl⟩, BSet.asc_insert _ List.Pairwise.nil, fun x => ?_⟩
            rw [BSet.mem_insert]
            constructor
            · rintro (h | h)
              · exact ⟨k, Or.inr rfl, rfl, h⟩
              · simp at h
            · rintro ⟨k', h' | rfl, he, hx'⟩
              · exact absurd ht ((hprev k' h' (by rw [he]; exact termPath_prefix m k.stem)).2 _)
              · exact Or.inl hx'
          · rw [if_neg hp]; exact hother p hp
        | some (.branch _ _), ⟨hb, _⟩ => exact absurd hb ht.1
        | some (.extension e'), ⟨v, hv, he, _, hno⟩ =>
          have hvk := hv.unique ht
          subst hvk
          simp only [he, if_true]
          refine ⟨_, rfl, BMap.sorted_insert _ _ hsort, fun p => ?_⟩
          rw [BMap.get_insert _ _ _ hsort]
          by_cases hp : p = termPath m k.stem
          · subst hp
            rw [if_pos rfl]
            refine ⟨k.stem, ht, rfl, ⟨k, Or.inr rfl, rfl⟩, BSet.asc_insert _ List.Pairwise.nil, fun x => ?_⟩
            rw [BSet.mem_insert]
            constructor
            · rintro (h | h)
              · exact ⟨k, Or.inr rfl, rfl, h⟩
              · simp at h
            · rintro ⟨k', h' | rfl, he', hx'⟩
              · exact absurd he' (hno k' h')
              · exact Or.inl hx'
          · rw [if_neg hp]; exact hother p hp
        | some (.suffix e' s), ⟨v, hv, he, _, ha, hs⟩ =>
          have hvk := hv.unique ht
          subst hvk
          simp only [he, if_true]
          refine ⟨_, rfl, BMap.sorted_insert _ _ hsort, fun p => ?_⟩
          rw [BMap.get_insert _ _ _ hsort]
          by_cases hp : p = termPath m k.stem
          · subst hp
            rw [if_pos rfl]
            refine ⟨k.stem, ht, rfl, ⟨k, Or.inr rfl, rfl⟩, BSet.asc_insert _ ha, fun x => ?_⟩
            rw [BSet.mem_insert, hs]
            constructor
            · rintro (h | ⟨k', h', he', hx'⟩)
              · exact ⟨k, Or.inr rfl, rfl, h⟩
              · exact ⟨k', Or.inl h', he', hx'⟩
            · rintro ⟨k', h' | rfl, he', hx'⟩
              · exact Or.inr ⟨k', h', he', hx'⟩
              · exact Or.inl hx'
          · rw [if_neg hp]; exact hother p hp
      obtain ⟨o2, ho2, hso2, hok2⟩ := hkey
      have hexp : extOf m k.stem = .present := by rw [extOf, if_pos hu.1]
      refine ⟨⟨o2, BMap.insert k.stem .present od.extByStem, BMap.insert k.stem (asU8 (termLen m k.stem)) od.depthByStem⟩, ?_,
        ⟨hso2, hok2, BMap.sorted_insert _ _ hI.extSorted, ?_, BMap.sorted_insert _ _ hI.depthSorted, ?_⟩⟩
      · simp only [collectOne, hfind, hins', bind, Except.bind, unwrap, List.getLast?_append, List.getLast?_singleton,
          Option.or, hdv]
        have hdep : asU8 (termLen m k.stem + 1 - 1) = asU8 (termLen m k.stem) := rfl
        cases hsa : stateAt m k k.stem with
        | empty => exact absurd hsa hst.2.2.2
        | differentStem s => rw [hsa] at hst; simp [KeyState.otherStem] at hst
        | found v =>
          rw [hsa] at hst
          simp only [KeyState.otherStem, KeyState.ext, hst.1]
          rw [if_neg (by omega)]
          simp only [ho2, hdep]
        | stemFound =>
          rw [hsa] at hst
          simp only [KeyState.otherStem, KeyState.ext, hst.1]
          rw [if_neg (by omega)]
          simp only [ho2, hdep]
      · rw [← hexp]; exact ext_update (m := m) (extOf m) hI.extSorted hI.ext
      · exact ext_update (m := m) (fun s => asU8 (termLen m s)) hI.depthSorted hI.depth
    · -- a different stem
      have hns : ¬ HasStem m k.stem := fun h => hk (ht.unique (termStem_self h))
      have hexp : extOf m k.stem = .differentStem := by rw [extOf, if_neg hns, if_pos ⟨u, hu⟩]
      have hsa : stateAt m k u = .differentStem u := by rw [stateAt, if_neg hk]
      refine ⟨⟨insertExtOpening o' (termPath m k.stem) ⟨u, .stem (stemMeta C m u)⟩,
        BMap.insert k.stem .differentStem od.extByStem, BMap.insert k.stem (asU8 (termLen m k.stem)) od.depthByStem⟩, ?_, ?_⟩
      · simp only [collectOne, hfind, hins', bind, Except.bind, unwrap, List.getLast?_append, List.getLast?_singleton,
          Option.or, hdv, hsa, KeyState.otherStem, KeyState.ext]
        rw [if_neg (by omega)]
        rfl
      · have hprev := hI.opening (termPath m k.stem)
        have hcomb : BMap.Sorted (insertExtOpening o' (termPath m k.stem) ⟨u, .stem (stemMeta C m u)⟩) ∧
            ∀ p, OpeningOk C m (fun k' => K k' ∨ k' = k) p
              (BMap.get p (insertExtOpening o' (termPath m k.stem) ⟨u, .stem (stemMeta C m u)⟩)) := by
          unfold insertExtOpening
          rw [hgt]
          match hx : BMap.get (termPath m k.stem) od.openings, hprev with
          | none, hprev =>
            refine ⟨BMap.sorted_insert _ _ hsort, fun p => ?_⟩
            rw [BMap.get_insert _ _ _ hsort]
            by_cases hp : p = termPath m k.stem
            · subst hp
              rw [if_pos rfl]
              refine ⟨u, ht, rfl, ⟨k, Or.inr rfl, termPath_prefix m k.stem⟩, ?_⟩
              rintro k' (h' | rfl) he
              · exact absurd ht ((hprev k' h' (by rw [he]; exact hu.2)).2 _)
              · exact hk he.symm
            · rw [if_neg hp]; exact hother p hp
          | some (.branch _ _), ⟨hb, _⟩ => exact absurd hb ht.1
          | some (.extension e'), ⟨v, hv, he, _, hno⟩ =>
            refine ⟨hsort, fun p => ?_⟩
            by_cases hp : p = termPath m k.stem
            · subst hp
              rw [hgt, hx]
              refine ⟨v, hv, he, ⟨k, Or.inr rfl, termPath_prefix m k.stem⟩, ?_⟩
              rintro k' (h' | rfl)
              · exact hno k' h'
              · rw [hv.unique ht]; exact fun e => hk e.symm
            · exact hother p hp
          | some (.suffix e' s), ⟨v, hv, he, ⟨k0, hk0, hk0'⟩, ha, hs⟩ =>
            refine ⟨hsort, fun p => ?_⟩
            by_cases hp : p = termPath m k.stem
            · subst hp
              rw [hgt, hx]
              refine ⟨v, hv, he, ⟨k0, Or.inl hk0, hk0'⟩, ha, fun x => ?_⟩
              rw [hs]
              constructor
              · rintro ⟨k', h', he', hx'⟩; exact ⟨k', Or.inl h', he', hx'⟩
              · rintro ⟨k', h' | rfl, he', hx'⟩
                · exact ⟨k', h', he', hx'⟩
                · exact absurd ((hv.unique ht).symm.trans he'.symm) hk
            · exact hother p hp
        refine ⟨hcomb.1, hcomb.2, BMap.sorted_insert _ _ hI.extSorted, ?_, BMap.sorted_insert _ _ hI.depthSorted, ?_⟩
        · rw [← hexp]; exact ext_update (m := m) (extOf m) hI.extSorted hI.ext
        · exact ext_update (m := m) (fun s => asU8 (termLen m s)) hI.depthSorted hI.depth
  · -- empty slot
    have hu' : ∀ u, ¬ Under m (termPath m k.stem) u := fun u h => hu ⟨u, h⟩
    have hfind := findKeyPath_spec C m k
    rw [keyPathSpec_empty hu'] at hfind
    have hns : ¬ HasStem m k.stem := fun h => hu' _ (termStem_self h).2.2
    have hexp : extOf m k.stem = .none := by rw [extOf, if_neg hns, if_neg hu]
    have hlast : ∃ l, (branchNodes C m k.stem (termLen m k.stem)).getLast? = some l := by
      obtain ⟨n, hn⟩ : ∃ n, termLen m k.stem = n + 1 := ⟨termLen m k.stem - 1, by omega⟩
      rw [hn, branchNodes_succ]
      exact ⟨_, by simp; rfl⟩
    obtain ⟨l, hl⟩ := hlast
    refine ⟨⟨o', BMap.insert k.stem .none od.extByStem, BMap.insert k.stem (asU8 (termLen m k.stem)) od.depthByStem⟩, ?_,
      ⟨hsort, fun p => ?_, BMap.sorted_insert _ _ hI.extSorted, ?_, BMap.sorted_insert _ _ hI.depthSorted, ?_⟩⟩
    · simp only [collectOne, hfind, hins, bind, Except.bind, unwrap, hl]
    · show OpeningOk C m _ p (BMap.get p o')
      rw [hget]
      by_cases hc : p <+: k.stem.1 ∧ p.length < termLen m k.stem
      · rw [if_pos hc]
        exact addChild_ok (hI.opening p) hc.1 ((hbr p hc.1).1 hc.2)
      · rw [if_neg hc]
        exact opening_other (hI.opening p) (fun h hb => hc ⟨h, (hbr p h).2 hb⟩)
          (fun h v hv => hu' v (by rw [hv.termPath h]; exact hv.2.2))
    · rw [← hexp]; exact ext_update (m := m) (extOf m) hI.extSorted hI.ext
    · exact ext_update (m := m) (fun s => asU8 (termLen m s)) hI.depthSorted hI.depth

omit [DecidableEq F] [DecidableEq G] in
theorem inv_empty (C : Crypto F G) (m : KV) : Inv C m (fun _ => False) ⟨[], [], []⟩ := by
  refine ⟨List.Pairwise.nil, fun p => ?_, List.Pairwise.nil, fun s => ?_, List.Pairwise.nil, fun s => ?_⟩
  · show OpeningOk C m _ p none
    intro k hk; exact hk.elim
  · simp [BMap.get]
  · simp [BMap.get]

theorem collect_spec (C : Crypto F G) (m : KV) : ∀ (ks : List Key) {K : Key → Prop} {od : OpeningData F G}, Inv C m K od →
    ∃ od', collectOpeningData (specDb C m) od ks = .ok od' ∧ Inv C m (fun k => K k ∨ k ∈ ks) od'
  | [], K, od, h => ⟨od, rfl, by simpa using h⟩
  | k :: ks, K, od, h => by
    obtain ⟨od1, e1, h1⟩ := collectOne_spec h k
    obtain ⟨od2, e2, h2⟩ := collect_spec C m ks h1
    refine ⟨od2, ?_, ?_⟩
    · simp only [collectOpeningData, e1, bind, Except.bind]; exact e2
    · have : (fun k' => (K k' ∨ k' = k) ∨ k' ∈ ks) = fun k' => K k' ∨ k' ∈ k :: ks := by
        funext k'; simp [or_assoc]
      rwa [this] at h2

end Verif.Proof
