import Verif.Props.Size

/-!
# C76: what a trie takes in the database

How many rows of each kind there are after any history of inserts, and how many of them one insert changes.
-/

set_option autoImplicit false

namespace Verif.Props
open Verif Verif.Spec Verif.Trie Verif.Proof
open scoped Classical

variable {F G : Type} [Field F] [AddCommGroup G] [Module F G]

/-- The paths shared by two stems of a set, without the root. -/
def SharedPath (S : Finset Stem) (p : Path) : Prop := p ≠ [] ∧ ∃ s ∈ S, ∃ t ∈ S, s ≠ t ∧ p <+: s.1 ∧ p <+: t.1

theorem prefix_eq_take {p : Path} {s : Stem} (h : p <+: s.1) : p = s.1.take p.length := List.prefix_iff_eq_take.1 h

theorem prefix_dropLast {p q u : Path} (hp : p <+: u) (hq : q <+: u) (h : p.length < q.length) : p <+: q.dropLast :=
  List.prefix_of_prefix_length_le hp ((List.dropLast_prefix q).trans hq) (by rw [List.length_dropLast]; omega)

theorem shared_length {p : Path} {s t : Stem} (hne : s ≠ t) (hs : p <+: s.1) (ht : p <+: t.1) : p.length ≤ 30 := by
  by_contra h
  have e : ∀ u : Stem, p <+: u.1 → p = u.1 := fun u hu => hu.eq_of_length (by
    have := hu.length_le
    rw [u.2] at this ⊢
    omega)
  exact hne (Subtype.ext ((e s hs).symm.trans (e t ht)))

/-- A set of stems shares at most 30 paths, besides the root, for each stem but the first. -/
theorem shared_card (S : Finset Stem) : ∃ T : Finset Path, (∀ p, SharedPath S p → p ∈ T) ∧ T.card ≤ 30 * (S.card - 1) := by
  induction S using Finset.induction_on with
  | empty => exact ⟨∅, fun p ⟨_, s, hs, _⟩ => absurd hs (by simp), by simp⟩
  | insert t S ht ih =>
    obtain ⟨T, h1, h2⟩ := ih
    rcases S.eq_empty_or_nonempty with rfl | hne
    · refine ⟨∅, fun p ⟨_, s, hs, u, hu, hsu, _⟩ => ?_, by simp⟩
      simp only [insert_empty_eq, Finset.mem_singleton] at hs hu
      exact absurd (hs.trans hu.symm) hsu
    refine ⟨T ∪ (Finset.range 30).image fun j => t.1.take (j + 1), fun p hp => ?_, ?_⟩
    · obtain ⟨h0, s, hs, u, hu, hsu, h3, h4⟩ := hp
      have hlen := shared_length hsu h3 h4
      have hpos : 0 < p.length := List.length_pos_iff.2 h0
      have key : p <+: t.1 → p ∈ T ∪ (Finset.range 30).image fun j => t.1.take (j + 1) := fun h => by
        refine Finset.mem_union_right _ (Finset.mem_image.2 ⟨p.length - 1, by simp; omega, ?_⟩)
        rw [Nat.sub_add_cancel hpos]
        exact (prefix_eq_take h).symm
      rcases Finset.mem_insert.1 hs with rfl | hs
      · exact key h3
      rcases Finset.mem_insert.1 hu with rfl | hu
      · exact key h4
      exact Finset.mem_union_left _ (h1 p ⟨h0, s, hs, u, hu, hsu, h3, h4⟩)
    · refine (Finset.card_union_le _ _).trans ?_
      have h3 := Finset.card_image_le (s := Finset.range 30) (f := fun j => t.1.take (j + 1))
      rw [Finset.card_range] at h3
      have h4 := Finset.card_pos.2 hne
      rw [Finset.card_insert_of_notMem ht]
      omega

theorem stored_mem {l : List (Key × Value)} {k : Key} : lastWrite l k ≠ none ↔ k ∈ l.map Prod.fst := by
  simp only [lastWrite, ne_eq, Option.map_eq_none_iff, List.find?_eq_none, List.mem_reverse, decide_eq_true_eq, List.mem_map]
  push Not
  exact ⟨fun ⟨x, h1, h2⟩ => ⟨x, h1, h2⟩, fun ⟨x, h1, h2⟩ => ⟨x, h1, h2⟩⟩

theorem stored_stem {l : List (Key × Value)} {s : Stem} : HasStem (lastWrite l) s ↔ s ∈ stemSet (l.map Prod.fst) := by
  simp only [HasStem, stored_mem, stemSet, List.mem_toFinset]
  constructor
  · rintro ⟨b, h⟩
    exact List.mem_map.2 ⟨_, h, mkKey_stem s b⟩
  · intro h
    obtain ⟨k, hk, rfl⟩ := List.mem_map.1 h
    exact ⟨k.suffix, by rwa [mkKey_stem_suffix]⟩

/-- C76.  After any history there is a leaf row for every key written, a row and exactly one pointer for every stem written, and no
other leaf, stem row or pointer.  The branch rows are the root and at most 30 for each stem but the first. -/
theorem C76_rows (C : Crypto F G) (l : List (Key × Value)) {db : MemoryDb F G} (hb : build C l = .ok db) :
    (∀ k, db.leaf k ≠ none ↔ k ∈ l.map Prod.fst) ∧
    (∀ s, db.stem s ≠ none ↔ s ∈ (l.map Prod.fst).map Key.stem) ∧
    (∀ s, s ∈ (l.map Prod.fst).map Key.stem → ∃! p, db.branch p = some (.stem s)) ∧
    (∀ s p, db.branch p = some (.stem s) → s ∈ (l.map Prod.fst).map Key.stem) ∧
    (∃ b, db.branch [] = some (.branch b)) ∧
    ∃ T : Finset Path, (∀ p b, db.branch p = some (.branch b) → p ∈ T) ∧
      T.card ≤ 1 + 30 * (((l.map Prod.fst).map Key.stem).toFinset.card - 1) := by
  rw [build_iff] at hb
  subst hb
  have hst : ∀ s, HasStem (lastWrite l) s ↔ s ∈ (l.map Prod.fst).map Key.stem := fun s => by
    rw [stored_stem, stemSet, List.mem_toFinset]
  refine ⟨fun k => stored_mem, fun s => ?_, fun s hs => ?_, fun s p h => ?_, ⟨_, node_branch (Or.inl rfl)⟩, ?_⟩
  · rw [← hst]
    show (if HasStem (lastWrite l) s then some _ else none) ≠ none ↔ _
    by_cases h : HasStem (lastWrite l) s
    · simp [h]
    · simp [h]
  · have h := termStem_self ((hst s).2 hs)
    refine ⟨termPath (lastWrite l) s, node_stem h.1 h.2.2 h.2.1, fun p hp => ?_⟩
    have hp : node C (lastWrite l) p = some (.stem s) := hp
    obtain ⟨h1, h2, h3⟩ := node_eq_stem hp
    have hp : TermStem (lastWrite l) p s := ⟨h1, h3, h2⟩
    have a := hp.2.2.2
    have b := h.2.2.2
    rcases List.prefix_or_prefix_of_prefix a b with c | c
    · by_contra hne
      refine hp.not_proper h.2.1 ?_
      have hlt : p.length < (termPath (lastWrite l) s).length :=
        lt_of_le_of_ne c.length_le fun e => hne (c.eq_of_length e)
      exact prefix_dropLast a b hlt
    · by_contra hne
      refine h.not_proper hp.2.1 ?_
      have hlt : (termPath (lastWrite l) s).length < p.length :=
        lt_of_le_of_ne c.length_le fun e => hne (c.eq_of_length e).symm
      exact prefix_dropLast b a hlt
  · have h : node C (lastWrite l) p = some (.stem s) := h
    exact (hst s).1 (node_eq_stem h).2.1.1
  · obtain ⟨T, h1, h2⟩ := shared_card (((l.map Prod.fst).map Key.stem).toFinset)
    refine ⟨insert [] T, fun p b h => ?_, (Finset.card_insert_le _ _).trans (by omega)⟩
    have h : node C (lastWrite l) p = some (.branch b) := h
    rcases (node_eq_branch h).1 with rfl | ⟨s, t, hne, hs, ht⟩
    · simp
    · by_cases h0 : p = []
      · simp [h0]
      refine Finset.mem_insert_of_mem (h1 p ⟨h0, s, ?_, t, ?_, hne, hs.2, ht.2⟩)
      · rw [List.mem_toFinset]; exact (hst s).1 hs.1
      · rw [List.mem_toFinset]; exact (hst t).1 ht.1

/-- C76.  Two stems that differ in the last byte only take all the 31 branch rows the bound allows. -/
theorem C76_bound_attained (C : Crypto F G) {k k' : Key} (hne : k.stem ≠ k'.stem) (h30 : k.stem.1.take 30 = k'.stem.1.take 30)
    (v v' : Value) {db : MemoryDb F G} (hb : build C [(k, v), (k', v')] = .ok db) :
    ∃ T : Finset Path, T.card = 31 ∧ ∀ p ∈ T, ∃ b, db.branch p = some (.branch b) := by
  rw [build_iff] at hb
  subst hb
  have hst : ∀ s, HasStem (lastWrite [(k, v), (k', v')]) s ↔ s = k.stem ∨ s = k'.stem := fun s => by
    rw [stored_stem, stemSet, List.mem_toFinset]
    simp
  refine ⟨(Finset.range 31).image fun j => k.stem.1.take j, ?_, fun p hp => ?_⟩
  · rw [Finset.card_image_of_injOn, Finset.card_range]
    intro i hi j hj h
    have h := congrArg List.length h
    simp only [List.length_take, k.stem.2] at h
    simp only [Finset.coe_range, Set.mem_Iio] at hi hj
    omega
  · obtain ⟨j, hj, rfl⟩ := Finset.mem_image.1 hp
    have hj : j ≤ 30 := by
      have := Finset.mem_range.1 hj
      omega
    refine ⟨_, node_branch (Or.inr ⟨k.stem, k'.stem, hne, ⟨(hst _).2 (Or.inl rfl), List.take_prefix _ _⟩,
      ⟨(hst _).2 (Or.inr rfl), ?_⟩⟩)⟩
    have : k.stem.1.take j = (k.stem.1.take 30).take j := by rw [List.take_take, Nat.min_eq_left hj]
    rw [this, h30, List.take_take]
    exact List.take_prefix _ _

/-- C76.  One insert changes at most 35 rows, however large the trie: the leaf of the key, the row of its stem, and 33 of the table of
branches - the prefixes of the stem and the new pointer to a displaced stem. -/
theorem C76_insert_rows (C : Crypto F G) (l : List (Key × Value)) {db : MemoryDb F G} (hb : build C l = .ok db) (k : Key) (v : Value) :
    ∃ db', Trie.insert C db [(k, v)] = .ok db' ∧ (∀ k', k' ≠ k → db'.leaf k' = db.leaf k') ∧
      (∀ s, s ≠ k.stem → db'.stem s = db.stem s) ∧
      ∃ T : Finset Path, T.card ≤ 33 ∧ ∀ p, p ∉ T → db'.branch p = db.branch p := by
  obtain ⟨db', h1, h2, h3, -⟩ := C10_insert_is_local C l hb k v
  refine ⟨db', h1, h2, h3, ?_⟩
  rw [build_iff] at hb
  subst hb
  set m := lastWrite l with hm
  rw [insert_spec] at h1
  cases h1
  set m' := Function.update m k (some v) with hm'
  have hfree : ∀ p : Path, ¬ p <+: k.stem.1 → node C m' p ≠ node C m p →
      ∃ u, Under m p u ∧ p.dropLast <+: k.stem.1 ∧ ¬ IsBranch m p.dropLast := by
    intro p hp hne
    by_contra hcon
    push Not at hcon
    refine hne (node_update_off C hp fun hbr => ?_)
    by_cases hu : ∃ u, Under m p u
    · obtain ⟨u, hu⟩ := hu
      left
      by_cases hk : p.dropLast <+: k.stem.1
      · exact hcon u hu hk
      · rwa [isBranch_update_off hk] at hbr
    · push Not at hu
      exact Or.inr hu
  have huniq : ∀ p q : Path, ¬ p <+: k.stem.1 → ¬ q <+: k.stem.1 → node C m' p ≠ node C m p → node C m' q ≠ node C m q → p = q := by
    have half : ∀ p q : Path, ¬ p <+: k.stem.1 → ¬ q <+: k.stem.1 → node C m' p ≠ node C m p → node C m' q ≠ node C m q →
        p.dropLast <+: q.dropLast → p = q := by
      intro p q hp hq h4 h5 hpq
      obtain ⟨u, hu, hku, hbu⟩ := hfree p hp h4
      obtain ⟨w, hw, hkw, hbw⟩ := hfree q hq h5
      have hw' : Under m p.dropLast w := ⟨hw.1, hpq.trans ((List.dropLast_prefix q).trans hw.2)⟩
      have hu' : Under m p.dropLast u := ⟨hu.1, (List.dropLast_prefix p).trans hu.2⟩
      have e : w = u := Under.unique (fun h => hbu (Or.inr h)) hw' hu'
      subst e
      have hlen := hpq.length_le
      rw [List.length_dropLast, List.length_dropLast] at hlen
      have hp0 : p ≠ [] := fun h => hp (h ▸ List.nil_prefix)
      have hq0 : q ≠ [] := fun h => hq (h ▸ List.nil_prefix)
      have hp1 := List.length_pos_iff.2 hp0
      have hq1 := List.length_pos_iff.2 hq0
      by_cases hlt : p.length < q.length
      · exfalso
        apply hp
        exact (prefix_dropLast hu.2 hw.2 hlt).trans hkw
      · rw [prefix_eq_take hu.2, prefix_eq_take hw.2]
        congr 1
        omega
    intro p q hp hq h4 h5
    obtain ⟨_, _, hku, _⟩ := hfree p hp h4
    obtain ⟨_, _, hkw, _⟩ := hfree q hq h5
    rcases List.prefix_or_prefix_of_prefix hku hkw with h | h
    · exact half p q hp hq h4 h5 h
    · exact (half q p hq hp h5 h4 h).symm
  obtain ⟨x, hx⟩ : ∃ x : Path, ∀ p, ¬ p <+: k.stem.1 → node C m' p ≠ node C m p → p = x := by
    by_cases h : ∃ p, ¬ p <+: k.stem.1 ∧ node C m' p ≠ node C m p
    · obtain ⟨x, h6, h7⟩ := h
      exact ⟨x, fun p h8 h9 => huniq p x h8 h6 h9 h7⟩
    · push Not at h
      exact ⟨[], fun p h8 h9 => absurd (h p h8) h9⟩
  refine ⟨insert x ((Finset.range 32).image fun j => k.stem.1.take j), ?_, fun p hp => ?_⟩
  · refine (Finset.card_insert_le _ _).trans ?_
    have := Finset.card_image_le (s := Finset.range 32) (f := fun j => k.stem.1.take j)
    rw [Finset.card_range] at this
    omega
  · show node C m' p = node C m p
    by_contra hne
    apply hp
    by_cases hk : p <+: k.stem.1
    · refine Finset.mem_insert_of_mem (Finset.mem_image.2 ⟨p.length, ?_, (prefix_eq_take hk).symm⟩)
      have := hk.length_le
      rw [k.stem.2] at this
      rw [Finset.mem_range]
      omega
    · exact Finset.mem_insert.2 (Or.inl (hx p hk hne))

/-- Two keys of one stem and one of another: two stem rows, at most 31 branch rows. -/
example (C : Crypto F G) : ∃ db, build C [(soloKey, valOf 7), (mkKey soloKey.stem 9, valOf 8), (twinKey, valOf 9)] = .ok db ∧
    db.leaf (mkKey soloKey.stem 9) ≠ none ∧ db.stem twinKey.stem ≠ none ∧
    ∃ T : Finset Path, (∀ p b, db.branch p = some (.branch b) → p ∈ T) ∧ T.card ≤ 31 := by
  refine ⟨_, build_eq C _, ?_⟩
  obtain ⟨h1, h2, -, -, -, T, h3, h4⟩ := C76_rows C _ (build_eq C [(soloKey, valOf 7), (mkKey soloKey.stem 9, valOf 8), (twinKey, valOf 9)])
  refine ⟨(h1 _).2 (by simp), (h2 _).2 (by simp), T, h3, h4.trans ?_⟩
  have : ((([(soloKey, valOf 7), (mkKey soloKey.stem 9, valOf 8), (twinKey, valOf 9)].map Prod.fst).map Key.stem).toFinset).card ≤ 2 := by
    simp only [List.map_cons, List.map_nil, mkKey_stem, List.toFinset_cons, List.toFinset_nil]
    rw [Finset.insert_idem]
    exact Finset.card_le_two
  omega

end Verif.Props
