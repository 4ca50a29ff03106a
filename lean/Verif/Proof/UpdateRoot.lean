import Verif.Proof.UpdateStems

/-!
# The stateless updater computes the root of the updated map

`updateRoot_spec`: with the hint of an honest proof the updater returns the commitment of the updated map, provided that no
written stem lies in an empty place of the trie; if one does, it panics.
-/

set_option autoImplicit false

namespace Verif.Proof
open Verif.Spec Verif.Trie BOrd
open scoped Classical

variable {F G : Type} [Field F] [AddCommGroup G] [Module F G]

/-! ### The loop over the stems -/

/-- The stems recorded for a prefix. -/
def stemsAt (bp : BMap Path (List Stem)) (p : Path) : List Stem := (BMap.get p bp).getD []

theorem addStem_spec {bp : BMap Path (List Stem)} (hs : BMap.Sorted bp) (p : Path) (s : Stem) :
    BMap.Sorted (addStem p s bp) ∧
    (∀ x, BMap.get x (addStem p s bp) = none ↔ x ≠ p ∧ BMap.get x bp = none) ∧
    (∀ x t, t ∈ stemsAt (addStem p s bp) x ↔ (x = p ∧ t = s) ∨ t ∈ stemsAt bp x) ∧
    ((∀ x, (stemsAt bp x).Nodup) → ∀ x, (stemsAt (addStem p s bp) x).Nodup) := by
  have hg : ∀ x, BMap.get x (addStem p s bp) =
      if x = p then some (if s ∈ stemsAt bp p then stemsAt bp p else stemsAt bp p ++ [s]) else BMap.get x bp :=
    fun x => BMap.get_insert _ _ _ hs
  refine ⟨BMap.sorted_insert _ _ hs, fun x => ?_, fun x t => ?_, fun hn x => ?_⟩
  · rw [hg]
    by_cases h : x = p <;> simp [h]
  · unfold stemsAt at hg ⊢
    rw [hg]
    by_cases h : x = p
    · subst h
      simp only [if_true, Option.getD_some, true_and]
      split
      · rename_i hm
        constructor
        · exact Or.inr
        · rintro (rfl | h)
          · exact hm
          · exact h
      · simp [or_comm]
    · simp [h]
  · have hx := hn x
    unfold stemsAt at hg hx ⊢
    rw [hg]
    by_cases h : x = p
    · subst h
      simp only [if_true, Option.getD_some]
      split
      · exact hx
      · rename_i hm
        rw [List.nodup_append]
        refine ⟨hx, by simp, ?_⟩
        intro a ha b hb e
        rw [List.mem_singleton] at hb
        subst hb
        subst e
        exact hm ha
    · simpa [h] using hx

/-- The state of the loop after the stems in `D`. -/
structure StemsOk (C : Crypto F G) (m U : KV) (D : Stem → Prop) (st : StemState F G) : Prop where
  sortedP : BMap.Sorted st.byPrefix
  sortedS : BMap.Sorted st.byStem
  pnone : ∀ p, BMap.get p st.byPrefix = none ↔ ∀ s, D s → termPath m s ≠ p
  nodup : ∀ p, (stemsAt st.byPrefix p).Nodup
  mem : ∀ p s, s ∈ stemsAt st.byPrefix p ↔
    (D s ∧ termPath m s = p) ∨ (TermStem m p s ∧ ∃ s', D s' ∧ ¬ HasStem m s' ∧ termPath m s' = p)
  comm : ∀ s, BMap.get s st.byStem = if D s ∧ ∃ u, Under m (termPath m s) u then
    some (stemComm C (overlay m U) s, C.h (stemComm C (overlay m U) s)) else none

section
variable {C : Crypto F G} {m U : KV} {K : Key → Prop} {hint : UpdateHint G} (H : HintFor C m K hint)
  (hU : ∀ k, U k ≠ none → K k)
include H hU

theorem stemStep_spec [DecidableEq G] {D : Stem → Prop} {st : StemState F G} (I : StemsOk C m U D st) {s : Stem}
    (hsU : HasStem U s) {u : SuffixUpdate}
    (hu : BMap.Sorted u) (hg : ∀ b, BMap.get b u = (U (mkKey s b)).map fun v => (m (mkKey s b), v)) :
    ∃ st', stemStep C hint s u st = .ok (.ok st') ∧ StemsOk C m U (fun t => t = s ∨ D t) st' := by
  obtain ⟨b, hb⟩ := hsU
  have hd := H.depths _ (hU _ hb)
  rw [mkKey_stem] at hd
  have hv : (asU8 (termLen m s)).val = termLen m s := asU8_val (by have := termLen_le m s; omega)
  have hle : ¬ 31 < termLen m s := by have := termLen_le m s; omega
  obtain ⟨a1, a2, a3, a4⟩ := addStem_spec I.sortedP (termPath m s) s
  have htp : s.1.take (termLen m s) = termPath m s := rfl
  unfold stemStep
  simp only [hd, unwrap, bind, Except.bind, hv, if_neg hle, htp]
  by_cases hp : HasStem m s
  · -- present
    have hx : extOf m s = .present := by rw [extOf, if_pos hp]
    rw [hx]
    simp only [presentComm_spec H hU hp ⟨b, hb⟩ hu hg]
    refine ⟨_, rfl, a1, BMap.sorted_insert _ _ I.sortedS, fun p => ?_, a4 I.nodup, fun p t => ?_, fun t => ?_⟩
    · rw [a2, I.pnone]
      constructor
      · rintro ⟨h1, h2⟩ t (rfl | ht)
        · exact h1.symm
        · exact h2 t ht
      · exact fun h => ⟨(h s (Or.inl rfl)).symm, fun t ht => h t (Or.inr ht)⟩
    · rw [a3, I.mem]
      constructor
      · rintro (⟨rfl, rfl⟩ | ⟨h1, h2⟩ | ⟨h1, s', h2, h3⟩)
        · exact Or.inl ⟨Or.inl rfl, rfl⟩
        · exact Or.inl ⟨Or.inr h1, h2⟩
        · exact Or.inr ⟨h1, s', Or.inr h2, h3⟩
      · rintro (⟨rfl | h1, h2⟩ | ⟨h1, s', rfl | h2, h3⟩)
        · exact Or.inl ⟨h2.symm, rfl⟩
        · exact Or.inr (Or.inl ⟨h1, h2⟩)
        · exact absurd hp h3.1
        · exact Or.inr (Or.inr ⟨h1, s', h2, h3⟩)
    · rw [BMap.get_insert _ _ _ I.sortedS]
      by_cases e : t = s
      · subst e
        rw [if_pos rfl, if_pos ⟨Or.inl rfl, t, hp, termPath_prefix m t⟩]
      · rw [if_neg e, I.comm]
        simp [e]
  · by_cases hu' : ∃ v, Under m (termPath m s) v
    · -- another stem is in the way
      obtain ⟨v, hv'⟩ := hu'
      have hx : extOf m s = .differentStem := by rw [extOf, if_neg hp, if_pos ⟨v, hv'⟩]
      have hT := termStem_termPath hv'
      have hvs : s ≠ v := fun e => hp (e ▸ hv'.1)
      have hoth : BMap.get (termPath m s) hint.otherStems = some v :=
        mkKey_stem s b ▸ H.other _ v (hU _ hb) (by rw [mkKey_stem]; exact hT) (by rw [mkKey_stem]; exact hvs)
      rw [hx]
      simp only [hoth, newSuffixes_spec hu hg C hp]
      obtain ⟨c1, c2, c3, c4⟩ := addStem_spec a1 (termPath m s) v
      have hcomm : newStemComm C s (suffixComm C (overlay m U) s 0, suffixComm C (overlay m U) s 128)
          = stemComm C (overlay m U) s := by
        unfold newStemComm sparseCommit stemComm Crypto.scalarMul frLe
        simp only [List.foldl_cons, List.foldl_nil, zero_add]
      rw [hcomm]
      refine ⟨_, rfl, c1, BMap.sorted_insert _ _ I.sortedS, fun p => ?_, c4 (a4 I.nodup), fun p t => ?_, fun t => ?_⟩
      · rw [c2, a2, I.pnone]
        constructor
        · rintro ⟨_, h1, h2⟩ t (rfl | ht)
          · exact h1.symm
          · exact h2 t ht
        · exact fun h => ⟨(h s (Or.inl rfl)).symm, (h s (Or.inl rfl)).symm, fun t ht => h t (Or.inr ht)⟩
      · rw [c3, a3, I.mem]
        constructor
        · rintro (⟨rfl, rfl⟩ | ⟨rfl, rfl⟩ | ⟨h1, h2⟩ | ⟨h1, s', h2, h3⟩)
          · exact Or.inr ⟨hT, s, Or.inl rfl, hp, rfl⟩
          · exact Or.inl ⟨Or.inl rfl, rfl⟩
          · exact Or.inl ⟨Or.inr h1, h2⟩
          · exact Or.inr ⟨h1, s', Or.inr h2, h3⟩
        · rintro (⟨rfl | h1, h2⟩ | ⟨h1, s', rfl | h2, h3⟩)
          · exact Or.inr (Or.inl ⟨h2.symm, rfl⟩)
          · exact Or.inr (Or.inr (Or.inl ⟨h1, h2⟩))
          · obtain ⟨_, rfl⟩ := h3
            exact Or.inl ⟨rfl, h1.unique hT⟩
          · exact Or.inr (Or.inr (Or.inr ⟨h1, s', h2, h3⟩))
      · rw [BMap.get_insert _ _ _ I.sortedS]
        by_cases e : t = s
        · subst e
          rw [if_pos rfl, if_pos ⟨Or.inl rfl, v, hv'⟩]
        · rw [if_neg e, I.comm]
          simp [e]
    · -- an empty place
      have hx : extOf m s = .none := by rw [extOf, if_neg hp, if_neg hu']
      have hnT : ∀ t, ¬ TermStem m (termPath m s) t := fun t h => hu' ⟨t, h.2.2⟩
      rw [hx]
      refine ⟨_, rfl, a1, I.sortedS, fun p => ?_, a4 I.nodup, fun p t => ?_, fun t => ?_⟩
      · rw [a2, I.pnone]
        constructor
        · rintro ⟨h1, h2⟩ t (rfl | ht)
          · exact h1.symm
          · exact h2 t ht
        · exact fun h => ⟨(h s (Or.inl rfl)).symm, fun t ht => h t (Or.inr ht)⟩
      · rw [a3, I.mem]
        constructor
        · rintro (⟨rfl, rfl⟩ | ⟨h1, h2⟩ | ⟨h1, s', h2, h3⟩)
          · exact Or.inl ⟨Or.inl rfl, rfl⟩
          · exact Or.inl ⟨Or.inr h1, h2⟩
          · exact Or.inr ⟨h1, s', Or.inr h2, h3⟩
        · rintro (⟨rfl | h1, h2⟩ | ⟨h1, s', rfl | h2, h3⟩)
          · exact Or.inl ⟨h2.symm, rfl⟩
          · exact Or.inr (Or.inl ⟨h1, h2⟩)
          · obtain ⟨_, rfl⟩ := h3
            exact absurd h1 (hnT _)
          · exact Or.inr (Or.inr ⟨h1, s', h2, h3⟩)
      · show BMap.get t st.byStem = _
        rw [I.comm]
        by_cases e : t = s
        · subst e
          rw [if_neg (fun h => hu' h.2), if_neg (fun h => hu' h.2)]
        · simp [e]

theorem stemLoop_spec [DecidableEq G] : ∀ (us : BMap Stem SuffixUpdate) (D : Stem → Prop) (st : StemState F G),
    (∀ e ∈ us, HasStem U e.1 ∧ BMap.Sorted e.2 ∧
      ∀ b, BMap.get b e.2 = (U (mkKey e.1 b)).map fun v => (m (mkKey e.1 b), v)) →
    StemsOk C m U D st →
    ∃ st', stemLoop C hint us st = .ok (.ok st') ∧ StemsOk C m U (fun t => t ∈ us.map Prod.fst ∨ D t) st'
  | [], D, st, _, I => ⟨st, rfl, by simpa using I⟩
  | (s, u) :: us, D, st, h, I => by
    obtain ⟨h1, h2, h3⟩ := h _ List.mem_cons_self
    obtain ⟨st1, e1, I1⟩ := stemStep_spec H hU I h1 h2 h3
    obtain ⟨st2, e2, I2⟩ := stemLoop_spec us _ st1 (fun e he => h e (List.mem_cons_of_mem _ he)) I1
    refine ⟨st2, ?_, ?_⟩
    · simp only [stemLoop, e1, bind, Except.bind, e2]
    · have : (fun t => t ∈ ((s, u) :: us).map Prod.fst ∨ D t) = fun t => t ∈ us.map Prod.fst ∨ t = s ∨ D t := by
        funext t
        simp only [List.map_cons, List.mem_cons]
        apply propext
        tauto
      rw [this]
      exact I2

end

theorem stemsOk_nil (C : Crypto F G) (m U : KV) : StemsOk C m U (fun _ => False) ⟨[], []⟩ := by
  refine ⟨List.Pairwise.nil, List.Pairwise.nil, fun p => ?_, fun p => ?_, fun p s => ?_, fun s => ?_⟩
  · simp [BMap.get]
  · simp [stemsAt, BMap.get]
  · simp [stemsAt, BMap.get]
  · simp [BMap.get]

/-- The whole loop. -/
theorem stems_spec [DecidableEq G] {C : Crypto F G} {m U : KV} {K : Key → Prop} {hint : UpdateHint G}
    (H : HintFor C m K hint) (hU : ∀ k, U k ≠ none → K k) {us : BMap Stem SuffixUpdate} (h : UpdatesOk m U us) :
    ∃ st, stemLoop C hint us ⟨[], []⟩ = .ok (.ok st) ∧ StemsOk C m U (HasStem U) st := by
  obtain ⟨st, h1, h2⟩ := stemLoop_spec H hU us (fun _ => False) ⟨[], []⟩ (fun e he => by
    have hg := (BMap.get_eq_some_iff h.sorted).2 (show (e.1, e.2) ∈ us from he)
    refine ⟨?_, h.some _ _ hg⟩
    by_contra hn
    rw [(h.none _).2 hn] at hg
    cases hg) (stemsOk_nil C m U)
  refine ⟨st, h1, ?_⟩
  have : (fun t => t ∈ us.map Prod.fst ∨ False) = HasStem U := by
    funext t
    rw [or_false, BMap.mem_keys_iff]
    apply propext
    rw [ne_eq, h.none, not_not]
  rw [this] at h2
  exact h2

/-! ### The new hash below a prefix -/

theorem opened_term {m : KV} {K : Key → Prop} {p : Path} {u : Stem} (h : TermStem m p u) {k : Key} (hk : K k)
    (hp : p <+: k.stem.1) : Opened m K p := ⟨0, .ext p 0 u k hk h hp (Or.inl rfl)⟩

theorem opened_branch {m : KV} {K : Key → Prop} {y : Path} {i : Byte} (h : IsBranch m y) {k : Key} (hk : K k)
    (hp : y ++ [i] <+: k.stem.1) : Opened m K y := ⟨i, .branch y i k hk h hp⟩

theorem not_opened {m : KV} {K : Key → Prop} {s : Stem} (h : ¬ Occupied m (termPath m s)) : ¬ Opened m K (termPath m s) := by
  intro ho
  rcases opened_cases ho with h1 | h1 | ⟨q, u, i, h1, h2⟩
  · exact termLen_spec m s h1
  · exact h h1
  · have h3 := termPath_dropLast_branch m s
    rw [h2, List.dropLast_concat] at h3
    exact h1.1 h3

section
variable {C : Crypto F G} {m U : KV} {K : Key → Prop} {hint : UpdateHint G} (H : HintFor C m K hint)
  (hU : ∀ k, U k ≠ none → K k) {st : StemState F G} (I : StemsOk C m U (HasStem U) st)
  {ord : Path → List Stem → List Stem} (hord : ∀ p l, (ord p l).Perm l)
include H hU I hord

theorem prefixHash_occupied {p : Path} {u : Stem} (hT : TermStem m p u) {s0 : Stem} (h0 : HasStem U s0)
    (hp0 : termPath m s0 = p) :
    prefixHash C hint.commsByPath st.byStem ord p (stemsAt st.byPrefix p) = .ok (childHash C (overlay m U) p) := by
  have hm := I.mem p
  have hpl := hord p (stemsAt st.byPrefix p)
  have hnd := I.nodup p
  have hcomm : ∀ t, HasStem U t → termPath m t = p → BMap.get t st.byStem =
      some (stemComm C (overlay m U) t, C.h (stemComm C (overlay m U) t)) := by
    intro t ht htp
    rw [I.comm, if_pos ⟨ht, u, by rw [htp]; exact hT.2.2⟩]
  by_cases hx : ∃ s', HasStem U s' ∧ ¬ HasStem m s' ∧ termPath m s' = p
  · obtain ⟨s', h1, h2, h3⟩ := hx
    have hl : ∀ t, t ∈ ord p (stemsAt st.byPrefix p) ↔ Under (overlay m U) p t := by
      intro t
      rw [hpl.mem_iff, hm, Under, hasStem_overlay]
      constructor
      · rintro (⟨ha, hb⟩ | ⟨ha, _⟩)
        · exact ⟨Or.inr ha, hb ▸ termPath_prefix m t⟩
        · exact ⟨Or.inl ha.2.2.1, ha.2.2.2⟩
      · rintro ⟨ha | ha, hb⟩
        · exact Or.inr ⟨⟨hT.1, hT.2.1, ha, hb⟩, s', h1, h2, h3⟩
        · exact Or.inl ⟨ha, hT.termPath hb⟩
    have hus : u ≠ s' := fun e => h2 (e ▸ hT.2.2.1)
    have e1 : u ∈ stemsAt st.byPrefix p := (hm u).2 (Or.inr ⟨hT, s', h1, h2, h3⟩)
    have e2 : s' ∈ stemsAt st.byPrefix p := (hm s').2 (Or.inl ⟨h1, h3⟩)
    have hlen : ¬ (stemsAt st.byPrefix p).length = 1 := by
      intro hlen
      obtain ⟨a, ha⟩ := List.length_eq_one_iff.1 hlen
      rw [ha, List.mem_singleton] at e1 e2
      exact hus (e1.trans e2.symm)
    have hmany : Many (overlay m U) p := ⟨u, s', hus, (hl u).1 (hpl.mem_iff.2 e1), (hl s').1 (hpl.mem_iff.2 e2)⟩
    have hes : elementsOf hint.commsByPath st.byStem p (ord p (stemsAt st.byPrefix p))
        = .ok ((ord p (stemsAt st.byPrefix p)).map fun t => (t, stemComm C (overlay m U) t)) := by
      apply mapM_ok
      intro t ht
      have hut := (hl t).1 ht
      by_cases hU' : HasStem U t
      · simp only [hcomm t hU' (hT.termPath hut.2)]
      · have htm : HasStem m t := (hasStem_overlay.1 hut.1).resolve_right hU'
        have htT : TermStem m p t := ⟨hT.1, hT.2.1, htm, hut.2⟩
        obtain ⟨b, hb⟩ := h0
        have hop : Opened m K p := opened_term hT (hU _ hb) (by rw [mkKey_stem, ← hp0]; exact termPath_prefix m s0)
        have hnone : BMap.get t st.byStem = none := by rw [I.comm, if_neg fun h => hU' h.1]
        simp only [hnone, H.comms _ hop, unwrap, bind, Except.bind, nodeComm_stem htT]
        rw [stemComm_congr C (overlay_same hU')]
    unfold prefixHash
    rw [if_neg hlen, hes]
    simp only [bind, Except.bind, buildSubtree_spec C (overlay m U) hmany.length_lt (hpl.nodup_iff.2 hnd) hl,
      childHash_many hmany]
  · push Not at hx
    have hall : ∀ t, HasStem U t → termPath m t = p → t = u := by
      intro t ht htp
      have : HasStem m t := by
        by_contra hn
        exact hx t ht hn htp
      exact (htp ▸ termStem_self this : TermStem m p t).unique hT
    have hs0 : s0 = u := hall s0 h0 hp0
    subst hs0
    have hl : stemsAt st.byPrefix p = [s0] := by
      apply List.perm_singleton.1
      rw [List.perm_ext_iff_of_nodup hnd (by simp)]
      intro t
      rw [hm, List.mem_singleton]
      constructor
      · rintro (⟨ha, hb⟩ | ⟨_, s', ha, hb, hc⟩)
        · exact hall t ha hb
        · exact absurd hc (hx s' ha hb)
      · rintro rfl
        exact Or.inl ⟨h0, hp0⟩
    rw [hl] at hpl ⊢
    have hun : ∀ t, Under (overlay m U) p t → t = s0 := by
      rintro t ⟨ha, hb⟩
      rcases hasStem_overlay.1 ha with ha | ha
      · have hTt : TermStem m p t := ⟨hT.1, hT.2.1, ha, hb⟩
        exact hTt.unique hT
      · exact hall t ha (hT.termPath hb)
    have hmany : ¬ Many (overlay m U) p := fun ⟨a, b, hne, ha, hb⟩ => hne ((hun a ha).trans (hun b hb).symm)
    unfold prefixHash
    rw [if_pos (by simp), List.perm_singleton.1 hpl,
      childHash_single hmany ⟨hasStem_overlay.2 (Or.inr h0), hT.2.2.2⟩]
    simp only [List.head?_cons, unwrap, bind, Except.bind, hcomm s0 h0 hp0]

theorem prefixHash_empty {s0 : Stem} (h0 : HasStem U s0) (hT : ¬ Occupied m (termPath m s0)) :
    prefixHash C hint.commsByPath st.byStem ord (termPath m s0) (stemsAt st.byPrefix (termPath m s0))
      = .error "no entry found for key" := by
  have hpl := hord (termPath m s0) (stemsAt st.byPrefix (termPath m s0))
  have hmem : s0 ∈ ord (termPath m s0) (stemsAt st.byPrefix (termPath m s0)) :=
    hpl.mem_iff.2 ((I.mem _ _).2 (Or.inl ⟨h0, rfl⟩))
  obtain ⟨a, r, har⟩ := List.exists_cons_of_ne_nil (List.ne_nil_of_mem hmem)
  have hnone : BMap.get a st.byStem = none := by
    have ha : a ∈ stemsAt st.byPrefix (termPath m s0) := hpl.mem_iff.1 (har ▸ List.mem_cons_self)
    rw [I.comm, if_neg]
    rintro ⟨_, v, hv⟩
    rcases (I.mem _ _).1 ha with ⟨_, h2⟩ | ⟨h2, _⟩
    · rw [h2] at hv
      exact hT ⟨v, termStem_termPath hv⟩
    · exact hT ⟨_, h2⟩
  unfold prefixHash
  rw [har]
  split
  · simp only [List.head?_cons, unwrap, bind, Except.bind, hnone]
  · obtain ⟨b, hb⟩ := h0
    have he := H.empty _ (hU _ hb) (by rw [mkKey_stem]; exact hT)
    rw [mkKey_stem] at he
    simp only [elementsOf, List.mapM_cons, hnone, he, unwrap, bind, Except.bind]

end

/-! ### Carrying a change up to the root -/

theorem comparable {p q : Path} {l : List Byte} (hp : p <+: l) (hq : q <+: l) : p <+: q ∨ q <+: p :=
  List.prefix_or_prefix_of_prefix hp hq

/-- The map in which the prefixes of `D` have been brought up to date. -/
noncomputable def doneMap (D : Path → Prop) (m m' : KV) : KV := patch (fun s => ∃ q, D q ∧ q <+: s.1) m m'

theorem hasStem_doneMap {D : Path → Prop} {m m' : KV} (hmm : ∀ s, HasStem m s → HasStem m' s) {s : Stem} (h : HasStem m s) :
    HasStem (doneMap D m m') s := by
  rw [doneMap, hasStem_patch]
  by_cases hA : ∃ q, D q ∧ q <+: s.1
  · exact Or.inl ⟨hA, hmm s h⟩
  · exact Or.inr ⟨hA, h⟩

theorem many_doneMap {D : Path → Prop} {m m' : KV} (hmm : ∀ s, HasStem m s → HasStem m' s) {p : Path} (h : Many m p) :
    Many (doneMap D m m') p := by
  obtain ⟨a, b, hne, ha, hb⟩ := h
  exact ⟨a, b, hne, ⟨hasStem_doneMap hmm ha.1, ha.2⟩, ⟨hasStem_doneMap hmm hb.1, hb.2⟩⟩

/-- The tree after the prefixes of `D`. -/
structure SparseOk (C : Crypto F G) (m m' : KV) (D : Path → Prop) (t : SparseTree G) : Prop where
  sorted : BMap.Sorted t.updated
  root : t.root = branchComm C (doneMap D m m') []
  get : ∀ z, BMap.get z t.updated = if ∃ q, D q ∧ Proper z q then some (branchComm C (doneMap D m m') z) else none

section
variable {C : Crypto F G} {m m' : KV} {comms : BMap Path G} {D : Path → Prop} (hD : ∀ q, D q → Occupied m q)
  (hmm : ∀ s, HasStem m s → HasStem m' s) {p : Path} {u : Stem} (hT : TermStem m p u) (hpD : ¬ D p)
  (hc : ∀ y, Proper y p → BMap.get y comms = some (branchComm C m y))
include hD hmm hT hpD hc

theorem updateLoop_spec : ∀ (rp : List Byte) (delta : F) (up : BMap Path G) (cur : Option G), rp.reverse <+: p →
    BMap.Sorted up →
    (rp ≠ [] → delta = childHash C (doneMap (fun q => q = p ∨ D q) m m') rp.reverse - childHash C (doneMap D m m') rp.reverse) →
    (∀ z, BMap.get z up = if Proper z p ∧ rp.reverse <+: z then some (branchComm C (doneMap (fun q => q = p ∨ D q) m m') z)
      else if ∃ q, D q ∧ Proper z q then some (branchComm C (doneMap D m m') z) else none) →
    ∃ up', updateLoop C comms rp delta up cur
        = .ok (up', if rp = [] then cur else some (branchComm C (doneMap (fun q => q = p ∨ D q) m m') [])) ∧
      BMap.Sorted up' ∧
      ∀ z, BMap.get z up' = if Proper z p then some (branchComm C (doneMap (fun q => q = p ∨ D q) m m') z)
        else if ∃ q, D q ∧ Proper z q then some (branchComm C (doneMap D m m') z) else none
  | [], delta, up, cur, _, hs, _, hg => ⟨up, by simp [updateLoop], hs, fun z => by simpa using hg z⟩
  | i :: rp, delta, up, cur, hrp, hs, hdel, hg => by
    rw [List.reverse_cons] at hrp hdel hg
    have hypre : rp.reverse <+: p := (List.prefix_append _ _).trans hrp
    have hyp : Proper rp.reverse p := by
      refine ⟨hypre, fun e => ?_⟩
      have := hrp.length_le
      rw [← e] at this
      simp at this
    have hyb : IsBranch m rp.reverse := by
      have hu := hT.2.2.2
      rw [isBranch_prefix_iff (hypre.trans hu), hT.termLen hu]
      have := hrp.length_le
      simp at this ⊢
      omega
    have hold : BMap.get rp.reverse up = some (branchComm C (doneMap D m m') rp.reverse) ∨
        (BMap.get rp.reverse up = none ∧ BMap.get rp.reverse comms = some (branchComm C (doneMap D m m') rp.reverse)) := by
      rw [hg, if_neg (by
        rintro ⟨_, h⟩
        have := h.length_le
        simp at this)]
      split_ifs with h
      · exact Or.inl rfl
      · refine Or.inr ⟨rfl, ?_⟩
        rw [hc _ hyp]
        congr 1
        apply AgreeUnder.branchComm
        apply AgreeUnder.symm
        apply patch_agree_left
        rintro s h1 ⟨q, h2, h3⟩
        exfalso
        obtain ⟨v, hv⟩ := hD q h2
        rcases comparable h1 h3 with h4 | h4
        · apply h
          refine ⟨q, h2, h4, ?_⟩
          intro e
          exact hv.1 (e ▸ hyb)
        · exact hv.not_proper hyb h4
    have hnew : branchComm C (doneMap D m m') rp.reverse + C.scalarMul delta i.val
        = branchComm C (doneMap (fun q => q = p ∨ D q) m m') rp.reverse := by
      rw [hdel (by simp), branchComm_step C (m := doneMap D m m') (m' := doneMap (fun q => q = p ∨ D q) m m')
        (by have := IsBranch.len hyb; omega) i]
      · rfl
      · intro j hj
        apply patch_agree
        intro s h1
        constructor
        · rintro ⟨q, h2, h3⟩
          exact ⟨q, Or.inr h2, h3⟩
        · rintro ⟨q, rfl | h2, h3⟩
          · exfalso
            have h4 := List.prefix_of_prefix_length_le h1 (hrp.trans h3) (by simp)
            have h5 := h4.eq_of_length (by simp)
            exact hj (by simpa using h5)
          · exact ⟨q, h2, h3⟩
    obtain ⟨up', e1, e2, e3⟩ := updateLoop_spec rp
      (C.h (branchComm C (doneMap (fun q => q = p ∨ D q) m m') rp.reverse) - C.h (branchComm C (doneMap D m m') rp.reverse))
      (BMap.insert rp.reverse (branchComm C (doneMap (fun q => q = p ∨ D q) m m') rp.reverse) up)
      (some (branchComm C (doneMap (fun q => q = p ∨ D q) m m') rp.reverse)) hypre (BMap.sorted_insert _ _ hs)
      (fun hne => by
        have hm : Many m rp.reverse := hyb.resolve_left (by simpa using hne)
        rw [childHash_many (many_doneMap hmm hm), childHash_many (many_doneMap hmm hm)])
      (fun z => by
        rw [BMap.get_insert _ _ _ hs]
        by_cases hz : z = rp.reverse
        · subst hz
          rw [if_pos rfl, if_pos ⟨hyp, List.prefix_refl _⟩]
        · rw [if_neg hz, hg]
          by_cases hzp : Proper z p
          · have : rp.reverse ++ [i] <+: z ↔ rp.reverse <+: z := by
              refine ⟨fun h => (List.prefix_append _ _).trans h, fun h => ?_⟩
              apply List.prefix_of_prefix_length_le hrp hzp.1
              have h1 := h.length_le
              have h2 : rp.reverse.length ≠ z.length := fun e => hz (h.eq_of_length e).symm
              simp at h1 h2 ⊢
              omega
            simp only [this]
          · simp only [hzp, false_and])
    refine ⟨up', ?_, e2, e3⟩
    have hfin : (if rp = [] then some (branchComm C (doneMap (fun q => q = p ∨ D q) m m') rp.reverse)
        else some (branchComm C (doneMap (fun q => q = p ∨ D q) m m') []))
        = some (branchComm C (doneMap (fun q => q = p ∨ D q) m m') []) := by
      by_cases hrp0 : rp = []
      · subst hrp0
        simp
      · simp [hrp0]
    rw [hfin] at e1
    rw [if_neg (by simp)]
    rcases hold with h | ⟨h, h'⟩
    · simp only [updateLoop, h, bind, Except.bind, hnew, e1]
    · simp only [updateLoop, h, h', unwrap, bind, Except.bind, hnew, e1]

theorem updatePrefix_spec {t : SparseTree G} (I : SparseOk C m m' D t) :
    ∃ t', updatePrefix C comms p (childHash C m p) (childHash C m' p) t = .ok (.ok t') ∧
      SparseOk C m m' (fun q => q = p ∨ D q) t' := by
  have hanti : ∀ q, D q → ¬ (p <+: q) ∧ ¬ (q <+: p) := by
    intro q hq
    obtain ⟨v, hv⟩ := hD q hq
    exact ⟨fun h => hpD (hT.antichain hv h ▸ hq), fun h => hpD (hv.antichain hT h ▸ hq)⟩
  have a1 : childHash C (doneMap (fun q => q = p ∨ D q) m m') p = childHash C m' p := by
    apply AgreeUnder.childHash
    apply patch_agree_right
    exact fun s hs hn => absurd ⟨p, Or.inl rfl, hs⟩ hn
  have a2 : childHash C (doneMap D m m') p = childHash C m p := by
    apply AgreeUnder.childHash
    apply patch_agree_left
    rintro s hs ⟨q, h1, h2⟩
    rcases comparable hs h2 with h | h
    · exact absurd h (hanti q h1).1
    · exact absurd h (hanti q h1).2
  obtain ⟨up', e1, e2, e3⟩ := updateLoop_spec hD hmm hT hpD hc p.reverse (childHash C m' p - childHash C m p) t.updated none
    (by simp) I.sorted (fun _ => by rw [List.reverse_reverse, a1, a2])
    (fun z => by
      have hno : ¬ (Proper z p ∧ p.reverse.reverse <+: z) := by
        rw [List.reverse_reverse]
        rintro ⟨h1, h2⟩
        exact h1.2 (h1.1.eq_of_length_le h2.length_le)
      rw [I.get, if_neg hno])
  have hpr : p.reverse ≠ [] := by simpa using hT.ne_nil
  rw [if_neg hpr] at e1
  refine ⟨⟨branchComm C (doneMap (fun q => q = p ∨ D q) m m') [], up'⟩, ?_, e2, rfl, fun z => ?_⟩
  · unfold updatePrefix
    rw [if_neg hT.ne_nil, e1]
    rfl
  · show BMap.get z up' = _
    rw [e3]
    by_cases hz : Proper z p
    · rw [if_pos hz, if_pos ⟨p, Or.inl rfl, hz⟩]
    · rw [if_neg hz]
      by_cases hq : ∃ q, D q ∧ Proper z q
      · rw [if_pos hq, if_pos (by obtain ⟨q, h1, h2⟩ := hq; exact ⟨q, Or.inr h1, h2⟩)]
        congr 1
        apply AgreeUnder.branchComm
        apply patch_agree
        intro s h1
        constructor
        · rintro ⟨q, h2, h3⟩
          exact ⟨q, Or.inr h2, h3⟩
        · rintro ⟨q, rfl | h2, h3⟩
          · exfalso
            obtain ⟨q', h4, h5⟩ := hq
            rcases comparable h1 h3 with h | h
            · by_cases e : z = q
              · exact (hanti q' h4).1 (e ▸ h5.1)
              · exact hz ⟨h, e⟩
            · exact (hanti q' h4).1 (h.trans h5.1)
          · exact ⟨q, h2, h3⟩
      · rw [if_neg hq, if_neg]
        rintro ⟨q, rfl | h1, h2⟩
        · exact hz h2
        · exact hq ⟨q, h1, h2⟩

end

/-! ### The loop over the prefixes -/

theorem proper_branch {m : KV} {p y : Path} {u : Stem} (hT : TermStem m p u) (h : Proper y p) : IsBranch m y := by
  have hu := hT.2.2.2
  rw [isBranch_prefix_iff (h.1.trans hu), hT.termLen hu]
  rcases Nat.lt_or_ge y.length p.length with h1 | h1
  · exact h1
  · exact absurd (h.1.eq_of_length_le h1) h.2

theorem proper_next {y p : Path} (h : Proper y p) : ∃ i, y ++ [i] <+: p := by
  obtain ⟨⟨r, rfl⟩, h2⟩ := h
  cases r with
  | nil => simp at h2
  | cons i r => exact ⟨i, ⟨r, by simp⟩⟩

section
variable {C : Crypto F G} {m U : KV} {K : Key → Prop} {hint : UpdateHint G} (H : HintFor C m K hint)
  (hU : ∀ k, U k ≠ none → K k) {st : StemState F G} (I : StemsOk C m U (HasStem U) st)
  {ord : Path → List Stem → List Stem} (hord : ∀ p l, (ord p l).Perm l)
include H hU I hord

theorem prefixLoop_spec : ∀ (r : BMap Path (List Stem)) (D : Path → Prop) (t : SparseTree G), BMap.Sorted r →
    (∀ e ∈ r, ¬ D e.1) → (∀ q, D q → Occupied m q) →
    (∀ e ∈ r, (∃ s, HasStem U s ∧ termPath m s = e.1) ∧ e.2 = stemsAt st.byPrefix e.1) →
    SparseOk C m (overlay m U) D t →
    ((∀ e ∈ r, Occupied m e.1) → ∃ t', prefixLoop C hint.commsByPath st.byStem ord r t = .ok t' ∧
      SparseOk C m (overlay m U) (fun q => q ∈ r.map Prod.fst ∨ D q) t') ∧
    ((∃ e ∈ r, ¬ Occupied m e.1) → prefixLoop C hint.commsByPath st.byStem ord r t = .error "no entry found for key")
  | [], D, t, _, _, _, _, T => ⟨fun _ => ⟨t, rfl, by simpa using T⟩, fun ⟨e, he, _⟩ => by cases he⟩
  | (p, l) :: r, D, t, hs, hnD, hD, he, T => by
    obtain ⟨s0, h0, hp0⟩ : ∃ s, HasStem U s ∧ termPath m s = p := (he (p, l) List.mem_cons_self).1
    obtain rfl : l = stemsAt st.byPrefix p := (he (p, l) List.mem_cons_self).2
    have hs' := List.pairwise_cons.1 hs
    by_cases hocc : Occupied m p
    · obtain ⟨u, hT⟩ := hocc
      obtain ⟨b, hb⟩ := id h0
      have hks : p <+: (mkKey s0 b).stem.1 := by rw [mkKey_stem, ← hp0]; exact termPath_prefix m s0
      have hnm : ¬ Many m p := fun h => hT.1 (Or.inr h)
      have hold : BMap.get p hint.commsByPath = some (stemComm C m u) := by
        rw [H.comms _ (opened_term hT (hU _ hb) hks), nodeComm_stem hT]
      obtain ⟨t1, e1, T1⟩ := updatePrefix_spec (C := C) (m' := overlay m U) (comms := hint.commsByPath) hD
        (fun s h => hasStem_overlay.2 (Or.inl h)) hT (hnD _ List.mem_cons_self)
        (fun y hy => by
          obtain ⟨i, hi⟩ := proper_next hy
          have hyb := proper_branch hT hy
          rw [H.comms _ (opened_branch hyb (hU _ hb) (hi.trans hks)), nodeComm_branch hyb]) T
      have hstep : prefixLoop C hint.commsByPath st.byStem ord ((p, stemsAt st.byPrefix p) :: r) t
          = prefixLoop C hint.commsByPath st.byStem ord r t1 := by
        rw [childHash_single hnm hT.2.2] at e1
        simp only [prefixLoop, prefixHash_occupied H hU I hord hT h0 hp0, bind, Except.bind, hold, e1]
      obtain ⟨r1, r2⟩ := prefixLoop_spec r (fun q => q = p ∨ D q) t1 hs'.2
        (fun e hmem => by
          rintro (h | h)
          · have := hs'.1 e.1 (List.mem_map_of_mem hmem)
            exact neLt this h.symm
          · exact hnD e (List.mem_cons_of_mem _ hmem) h)
        (fun q hq => by
          rcases hq with rfl | hq
          · exact ⟨u, hT⟩
          · exact hD q hq)
        (fun e hmem => he e (List.mem_cons_of_mem _ hmem)) T1
      rw [hstep]
      constructor
      · intro hall
        obtain ⟨t', f1, f2⟩ := r1 fun e hmem => hall e (List.mem_cons_of_mem _ hmem)
        refine ⟨t', f1, ?_⟩
        have : (fun q => q ∈ ((p, stemsAt st.byPrefix p) :: r).map Prod.fst ∨ D q)
            = fun q => q ∈ r.map Prod.fst ∨ q = p ∨ D q := by
          funext q
          simp only [List.map_cons, List.mem_cons]
          apply propext
          tauto
        rw [this]
        exact f2
      · rintro ⟨e, hmem, hno⟩
        apply r2
        rcases List.mem_cons.1 hmem with rfl | hmem
        · exact absurd ⟨u, hT⟩ hno
        · exact ⟨e, hmem, hno⟩
    · constructor
      · exact fun hall => absurd (hall _ List.mem_cons_self) hocc
      · intro _
        have := prefixHash_empty H hU I hord h0 (by rw [hp0]; exact hocc)
        rw [hp0] at this
        simp only [prefixLoop]
        rw [this]
        rfl

theorem prefixes_spec : 
    ((∀ s, HasStem U s → Occupied m (termPath m s)) →
      ∃ t, prefixLoop C hint.commsByPath st.byStem ord st.byPrefix ⟨branchComm C m [], []⟩ = .ok t ∧
        t.root = branchComm C (overlay m U) []) ∧
    ((∃ s, HasStem U s ∧ ¬ Occupied m (termPath m s)) →
      prefixLoop C hint.commsByPath st.byStem ord st.byPrefix ⟨branchComm C m [], []⟩ = .error "no entry found for key") := by
  have hkey : ∀ p, p ∈ st.byPrefix.map Prod.fst ↔ ∃ s, HasStem U s ∧ termPath m s = p := by
    intro p
    rw [BMap.mem_keys_iff, ne_eq, I.pnone]
    push Not
    rfl
  have hn : BMap.Sorted ([] : BMap Path G) := List.Pairwise.nil
  have hsame : AgreeUnder (doneMap (fun _ => False) m (overlay m U)) m [] := by
    apply patch_agree_left
    rintro s _ ⟨q, h, _⟩
    exact h.elim
  obtain ⟨r1, r2⟩ := prefixLoop_spec H hU I hord st.byPrefix (fun _ => False) ⟨branchComm C m [], []⟩ I.sortedP
    (fun _ _ h => h) (fun _ h => h.elim)
    (fun e hmem => by
      refine ⟨(hkey _).1 (List.mem_map_of_mem hmem), ?_⟩
      have := (BMap.get_eq_some_iff I.sortedP).2 (show (e.1, e.2) ∈ st.byPrefix from hmem)
      rw [stemsAt, this]
      rfl)
    ⟨hn, (hsame.branchComm C).symm, fun z => by simp [BMap.get]⟩
  constructor
  · intro hall
    obtain ⟨t, f1, f2⟩ := r1 fun e hmem => by
      obtain ⟨s, h1, h2⟩ := (hkey _).1 (List.mem_map_of_mem hmem)
      rw [← h2]
      exact hall s h1
    refine ⟨t, f1, ?_⟩
    rw [f2.root]
    apply AgreeUnder.branchComm
    apply patch_agree_right
    intro s _ hs
    apply overlay_same
    intro hsU
    exact hs ⟨termPath m s, Or.inl ((hkey _).2 ⟨s, hsU, rfl⟩), termPath_prefix m s⟩
  · rintro ⟨s, h1, h2⟩
    apply r2
    have := (hkey _).2 ⟨s, h1, rfl⟩
    obtain ⟨e, he1, he2⟩ := List.mem_map.1 this
    exact ⟨e, he1, by rw [he2]; exact h2⟩

end

/-! ### `update_root` -/

theorem hintOk_for {C : Crypto F G} {m : KV} {keys : List Key} {hint : UpdateHint G} (H : HintOk C m keys hint) :
    HintFor C m (· ∈ keys) hint := by
  refine ⟨fun k hk => ?_, fun p hp => ?_, fun k hk hno => ?_, fun k u hk hT hne => ?_⟩
  · rw [H.depths, if_pos ⟨k, hk, rfl⟩]
  · rw [H.comms, if_pos hp]
  · rw [H.comms, if_neg (not_opened hno)]
  · exact (H.other _ _).2 ⟨hT, k, hk, termPath_prefix m _, hne⟩

/-- Old values are read only where there is a new one. -/
theorem collectUpdates_congr (m : KV) : ∀ (keys : List Key) (values updated : List (Option Value)) (us : BMap Stem SuffixUpdate),
    keys.length = values.length → (∀ k o v, ((k, o), some v) ∈ (keys.zip values).zip updated → o = m k) →
    collectUpdates ((keys.zip values).zip updated) us = collectUpdates ((keys.zip (keys.map m)).zip updated) us
  | [], _, _, _, _, _ => by simp
  | k :: keys, [], _, _, h, _ => by simp at h
  | k :: keys, o :: values, [], _, _, _ => by simp
  | k :: keys, o :: values, none :: updated, us, h, hv => by
    simp only [List.zip_cons_cons, List.map_cons, collectUpdates]
    exact collectUpdates_congr m keys values updated us (by simpa using h) fun k o v hm =>
      hv k o v (by rw [List.zip_cons_cons, List.zip_cons_cons]; exact List.mem_cons_of_mem _ hm)
  | k :: keys, o :: values, some v :: updated, us, h, hv => by
    simp only [List.zip_cons_cons, List.map_cons, collectUpdates]
    rw [hv k o v (by simp)]
    exact collectUpdates_congr m keys values updated _ (by simpa using h) fun k o v hm =>
      hv k o v (by rw [List.zip_cons_cons, List.zip_cons_cons]; exact List.mem_cons_of_mem _ hm)

/-- With a hint that is right about the written keys, and their true old values, `update_root` returns the commitment of the
updated map exactly when every written stem has its place taken; it panics otherwise. -/
theorem updateRoot_for [DecidableEq G] {C : Crypto F G} {m : KV} {keys : List Key} {K : Key → Prop} {hint : UpdateHint G}
    (H : HintFor C m K hint) {ord : Path → List Stem → List Stem} (hord : ∀ p l, (ord p l).Perm l) (hnd : keys.Nodup)
    {values updated : List (Option Value)} (hl : keys.length = values.length) (h1 : ¬ usizeNot keys.length = updated.length)
    (hv : ∀ k o v, ((k, o), some v) ∈ (keys.zip values).zip updated → o = m k)
    (hU : ∀ k, applyAll emptyKV (writes keys updated) k ≠ none → K k) :
    ((∀ s, HasStem (applyAll emptyKV (writes keys updated)) s → Occupied m (termPath m s)) →
      updateRoot C ord hint keys values updated (nodeComm C m [])
        = .ok (.ok (branchComm C (applyAll m (writes keys updated)) []))) ∧
    ((∃ s, HasStem (applyAll emptyKV (writes keys updated)) s ∧ ¬ Occupied m (termPath m s)) →
      updateRoot C ord hint keys values updated (nodeComm C m []) = .error "no entry found for key") := by
  have hus := collectUpdates_spec m keys updated emptyKV [] (updatesOk_nil m)
  rw [← collectUpdates_congr m keys values updated [] hl hv] at hus
  obtain ⟨st, e1, I⟩ := stems_spec H hU hus
  obtain ⟨r1, r2⟩ := prefixes_spec H hU I hord
  have hm : overlay m (applyAll emptyKV (writes keys updated)) = applyAll m (writes keys updated) := by
    rw [← applyAll_overlay]
    rfl
  unfold updateRoot
  rw [← hl, if_neg h1, if_neg h1, if_neg (not_not.2 hnd), e1, nodeComm_branch (Or.inl rfl)]
  constructor
  · intro h
    obtain ⟨t, f1, f2⟩ := r1 h
    simp only [bind, Except.bind, f1, f2, hm]
  · intro h
    simp only [bind, Except.bind, r2 h]

/-- With the hint of an honest proof `update_root` returns the commitment of the updated map exactly when every written stem
has its place taken; it panics otherwise. -/
theorem updateRoot_spec [DecidableEq G] {C : Crypto F G} {m : KV} {keys : List Key} {hint : UpdateHint G}
    (H : HintOk C m keys hint) {ord : Path → List Stem → List Stem} (hord : ∀ p l, (ord p l).Perm l) (hnd : keys.Nodup)
    {updated : List (Option Value)} (h1 : ¬ usizeNot keys.length = updated.length)
    (hU : ∀ k, applyAll emptyKV (writes keys updated) k ≠ none → k ∈ keys) :
    ((∀ s, HasStem (applyAll emptyKV (writes keys updated)) s → Occupied m (termPath m s)) →
      updateRoot C ord hint keys (keys.map m) updated (nodeComm C m [])
        = .ok (.ok (branchComm C (applyAll m (writes keys updated)) []))) ∧
    ((∃ s, HasStem (applyAll emptyKV (writes keys updated)) s ∧ ¬ Occupied m (termPath m s)) →
      updateRoot C ord hint keys (keys.map m) updated (nodeComm C m []) = .error "no entry found for key") := by
  refine updateRoot_for (hintOk_for H) hord hnd (by simp) h1 (fun k o v h => ?_) hU
  have h := (List.of_mem_zip h).1
  rw [List.zip_map_right] at h
  obtain ⟨⟨a, b⟩, h2, h3⟩ := List.mem_map.1 h
  have : a = b := by
    obtain ⟨i, hi⟩ := List.mem_iff_getElem.1 h2
    obtain ⟨hi, he⟩ := hi
    rw [List.getElem_zip] at he
    simp only [Prod.mk.injEq] at he
    exact he.1.symm.trans he.2
  subst this
  simp only [Prod.map_apply, id_eq, Prod.mk.injEq] at h3
  rw [← h3.1, h3.2]

end Verif.Proof
