import Verif.Proof.Subtree
import Verif.Proof.Honest

/-!
# The stateless updater: the new stem commitments

`U : KV` is the partial function of new values, `overlay m U` the map after the update.
-/

set_option autoImplicit false

namespace Verif.Proof
open Verif.Spec Verif.Trie BOrd
open scoped Classical

variable {F G : Type} [Field F] [AddCommGroup G] [Module F G]

/-- The map after the update. -/
def overlay (m U : KV) : KV := fun k => (U k).or (m k)

theorem overlay_some {m U : KV} {k : Key} (h : U k ≠ none) : overlay m U k = U k := by
  unfold overlay
  cases hU : U k with
  | none => exact absurd hU h
  | some v => rfl

theorem overlay_none {m U : KV} {k : Key} (h : U k = none) : overlay m U k = m k := by
  unfold overlay
  rw [h]; rfl

theorem hasStem_overlay {m U : KV} {s : Stem} : HasStem (overlay m U) s ↔ HasStem m s ∨ HasStem U s := by
  constructor
  · rintro ⟨b, hb⟩
    by_cases h : U (mkKey s b) = none
    · rw [overlay_none h] at hb; exact Or.inl ⟨b, hb⟩
    · exact Or.inr ⟨b, h⟩
  · rintro (⟨b, hb⟩ | ⟨b, hb⟩)
    · refine ⟨b, ?_⟩
      by_cases h : U (mkKey s b) = none
      · rwa [overlay_none h]
      · rwa [overlay_some h]
    · exact ⟨b, by rwa [overlay_some hb]⟩

theorem overlay_same {m U : KV} {s : Stem} (h : ¬ HasStem U s) (b : Byte) : m (mkKey s b) = overlay m U (mkKey s b) := by
  rw [overlay_none]
  by_contra hb
  exact h ⟨b, hb⟩

theorem applyAll_overlay (l : List (Key × Value)) : ∀ m U : KV, applyAll (overlay m U) l = overlay m (applyAll U l) := by
  induction l with
  | nil => intro m U; rfl
  | cons kv l ih =>
    intro m U
    obtain ⟨k, v⟩ := kv
    show applyAll (Function.update (overlay m U) k (some v)) l = overlay m (applyAll (Function.update U k (some v)) l)
    rw [← ih]
    congr 1
    funext k'
    unfold overlay
    by_cases h : k' = k
    · subst h; simp
    · simp [h]

/-! ### Collecting the updates -/

/-- The collected updates of the values `U` over the old map `m`. -/
structure UpdatesOk (m U : KV) (us : BMap Stem SuffixUpdate) : Prop where
  sorted : BMap.Sorted us
  none : ∀ s, BMap.get s us = none ↔ ¬ HasStem U s
  some : ∀ s u, BMap.get s us = some u →
    BMap.Sorted u ∧ ∀ b, BMap.get b u = (U (mkKey s b)).map fun v => (m (mkKey s b), v)

/-- The pairs that are written. -/
def writes (keys : List Key) (updated : List (Option Value)) : List (Key × Value) :=
  (keys.zip updated).filterMap fun x => x.2.map fun v => (x.1, v)

theorem updatesOk_insert {m U : KV} {us : BMap Stem SuffixUpdate} (h : UpdatesOk m U us) (k : Key) (v : Value) :
    UpdatesOk m (Function.update U k (some v))
      (BMap.insert k.stem (BMap.insert k.suffix (m k, v) ((BMap.get k.stem us).getD [])) us) := by
  have hu0 : BMap.Sorted ((BMap.get k.stem us).getD []) ∧ ∀ b, BMap.get b ((BMap.get k.stem us).getD []) =
      (U (mkKey k.stem b)).map fun v => (m (mkKey k.stem b), v) := by
    cases hg : BMap.get k.stem us with
    | some u => exact h.some _ _ hg
    | none =>
      refine ⟨List.Pairwise.nil, fun b => ?_⟩
      have hn := (h.none _).1 hg
      have : U (mkKey k.stem b) = none := by
        by_contra hb; exact hn ⟨b, hb⟩
      rw [this]; rfl
  refine ⟨BMap.sorted_insert _ _ h.sorted, fun s => ?_, fun s u hs => ?_⟩
  · rw [BMap.get_insert _ _ _ h.sorted]
    by_cases e : s = k.stem
    · rw [if_pos e]
      constructor
      · intro h; cases h
      · intro hn
        exact absurd ⟨k.suffix, by rw [e, mkKey_stem_suffix]; simp⟩ hn
    · rw [if_neg e, h.none]
      apply not_congr
      apply hasStem_congr
      intro b
      rw [Function.update_of_ne]
      intro h
      rw [mkKey_eq_iff] at h
      exact e h.1
  · rw [BMap.get_insert _ _ _ h.sorted] at hs
    by_cases e : s = k.stem
    · rw [if_pos e] at hs
      have hs := Option.some.inj hs
      subst hs
      subst e
      refine ⟨BMap.sorted_insert _ _ hu0.1, fun b => ?_⟩
      rw [BMap.get_insert _ _ _ hu0.1]
      by_cases hb : b = k.suffix
      · subst hb
        rw [if_pos rfl, mkKey_stem_suffix]
        simp
      · rw [if_neg hb, hu0.2, Function.update_of_ne]
        intro h
        rw [mkKey_eq_iff] at h
        exact hb h.2
    · rw [if_neg e] at hs
      obtain ⟨h1, h2⟩ := h.some _ _ hs
      refine ⟨h1, fun b => ?_⟩
      rw [h2, Function.update_of_ne]
      intro h
      rw [mkKey_eq_iff] at h
      exact e h.1

theorem collectUpdates_spec (m : KV) : ∀ (keys : List Key) (updated : List (Option Value)) (U : KV)
    (us : BMap Stem SuffixUpdate), UpdatesOk m U us →
    UpdatesOk m (applyAll U (writes keys updated)) (collectUpdates ((keys.zip (keys.map m)).zip updated) us)
  | [], updated, U, us, h => by simpa [writes, applyAll, collectUpdates] using h
  | k :: keys, [], U, us, h => by simpa [writes, applyAll, collectUpdates] using h
  | k :: keys, none :: updated, U, us, h => by
    have := collectUpdates_spec m keys updated U us h
    simpa [writes, applyAll, collectUpdates] using this
  | k :: keys, some v :: updated, U, us, h => by
    have := collectUpdates_spec m keys updated _ _ (updatesOk_insert h k v)
    simpa [writes, applyAll, collectUpdates] using this

theorem updatesOk_nil (m : KV) : UpdatesOk m emptyKV [] := by
  refine ⟨List.Pairwise.nil, fun s => ?_, fun s u h => by cases h⟩
  constructor
  · rintro _ ⟨b, hb⟩; exact hb rfl
  · intro _; rfl

/-! ### Suffix commitments -/

/-- The map after writing the entries of `u` to stem `s`. -/
def writeStem (s : Stem) (u : SuffixUpdate) (m : KV) : KV := applyAll m (u.map fun e => (mkKey s e.1, e.2.2))

theorem writeStem_get {s : Stem} : ∀ {u : SuffixUpdate}, BMap.Sorted u → ∀ (m : KV) (b : Byte),
    writeStem s u m (mkKey s b) = ((BMap.get b u).map fun e => e.2).or (m (mkKey s b))
  | [], _, m, b => rfl
  | (b0, o, v) :: u, h, m, b => by
    have p := List.pairwise_cons.1 h
    have ih := writeStem_get (s := s) (u := u) p.2 (Function.update m (mkKey s b0) (some v)) b
    show writeStem s u (Function.update m (mkKey s b0) (some v)) (mkKey s b) = _
    rw [ih]
    simp only [BMap.get]
    by_cases hb : b = b0
    · subst hb
      have hn : BMap.get b u = none := by
        rw [BMap.get_eq_none_iff]
        intro hm
        have := p.1 b hm
        simp [ltSelf] at this
      rw [hn]
      simp [ltSelf]
    · have hne : mkKey s b ≠ mkKey s b0 := fun e => hb (mkKey_inj.1 e).2
      rw [Function.update_of_ne hne]
      cases h1 : lt b b0
      · cases h2 : lt b0 b
        · exact absurd (ltTri _ _ h1 h2) hb
        · simp
      · simp

theorem addSuffix_spec (C : Crypto F G) (m : KV) (s : Stem) (b : Byte) (v : Value) (c : G × G) :
    addSuffix C ((valueHalves F (some v)).1 - (valueHalves F (m (mkKey s b))).1)
        ((valueHalves F (some v)).2 - (valueHalves F (m (mkKey s b))).2) b c =
      (c.1 + (suffixComm C (Function.update m (mkKey s b) (some v)) s 0 - suffixComm C m s 0),
       c.2 + (suffixComm C (Function.update m (mkKey s b) (some v)) s 128 - suffixComm C m s 128)) := by
  have hv : valueHalves F (some v) = (lowHalf F v, highHalf F v) := rfl
  rw [valueHalves_eq F (m (mkKey s b)), hv]
  unfold addSuffix
  by_cases hb : b.val < 128
  · have h1 := suffixComm_update_in (F := F) (G := G) (m := m) (k := mkKey s b) (v := v) C (off := 0) (Or.inl rfl)
      (by omega) (by simpa using hb)
    have h2 := suffixComm_update_out (F := F) (G := G) (m := m) (k := mkKey s b) (v := v) C (off := 128)
      (Or.inr ⟨rfl, by simpa using hb⟩)
    simp only [mkKey_stem, mkKey_suffix] at h1 h2
    rw [if_pos hb, h1, h2]
    simp only [Crypto.scalarMul, sub_self, add_zero]
    congr 1
    abel
  · have h1 := suffixComm_update_in (F := F) (G := G) (m := m) (k := mkKey s b) (v := v) C (off := 128) (Or.inr rfl)
      (by simp only [mkKey_suffix]; omega) (by simp only [mkKey_suffix]; omega)
    have h2 := suffixComm_update_out (F := F) (G := G) (m := m) (k := mkKey s b) (v := v) C (off := 0)
      (Or.inl ⟨rfl, by simp only [mkKey_suffix]; omega⟩)
    simp only [mkKey_stem, mkKey_suffix] at h1 h2
    rw [if_neg hb, h1, h2]
    simp only [Crypto.scalarMul, sub_self, add_zero]
    congr 1
    abel

theorem foldl_deltas (C : Crypto F G) (s : Stem) : ∀ (u : SuffixUpdate), BMap.Sorted u → ∀ (m : KV) (c : G × G),
    (∀ e ∈ u, e.2.1 = m (mkKey s e.1)) →
    u.foldl (fun c e =>
      let old := valueHalves F e.2.1
      let new := valueHalves F (some e.2.2)
      addSuffix C (new.1 - old.1) (new.2 - old.2) e.1 c) c =
      (c.1 + (suffixComm C (writeStem s u m) s 0 - suffixComm C m s 0),
       c.2 + (suffixComm C (writeStem s u m) s 128 - suffixComm C m s 128))
  | [], _, m, c, _ => by simp [writeStem, applyAll]
  | (b, o, v) :: u, h, m, c, ho => by
    have p := List.pairwise_cons.1 h
    have ho0 := ho _ List.mem_cons_self
    simp only at ho0
    subst ho0
    have ih := foldl_deltas C s u p.2 (Function.update m (mkKey s b) (some v)) (addSuffix C
      ((valueHalves F (some v)).1 - (valueHalves F (m (mkKey s b))).1)
        ((valueHalves F (some v)).2 - (valueHalves F (m (mkKey s b))).2) b c) (by
      intro e he
      rw [ho e (List.mem_cons_of_mem _ he), Function.update_of_ne]
      intro h
      have h := (mkKey_inj.1 h).2
      have := p.1 e.1 (List.mem_map.2 ⟨e, he, rfl⟩)
      rw [h] at this
      simp [ltSelf] at this)
    rw [List.foldl_cons, ih, addSuffix_spec]
    show (_, _) = (_, _)
    congr 1
    · show _ = c.1 + (suffixComm C (writeStem s u (Function.update m (mkKey s b) (some v))) s 0 - _)
      rw [add_assoc, sub_add_sub_cancel']
    · show _ = c.2 + (suffixComm C (writeStem s u (Function.update m (mkKey s b) (some v))) s 128 - _)
      rw [add_assoc, sub_add_sub_cancel']

section
variable {m U : KV} {s : Stem} {u : SuffixUpdate} (hu : BMap.Sorted u)
  (hg : ∀ b, BMap.get b u = (U (mkKey s b)).map fun v => (m (mkKey s b), v))
include hu hg

theorem entry_iff {e : Byte × Option Value × Value} :
    e ∈ u ↔ U (mkKey s e.1) = some e.2.2 ∧ e.2.1 = m (mkKey s e.1) := by
  rw [show e = (e.1, e.2) from rfl, ← BMap.get_eq_some_iff hu, hg]
  cases hU : U (mkKey s e.1) with
  | none => simp
  | some v =>
    obtain ⟨b, o, w⟩ := e
    simp only [Option.map_some, Option.some.injEq, Prod.mk.injEq]
    constructor
    · rintro ⟨h1, h2⟩; exact ⟨h2, h1.symm⟩
    · rintro ⟨h1, h2⟩; exact ⟨h2.symm, h1⟩

theorem writeStem_overlay (b : Byte) : writeStem s u m (mkKey s b) = overlay m U (mkKey s b) := by
  rw [writeStem_get hu, hg]
  unfold overlay
  cases U (mkKey s b) <;> rfl

theorem suffixDeltas_spec (C : Crypto F G) : suffixDeltas C u =
    (suffixComm C (overlay m U) s 0 - suffixComm C m s 0, suffixComm C (overlay m U) s 128 - suffixComm C m s 128) := by
  unfold suffixDeltas
  rw [foldl_deltas C s u hu m (0, 0) (fun e he => ((entry_iff hu hg).1 he).2)]
  rw [suffixComm_congr C (writeStem_overlay hu hg), suffixComm_congr C (writeStem_overlay hu hg)]
  simp

theorem newSuffixes_spec (C : Crypto F G) (hn : ¬ HasStem m s) :
    newSuffixes C u (0, 0) = some (suffixComm C (overlay m U) s 0, suffixComm C (overlay m U) s 128) := by
  have hm : ∀ b, m (mkKey s b) = none := fun b => by
    by_contra h; exact hn ⟨b, h⟩
  have key : ∀ (l : SuffixUpdate) (c : G × G), (∀ e ∈ l, e.2.1 = none) → newSuffixes C l c = some (l.foldl (fun c e =>
      let old := valueHalves F e.2.1
      let new := valueHalves F (some e.2.2)
      addSuffix C (new.1 - old.1) (new.2 - old.2) e.1 c) c) := by
    intro l
    induction l with
    | nil => intro c _; rfl
    | cons e l ih =>
      intro c h
      obtain ⟨b, o, v⟩ := e
      have h0 := h _ List.mem_cons_self
      simp only at h0
      subst h0
      simp only [newSuffixes, Option.isSome_none, Bool.false_eq_true, if_false, List.foldl_cons]
      rw [ih _ fun e he => h e (List.mem_cons_of_mem _ he)]
      simp only [show valueHalves F (none : Option Value) = (0, 0) from rfl, sub_zero]
  rw [key u (0, 0) fun e he => by rw [((entry_iff hu hg).1 he).2, hm]]
  have := suffixDeltas_spec hu hg C
  unfold suffixDeltas at this
  rw [this]
  have e : ∀ off, suffixComm C m s off = 0 := fun off => suffixComm_of_not_hasStem C hn off
  rw [e, e, sub_zero, sub_zero]

end

/-! ### The stems -/

/-- A place of the trie that holds a stem. -/
def Occupied (m : KV) (p : Path) : Prop := ∃ u, TermStem m p u

/-- The parts of an update hint that matter for writes to the keys `K`: true depths and kinds of their stems, true commitments
at the paths they open, no commitment at their place when it is empty, and the stems standing in their way. -/
structure HintFor (C : Crypto F G) (m : KV) (K : Key → Prop) (h : UpdateHint G) : Prop where
  depths : ∀ k, K k → BMap.get k.stem h.depthsAndExt = some (extOf m k.stem, asU8 (termLen m k.stem))
  comms : ∀ p, Opened m K p → BMap.get p h.commsByPath = some (nodeComm C m p)
  empty : ∀ k, K k → ¬ Occupied m (termPath m k.stem) → BMap.get (termPath m k.stem) h.commsByPath = none
  other : ∀ k u, K k → TermStem m (termPath m k.stem) u → k.stem ≠ u → BMap.get (termPath m k.stem) h.otherStems = some u

section
variable {C : Crypto F G} {m U : KV} {K : Key → Prop} {hint : UpdateHint G} (H : HintFor C m K hint)
  (hU : ∀ k, U k ≠ none → K k)
include hU

omit [Field F] [AddCommGroup G] [Module F G] in
theorem opened_half {s : Stem} (hs : HasStem m s) {b : Byte} (hb : U (mkKey s b) ≠ none) :
    Opened m K (termPath m s ++ [halfIdx b]) := by
  have hT := termStem_self hs
  refine ⟨lowIdx b, ?_⟩
  have := Label.low (m := m) (K := K) (termPath m s) (mkKey s b) (hU _ hb) (by rw [mkKey_stem]; exact hT)
  simpa using this

include H

theorem hashDelta_spec [DecidableEq G] {s : Stem} (hs : HasStem m s)
    (b0 : Byte) :
    hashDelta C hint.commsByPath (termPath m s ++ [halfIdx b0])
        (suffixComm C (overlay m U) s (halfOff b0) - suffixComm C m s (halfOff b0)) =
      .ok (C.h (suffixComm C (overlay m U) s (halfOff b0)) - C.h (suffixComm C m s (halfOff b0))) := by
  unfold hashDelta
  split
  · rename_i h
    rw [sub_eq_zero.1 h, sub_self]
  · rename_i h
    -- some slot of this half is written
    have hex : ∃ b, halfOff b = halfOff b0 ∧ U (mkKey s b) ≠ none := by
      by_contra hno
      push Not at hno
      apply h
      rw [sub_eq_zero]
      unfold suffixComm
      apply Finset.sum_congr rfl
      intro i _
      have : U (mkKey s (Fin.ofNat 256 (halfOff b0 + i.val))) = none := by
        apply hno
        have hi := i.2
        have hv : (Fin.ofNat 256 (halfOff b0 + i.val)).val = halfOff b0 + i.val := by
          show (halfOff b0 + i.val) % 256 = _
          unfold halfOff; split <;> omega
        unfold halfOff at hv ⊢
        rw [hv]
        by_cases hb0 : b0.val < 128
        · simp only [hb0, if_true]; rw [if_pos (by omega)]
        · simp only [hb0, if_false]; rw [if_neg (by omega)]
      rw [overlay_none this]
    obtain ⟨b, hb, hbU⟩ := hex
    have hidx : halfIdx b = halfIdx b0 := by
      unfold halfOff at hb
      unfold halfIdx
      by_cases h1 : b.val < 128 <;> by_cases h2 : b0.val < 128 <;> simp [h1, h2] at hb ⊢
    have hop := opened_half hU hs hbU
    rw [hidx] at hop
    rw [H.comms _ hop, nodeComm_suffix (termStem_self hs)]
    simp only [unwrap, bind, Except.bind]
    congr 3
    abel_nf

theorem presentComm_spec [DecidableEq G] {s : Stem} {u : SuffixUpdate} (hs : HasStem m s) (hsU : HasStem U s)
    (hu : BMap.Sorted u) (hg : ∀ b, BMap.get b u = (U (mkKey s b)).map fun v => (m (mkKey s b), v)) :
    presentComm C hint.commsByPath (termPath m s) u = .ok (stemComm C (overlay m U) s) := by
  have h1 := hashDelta_spec H hU hs 0
  have h2 := hashDelta_spec H hU hs 128
  have i0 : halfIdx 0 = 2 := by decide
  have i1 : halfIdx 128 = 3 := by decide
  have o0 : halfOff 0 = 0 := by decide
  have o1 : halfOff 128 = 128 := by decide
  rw [i0, o0] at h1
  rw [i1, o1] at h2
  have hT := termStem_self hs
  obtain ⟨b, hb⟩ := hsU
  have hop : Opened m K (termPath m s) :=
    ⟨0, Label.ext _ _ s (mkKey s b) (hU _ hb) hT (by rw [mkKey_stem]; exact termPath_prefix m s) (Or.inl rfl)⟩
  have hgc : BMap.get (termPath m s) hint.commsByPath = some (stemComm C m s) := by
    rw [H.comms _ hop, nodeComm_stem hT]
  simp only [presentComm, suffixDeltas_spec hu hg, h1, h2, bind, Except.bind, hgc, unwrap]
  congr 1
  unfold stemComm Crypto.scalarMul
  module

end

end Verif.Proof
