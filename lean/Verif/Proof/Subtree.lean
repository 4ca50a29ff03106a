import Verif.Proof.Updater
import Verif.Trie.Patch

/-!
# `build_subtree` computes the branch commitment

After each element the tree of `build_subtree` is a function of the set of stems handled so far (`subNode`).
-/

set_option autoImplicit false

namespace Verif.Proof
open Verif.Spec Verif.Trie BOrd
open scoped Classical

variable {F G : Type} [Field F] [AddCommGroup G] [Module F G]

/-! ### Adding one stem to a map -/

/-- `m'` is `m` with a new stem `s`. -/
structure AddStem (m m' : KV) (s : Stem) : Prop where
  same : ∀ t, t ≠ s → ∀ b, m (mkKey t b) = m' (mkKey t b)
  no : ¬ HasStem m s
  yes : HasStem m' s

namespace AddStem
variable {m m' : KV} {s : Stem} (A : AddStem m m' s)
include A

theorem under {p : Path} {t : Stem} : Under m' p t ↔ Under m p t ∨ (t = s ∧ p <+: s.1) := by
  by_cases h : t = s
  · subst h
    exact ⟨fun h => Or.inr ⟨rfl, h.2⟩, fun h => h.elim (fun h => absurd h.1 A.no) fun h => ⟨A.yes, h.2⟩⟩
  · have := hasStem_congr (A.same t h)
    unfold Under
    rw [this]
    simp [h]

theorem agree {p : Path} (h : ¬ p <+: s.1) : AgreeUnder m m' p :=
  fun t b ht => A.same t (fun e => h (e ▸ ht)) b

theorem many {p : Path} (h : Many m p) : Many m' p := by
  obtain ⟨a, b, hne, ha, hb⟩ := h
  exact ⟨a, b, hne, A.under.2 (Or.inl ha), A.under.2 (Or.inl hb)⟩

theorem stemComm_ne (C : Crypto F G) {t : Stem} (h : t ≠ s) : stemComm C m t = stemComm C m' t :=
  stemComm_congr C (A.same t h)

theorem step (C : Crypto F G) {p : Path} {i : Byte} (h : p ++ [i] <+: s.1) :
    branchComm C m' p = branchComm C m p + (childHash C m' (p ++ [i]) - childHash C m (p ++ [i])) • C.g i.val := by
  have hl := h.length_le
  rw [s.2, List.length_append] at hl
  simp at hl
  refine branchComm_step C (by omega) i fun j hj => A.agree fun h' => hj (prefix_snoc_inj h' h)

end AddStem

/-! ### The tree as a function of the map -/

/-- Relative to the root of the subtree, `x` carries an inner node. -/
def RB (P : Path) (m : KV) (x : Path) : Prop := x = [] ∨ Many m (P ++ x)

/-- What the tree holds at the relative path `x`. -/
noncomputable def subNode (C : Crypto F G) (P : Path) (m : KV) (x : Path) : Option (SubNode G) :=
  if RB P m x then some (.inner (branchComm C m (P ++ x)))
  else if h : (∃ u, Under m (P ++ x) u) ∧ RB P m x.dropLast then some (.stem h.1.choose (stemComm C m h.1.choose))
  else none

section
variable {C : Crypto F G} {P : Path} {m : KV} {x : Path}

theorem subNode_inner (h : RB P m x) : subNode C P m x = some (.inner (branchComm C m (P ++ x))) := by
  rw [subNode, if_pos h]

theorem RB.not_many (h : ¬ RB P m x) : ¬ Many m (P ++ x) := fun h' => h (Or.inr h')

theorem subNode_stem {u : Stem} (h : ¬ RB P m x) (hu : Under m (P ++ x) u) (hd : RB P m x.dropLast) :
    subNode C P m x = some (.stem u (stemComm C m u)) := by
  have hex : (∃ u, Under m (P ++ x) u) ∧ RB P m x.dropLast := ⟨⟨u, hu⟩, hd⟩
  have e : hex.1.choose = u := Under.unique (RB.not_many h) hex.1.choose_spec hu
  rw [subNode, if_neg h, dif_pos hex, e]

theorem subNode_none (h : ¬ RB P m x) (h' : (∀ u, ¬ Under m (P ++ x) u) ∨ ¬ RB P m x.dropLast) :
    subNode C P m x = none := by
  rw [subNode, if_neg h, dif_neg]
  rintro ⟨⟨u, hu⟩, hd⟩
  rcases h' with h' | h'
  · exact h' u hu
  · exact h' hd

/-- Two maps have the same node where they agree and have the same inner nodes. -/
theorem subNode_congr {m' : KV} (h : AgreeUnder m m' (P ++ x)) (h1 : RB P m x ↔ RB P m' x)
    (h2 : RB P m x.dropLast ↔ RB P m' x.dropLast) : subNode C P m x = subNode C P m' x := by
  by_cases hb : RB P m x
  · rw [subNode_inner hb, subNode_inner (h1.1 hb), h.branchComm C]
  · have hb' : ¬ RB P m' x := fun z => hb (h1.2 z)
    by_cases hd : RB P m x.dropLast
    · by_cases hu : ∃ u, Under m (P ++ x) u
      · obtain ⟨u, hu⟩ := hu
        rw [subNode_stem hb hu hd, subNode_stem hb' (h.under.1 hu) (h2.1 hd), stemComm_congr C fun b => h u b hu.2]
      · rw [subNode_none hb (Or.inl fun u z => hu ⟨u, z⟩), subNode_none hb' (Or.inl fun u z => hu ⟨u, h.under.2 z⟩)]
    · rw [subNode_none hb (Or.inr hd), subNode_none hb' (Or.inr fun z => hd (h2.2 z))]

theorem RB.mono {y : Path} (h : RB P m x) (hy : y <+: x) : RB P m y := by
  rcases h with h | h
  · subst h; exact Or.inl (List.prefix_nil.1 hy)
  · exact Or.inr (h.mono ((List.prefix_append_right_inj P).2 hy))

theorem RB.len (hP : P.length < 31) (h : RB P m x) : (P ++ x).length < 31 := by
  rcases h with h | h
  · subst h; simpa using hP
  · exact h.length_lt

end

/-- The tree represents the map. -/
structure TreeOk (C : Crypto F G) (P : Path) (m : KV) (T : BMap Path (SubNode G)) : Prop where
  sorted : BMap.Sorted T
  get : ∀ x, BMap.get x T = subNode C P m x

/-- A proper prefix. -/
def Proper (x y : Path) : Prop := x <+: y ∧ x ≠ y

theorem proper_snoc {x y : Path} {i : Byte} : Proper x (y ++ [i]) ↔ x <+: y := by
  constructor
  · rintro ⟨h, hne⟩
    rcases List.prefix_concat_iff.1 h with h | h
    · exact absurd h hne
    · exact h
  · intro h
    refine ⟨h.trans (List.prefix_append _ _), fun e => ?_⟩
    subst e
    have := h.length_le
    simp at this

theorem bump_ok (C : Crypto F G) {T : BMap Path (SubNode G)} {p : Path} {c : G} (h : BMap.get p T = some (.inner c))
    (i : Byte) (old new : F) : bump C T p i old new =
      .ok (BMap.insert p (.inner (c + (new - old) • C.g i.val)) T, C.h c, C.h (c + (new - old) • C.g i.val)) := by
  simp only [bump, h, unwrap, bind, Except.bind, SubNode.getInner]
  rfl

/-- The final loop: everything above `r` still has its old commitment. -/
theorem climb_spec (C : Crypto F G) {P : Path} {m m' : KV} {s : Stem} (A : AddStem m m' s) :
    ∀ (r : Path) (T : BMap Path (SubNode G)) (old new : F), P ++ r <+: s.1 → (∀ y, Proper y r → RB P m y) →
      BMap.Sorted T → (∀ x, BMap.get x T = if Proper x r then subNode C P m x else subNode C P m' x) →
      (r ≠ [] → old = childHash C m (P ++ r) ∧ new = childHash C m' (P ++ r)) →
      ∃ T', climb C r.reverse T old new = .ok T' ∧ TreeOk C P m' T' := by
  intro r
  induction r using List.reverseRecOn with
  | nil =>
    intro T old new _ _ hs hg _
    refine ⟨T, rfl, hs, fun x => ?_⟩
    rw [hg, if_neg]
    rintro ⟨h1, h2⟩
    exact h2 (List.prefix_nil.1 h1)
  | append_singleton r i ih =>
    intro T old new hpre hB hs hg hv
    obtain ⟨rfl, rfl⟩ := hv (by simp)
    have hB' : RB P m r := hB r (proper_snoc.2 (List.prefix_refl _))
    have hBm' : RB P m' r := by
      rcases hB' with h | h
      · exact Or.inl h
      · exact Or.inr (A.many h)
    have hg0 : BMap.get r T = some (.inner (branchComm C m (P ++ r))) := by
      rw [hg, if_pos (proper_snoc.2 (List.prefix_refl _)), subNode_inner hB']
    rw [← List.append_assoc] at hpre
    have hstep := A.step C hpre
    rw [List.reverse_append]
    show ∃ T', climb C (i :: r.reverse) T _ _ = _ ∧ _
    simp only [climb, List.reverse_reverse, ← List.append_assoc, bump_ok C hg0, bind, Except.bind, ← hstep]
    refine ih _ _ _ ((List.prefix_append _ _).trans hpre) (fun y hy => hB y (proper_snoc.2 hy.1))
      (BMap.sorted_insert _ _ hs) (fun x => ?_) (fun hne => ?_)
    · rw [BMap.get_insert _ _ _ hs]
      by_cases hx : x = r
      · subst hx
        rw [if_pos rfl, if_neg (fun h : Proper x x => h.2 rfl), subNode_inner hBm']
      · rw [if_neg hx, hg]
        by_cases hx' : x <+: r
        · rw [if_pos (proper_snoc.2 hx'), if_pos ⟨hx', hx⟩]
        · rw [if_neg (fun h => hx' (proper_snoc.1 h)), if_neg (fun h : Proper x r => hx' h.1)]
    · have hm : Many m (P ++ r) := hB'.resolve_left hne
      exact ⟨(childHash_many hm).symm, (childHash_many (A.many hm)).symm⟩

/-! ### The walk -/

/-- Where the walk for `s` ends. -/
theorem descend_spec (C : Crypto F G) {P : Path} {m : KV} {s : Stem} (hP : P.length < 31) {T : BMap Path (SubNode G)}
    (hT : TreeOk C P m T) : ∀ (rest : List Byte) (q : Path) (c : G), P ++ q ++ rest = s.1 → RB P m q →
    ∃ q' rest' n, descend T rest q (.inner c) = .ok (rest', q', n) ∧ P ++ q' ++ rest' = s.1 ∧ q' ≠ [] ∧
      RB P m q'.dropLast ∧ ¬ RB P m q' ∧
      (((∃ c, n = .inner c) ∧ ∀ u, ¬ Under m (P ++ q') u) ∨
        ∃ t, n = .stem t (stemComm C m t) ∧ Under m (P ++ q') t)
  | [], q, c, he, hb => by
    exfalso
    have := RB.len hP hb
    have h31 := s.2
    rw [← he] at h31
    simp at h31 this
    omega
  | i :: rest, q, c, he, hb => by
    have he' : P ++ (q ++ [i]) ++ rest = s.1 := by rw [← he]; simp
    simp only [descend, hT.get]
    by_cases hb' : RB P m (q ++ [i])
    · rw [subNode_inner hb']
      exact descend_spec C hP hT rest (q ++ [i]) _ he' hb'
    · have hd : RB P m (q ++ [i]).dropLast := by simpa using hb
      by_cases hu : ∃ u, Under m (P ++ (q ++ [i])) u
      · obtain ⟨u, hu⟩ := hu
        rw [subNode_stem hb' hu hd]
        exact ⟨q ++ [i], rest, .stem u (stemComm C m u), (by cases rest <;> rfl), he', by simp, hd, hb', Or.inr ⟨u, rfl, hu⟩⟩
      · rw [subNode_none hb' (Or.inl fun u h => hu ⟨u, h⟩)]
        exact ⟨q ++ [i], rest, .inner c, rfl, he', by simp, hd, hb', Or.inl ⟨⟨c, rfl⟩, fun u h => hu ⟨u, h⟩⟩⟩

/-! ### Splitting a stem -/

/-- The indices shared by two different stems. -/
theorem splitLoop_spec : ∀ (as bs : List Byte) (path : Path) (T : BMap Path (SubNode G)), as.length = bs.length → as ≠ bs →
    BMap.Sorted T → ∃ com a as' c bs' T', as = com ++ a :: as' ∧ bs = com ++ c :: bs' ∧ a ≠ c ∧
      splitLoop as bs path T = .ok (T', path ++ com, a, c) ∧ BMap.Sorted T' ∧
      ∀ x, BMap.get x T' = if ∃ y, y ≠ [] ∧ y <+: com ∧ x = path ++ y then some (.inner 0) else BMap.get x T
  | [], [], _, _, _, h, _ => absurd rfl h
  | [], _ :: _, _, _, h, _, _ => by simp at h
  | _ :: _, [], _, _, h, _, _ => by simp at h
  | a :: as, c :: bs, path, T, hl, hne, hs => by
    by_cases hac : a = c
    · subst hac
      obtain ⟨com, x, as', y, bs', T', h1, h2, h3, h4, h5, h6⟩ := splitLoop_spec as bs (path ++ [a])
        (BMap.insert (path ++ [a]) (.inner 0) T) (by simpa using hl) (fun e => hne (by rw [e])) (BMap.sorted_insert _ _ hs)
      refine ⟨a :: com, x, as', y, bs', T', by rw [h1]; rfl, by rw [h2]; rfl, h3, ?_, h5, fun z => ?_⟩
      · simp only [splitLoop, if_true, h4]
        rw [List.append_assoc]; rfl
      · rw [h6, BMap.get_insert _ _ _ hs]
        by_cases hz : z = path ++ [a]
        · subst hz
          rw [if_pos (rfl : path ++ [a] = path ++ [a]), if_pos (⟨[a], by simp, by simp, rfl⟩ :
            ∃ y, y ≠ [] ∧ y <+: a :: com ∧ path ++ [a] = path ++ y)]
          split <;> rfl
        · rw [if_neg hz]
          congr 1
          apply propext
          constructor
          · rintro ⟨y, _, h7, rfl⟩
            exact ⟨a :: y, by simp, by simpa using h7, by simp⟩
          · rintro ⟨y, h7, h8, rfl⟩
            cases y with
            | nil => exact absurd rfl h7
            | cons b y =>
              rw [List.cons_prefix_cons] at h8
              obtain ⟨rfl, h8⟩ := h8
              refine ⟨y, ?_, h8, by simp⟩
              rintro rfl
              exact hz rfl
    · refine ⟨[], a, as, c, bs, T, rfl, rfl, hac, ?_, hs, fun x => ?_⟩
      · simp only [splitLoop, if_neg hac, List.append_nil]
      · rw [if_neg]
        rintro ⟨y, h1, h2, _⟩
        exact h1 (List.prefix_nil.1 h2)

/-- The new stem `s` meets the stem `t` at the relative path `q`; they part at `b`, going to `c` and `a`. -/
structure Split (P : Path) (m : KV) (s t : Stem) (q b : Path) (a c : Byte) : Prop where
  ne : q ≠ []
  up : RB P m q.dropLast
  down : ¬ RB P m q
  old : Under m (P ++ q) t
  qb : q <+: b
  bs : P ++ (b ++ [c]) <+: s.1
  bt : P ++ (b ++ [a]) <+: t.1
  ac : a ≠ c

namespace Split
variable {P : Path} {m m' : KV} {s t : Stem} {q b : Path} {a c : Byte} (S : Split P m s t q b a c) (A : AddStem m m' s)
include S

theorem pre_s {x : Path} (h : x <+: b) : P ++ x <+: s.1 :=
  ((List.prefix_append_right_inj P).2 (h.trans (List.prefix_append _ _))).trans S.bs

theorem pre_t {x : Path} (h : x <+: b) : P ++ x <+: t.1 :=
  ((List.prefix_append_right_inj P).2 (h.trans (List.prefix_append _ _))).trans S.bt

theorem only {x : Path} (h : q <+: x) {u : Stem} (hu : Under m (P ++ x) u) : u = t :=
  Under.unique (RB.not_many S.down) (hu.mono ((List.prefix_append_right_inj P).2 h)) S.old

theorem proper_up {y : Path} (h : Proper y q) : RB P m y := by
  refine S.up.mono ?_
  obtain ⟨q0, i, rfl⟩ := (List.eq_nil_or_concat q).resolve_left S.ne
  have : y <+: q0 := proper_snoc.1 (by simpa using h)
  simpa using this

include A

theorem ts : t ≠ s := fun e => A.no (e ▸ S.old.1)

theorem only' {x : Path} (h : q <+: x) {u : Stem} (hu : Under m' (P ++ x) u) : u = t ∨ u = s := by
  rcases A.under.1 hu with h' | h'
  · exact Or.inl (S.only h h')
  · exact Or.inr h'.1

theorem many' {x : Path} (h : x <+: b) : Many m' (P ++ x) :=
  ⟨t, s, S.ts A, A.under.2 (Or.inl ⟨S.old.1, S.pre_t h⟩), A.under.2 (Or.inr ⟨rfl, S.pre_s h⟩)⟩

/-- Below the point where the stems part there is no inner node. -/
theorem not_rb' {x : Path} (h : q <+: x) (hx : ¬ x <+: b) : ¬ RB P m' x := by
  rintro (h' | ⟨u, v, hne, hu, hv⟩)
  · subst h'; exact hx (List.nil_prefix)
  · have key : ∀ u v : Stem, u = t → v = s → Under m' (P ++ x) u → Under m' (P ++ x) v → False := by
      rintro _ _ rfl rfl hu hv
      have h1 : x <+: b ++ [a] ∨ b ++ [a] <+: x := by
        rcases List.prefix_or_prefix_of_prefix hu.2 S.bt with h | h
        · exact Or.inl ((List.prefix_append_right_inj P).1 h)
        · exact Or.inr ((List.prefix_append_right_inj P).1 h)
      have h2 : x <+: b ++ [c] ∨ b ++ [c] <+: x := by
        rcases List.prefix_or_prefix_of_prefix hv.2 S.bs with h | h
        · exact Or.inl ((List.prefix_append_right_inj P).1 h)
        · exact Or.inr ((List.prefix_append_right_inj P).1 h)
      have e1 : b ++ [a] <+: x := by
        rcases h1 with h1 | h1
        · rcases List.prefix_concat_iff.1 h1 with e | e
          · rw [e]
          · exact absurd e hx
        · exact h1
      have e2 : b ++ [c] <+: x := by
        rcases h2 with h2 | h2
        · rcases List.prefix_concat_iff.1 h2 with e | e
          · rw [e]
          · exact absurd e hx
        · exact h2
      exact S.ac (prefix_snoc_inj e1 e2)
    rcases S.only' A h hu with e1 | e1 <;> rcases S.only' A h hv with e2 | e2
    · exact hne (e1.trans e2.symm)
    · exact key u v e1 e2 hu hv
    · exact key v u e2 e1 hv hu
    · exact hne (e1.trans e2.symm)

/-- The nodes that do not change. -/
theorem same (C : Crypto F G) {x : Path} (h1 : ¬ Proper x q) (h2 : ¬ (q <+: x ∧ x <+: b)) (h3 : x ≠ b ++ [c])
    (h4 : x ≠ b ++ [a]) : subNode C P m x = subNode C P m' x := by
  have hx0 : x ≠ [] := by
    rintro rfl
    exact h1 ⟨List.nil_prefix, fun e => S.ne e.symm⟩
  obtain ⟨y, j, rfl⟩ := (List.eq_nil_or_concat x).resolve_left hx0
  simp only [List.concat_eq_append] at *
  have below : ∀ z, q <+: z → ¬ RB P m z := fun z hz hb => S.down (hb.mono hz)
  by_cases hs : P ++ (y ++ [j]) <+: s.1
  · have hc : b ++ [c] <+: y ++ [j] := by
      rcases List.prefix_or_prefix_of_prefix S.bs hs with h | h
      · exact (List.prefix_append_right_inj P).1 h
      · exfalso
        have h := (List.prefix_append_right_inj P).1 h
        rcases List.prefix_concat_iff.1 h with e | e
        · exact h3 e
        · rcases List.prefix_or_prefix_of_prefix S.qb e with h' | h'
          · exact h2 ⟨h', e⟩
          · exact h1 ⟨h', fun e' => h2 ⟨e' ▸ List.prefix_refl _, e⟩⟩
    have hy : b ++ [c] <+: y := by
      rcases List.prefix_concat_iff.1 hc with e | e
      · exact absurd e.symm h3
      · exact e
    have hqy : q <+: y := (S.qb.trans (List.prefix_append _ _)).trans hy
    have hyb : ¬ y <+: b := fun h => by
      have := (hy.trans h).length_le
      simp at this
    have hq' : q <+: y ++ [j] := hqy.trans (List.prefix_append _ _)
    have hyb' : ¬ y ++ [j] <+: b := fun h => hyb ((List.prefix_append _ _).trans h)
    rw [subNode_none (below _ hq') (Or.inr (by simpa using below _ hqy)),
      subNode_none (S.not_rb' A hq' hyb') (Or.inr (by simpa using S.not_rb' A hqy hyb))]
  · have hag := A.agree hs
    have hRB : RB P m (y ++ [j]) ↔ RB P m' (y ++ [j]) := by
      unfold RB
      rw [hag.many]
    by_cases hp : Proper y q
    · have hb := S.proper_up hp
      have hb' : RB P m' y := by
        rcases hb with h | h
        · exact Or.inl h
        · exact Or.inr (A.many h)
      exact subNode_congr hag hRB (by simp [hb, hb'])
    by_cases hys : P ++ y <+: s.1
    · -- on the path of the new stem, at or below `q`
      have hqy : q <+: y := by
        rcases List.prefix_or_prefix_of_prefix (S.pre_s S.qb) hys with h | h
        · exact (List.prefix_append_right_inj P).1 h
        · have h := (List.prefix_append_right_inj P).1 h
          by_cases e : y = q
          · rw [e]
          · exact absurd ⟨h, e⟩ hp
      have hq' : q <+: y ++ [j] := hqy.trans (List.prefix_append _ _)
      by_cases hyb : y <+: b
      · have hnone : ∀ u, ¬ Under m (P ++ (y ++ [j])) u := by
          intro u hu
          have e := S.only hq' hu
          subst e
          rcases List.prefix_or_prefix_of_prefix hu.2 S.bt with h | h
          · have h := (List.prefix_append_right_inj P).1 h
            rcases List.prefix_concat_iff.1 h with e | e
            · exact h4 e
            · exact hs (S.pre_s e)
          · have h := (List.prefix_append_right_inj P).1 h
            rcases List.prefix_concat_iff.1 h with e | e
            · exact h4 e.symm
            · have := (e.trans hyb).length_le
              simp at this
        rw [subNode_none (below _ hq') (Or.inl hnone),
          subNode_none (fun h => below _ hq' (hRB.2 h)) (Or.inl fun u h => hnone u (hag.under.2 h))]
      · rw [subNode_none (below _ hq') (Or.inr (by simpa using below _ hqy)),
          subNode_none (fun h => below _ hq' (hRB.2 h)) (Or.inr (by simpa using S.not_rb' A hqy hyb))]
    · have hag' := A.agree hys
      refine subNode_congr hag hRB ?_
      simp only [List.dropLast_concat]
      unfold RB
      rw [hag'.many]

/-- The bottom of the new chain. -/
theorem bottom (C : Crypto F G) : branchComm C m' (P ++ b)
    = C.h (stemComm C m t) • C.g a.val + C.h (stemComm C m' s) • C.g c.val := by
  have hl := S.bs.length_le
  rw [s.2] at hl
  simp at hl
  have hqa : ∀ j, q <+: b ++ [j] := fun j => S.qb.trans (List.prefix_append _ _)
  have hm : branchComm C m (P ++ b) = C.h (stemComm C m t) • C.g a.val := by
    rw [branchComm_only C (i := a) (by simp; omega)]
    · rw [childHash_single]
      · rw [List.append_assoc]; exact fun h => S.down (RB.mono (Or.inr h) (hqa a))
      · rw [List.append_assoc]; exact ⟨S.old.1, S.bt⟩
    · intro j hj u hu
      rw [List.append_assoc] at hu
      have := S.only (hqa j) hu
      subst this
      have h1 := hu.2
      have h2 := S.bt
      rw [← List.append_assoc] at h1 h2
      exact hj (prefix_snoc_inj h1 h2)
  have hbs := S.bs
  rw [← List.append_assoc] at hbs
  rw [A.step C hbs, hm]
  have hnot : ∀ j, ¬ b ++ [j] <+: b := fun j h => by have := h.length_le; simp at this
  have e1 : childHash C m (P ++ b ++ [c]) = 0 := by
    apply childHash_none
    intro u hu
    rw [List.append_assoc] at hu
    have := S.only (hqa c) hu
    subst this
    have h1 := hu.2
    have h2 := S.bt
    rw [← List.append_assoc] at h1 h2
    exact S.ac (prefix_snoc_inj h2 h1)
  have e2 : childHash C m' (P ++ b ++ [c]) = C.h (stemComm C m' s) := by
    rw [List.append_assoc]
    exact childHash_single (RB.not_many (S.not_rb' A (hqa c) (hnot c))) ⟨A.yes, S.bs⟩
  rw [e1, e2, sub_zero]

/-- An inner node of the new chain has one child. -/
theorem chain (C : Crypto F G) {r : Path} {i : Byte} (hq : q <+: r) (hr : r ++ [i] <+: b) :
    branchComm C m' (P ++ r) = C.h (branchComm C m' (P ++ (r ++ [i]))) • C.g i.val := by
  have hp := S.pre_s hr
  have hl := hp.length_le
  rw [s.2] at hl
  simp at hl
  rw [branchComm_only C (i := i) (by simp; omega)]
  · rw [List.append_assoc, childHash_many (S.many' A hr)]
  · intro j hj u hu
    rw [List.append_assoc] at hu
    rcases S.only' A (hq.trans (List.prefix_append _ _)) hu with rfl | rfl
    · have h1 := hu.2
      have h2 := S.pre_t hr
      rw [← List.append_assoc] at h1 h2
      exact hj (prefix_snoc_inj h1 h2)
    · have h1 := hu.2
      have h2 := S.pre_s hr
      rw [← List.append_assoc] at h1 h2
      exact hj (prefix_snoc_inj h1 h2)

/-- The loop over the new chain. -/
theorem chainClimb_spec (C : Crypto F G) : ∀ (e : Path) (T : BMap Path (SubNode G)), q ++ e <+: b → BMap.Sorted T →
    (∀ x, BMap.get x T = if Proper x q then subNode C P m x
      else if q <+: x ∧ Proper x (q ++ e) then some (.inner 0) else subNode C P m' x) →
    ∃ T', chainClimb C q.reverse (q ++ e).reverse T 0 (C.h (branchComm C m' (P ++ (q ++ e)))) =
        .ok (q.reverse, T', 0, C.h (branchComm C m' (P ++ q))) ∧ BMap.Sorted T' ∧
      ∀ x, BMap.get x T' = if Proper x q then subNode C P m x else subNode C P m' x := by
  intro e
  induction e using List.reverseRecOn with
  | nil =>
    intro T _ hs hg
    simp only [List.append_nil] at *
    refine ⟨T, ?_, hs, fun x => ?_⟩
    · obtain ⟨j, l, hjl⟩ : ∃ j l, q.reverse = j :: l :=
        List.exists_cons_of_ne_nil (by simpa using S.ne)
      rw [hjl]
      simp [chainClimb]
    · rw [hg]
      split
      · rfl
      · rw [if_neg]
        rintro ⟨h1, h2, h3⟩
        exact h3 (h2.eq_of_length_le h1.length_le)
  | append_singleton e i ih =>
    intro T hb hs hg
    rw [← List.append_assoc] at hb hg ⊢
    have hstop : i :: (q ++ e).reverse ≠ q.reverse := by
      intro h
      have := congrArg List.length h
      simp at this
      omega
    have hq : q <+: q ++ e := List.prefix_append _ _
    have hnp : ¬ Proper (q ++ e) q := fun h => h.2 (h.1.eq_of_length_le hq.length_le)
    have hg0 : BMap.get (q ++ e) T = some (.inner 0) := by
      rw [hg, if_neg hnp, if_pos ⟨hq, proper_snoc.2 (List.prefix_refl _)⟩]
    have hbe : q ++ e <+: b := (List.prefix_append _ _).trans hb
    have hch := S.chain A C hq hb
    rw [List.reverse_append]
    show ∃ T', chainClimb C q.reverse (i :: (q ++ e).reverse) T _ _ = _ ∧ _
    simp only [chainClimb, if_neg hstop, List.reverse_reverse, bump_ok C hg0, bind, Except.bind, sub_zero, zero_add, ← hch,
      C.h_zero]
    refine ih _ hbe (BMap.sorted_insert _ _ hs) (fun x => ?_)
    rw [BMap.get_insert _ _ _ hs]
    by_cases hx : x = q ++ e
    · subst hx
      rw [if_pos rfl, if_neg hnp, if_neg (fun h : _ ∧ Proper (q ++ e) (q ++ e) => h.2.2 rfl),
        subNode_inner (Or.inr (S.many' A hbe))]
    · rw [if_neg hx, hg]
      split
      · rfl
      · by_cases hxe : q <+: x ∧ x <+: q ++ e
        · rw [if_pos ⟨hxe.1, proper_snoc.2 hxe.2⟩, if_pos ⟨hxe.1, hxe.2, hx⟩]
        · rw [if_neg (fun h => hxe ⟨h.1, proper_snoc.1 h.2⟩), if_neg (fun h => hxe ⟨h.1, h.2.1⟩)]

end Split

/-! ### One element, all elements -/

theorem subtreeStep_spec (C : Crypto F G) {P : Path} {m m' : KV} {s : Stem} (A : AddStem m m' s) (hP : P.length < 31)
    (hs : P <+: s.1) {T : BMap Path (SubNode G)} (hT : TreeOk C P m T) :
    ∃ T', subtreeStep C P s (stemComm C m' s) T = .ok T' ∧ TreeOk C P m' T' := by
  have hroot : BMap.get [] T = some (.inner (branchComm C m (P ++ []))) := by
    rw [hT.get, subNode_inner (Or.inl rfl)]
  have hdrop : P ++ [] ++ s.1.drop P.length = s.1 := by
    obtain ⟨r, hr⟩ := hs
    rw [← hr]; simp
  obtain ⟨q, rest, n, hd, he, hne, hup, hdown, hn⟩ := descend_spec C hP hT _ [] (branchComm C m (P ++ [])) hdrop (Or.inl rfl)
  have hqs : P ++ q <+: s.1 := ⟨rest, he⟩
  have hpup : ∀ y, Proper y q → RB P m y := by
    intro y hy
    refine hup.mono ?_
    obtain ⟨q0, i, rfl⟩ := (List.eq_nil_or_concat q).resolve_left hne
    have : y <+: q0 := proper_snoc.1 (by simpa using hy)
    simpa using this
  have hup' : RB P m' q.dropLast := by
    rcases hup with h | h
    · exact Or.inl h
    · exact Or.inr (A.many h)
  unfold subtreeStep
  rw [if_neg (by omega)]
  simp only [hroot, unwrap, bind, Except.bind, hd]
  rcases hn with ⟨⟨c, rfl⟩, hno⟩ | ⟨t, rfl, ht⟩
  · -- an empty place
    have hdown' : ∀ x, q <+: x → ¬ RB P m' x := by
      rintro x hx (h | ⟨u, v, huv, hu, hv⟩)
      · subst h; exact hne (List.prefix_nil.1 hx)
      · have key : ∀ u, Under m' (P ++ x) u → u = s := by
          intro u hu
          rcases A.under.1 hu with h | h
          · exact absurd (h.mono ((List.prefix_append_right_inj P).2 hx)) (hno u)
          · exact h.1
        exact huv ((key u hu).trans (key v hv).symm)
    refine climb_spec C A q _ _ _ hqs hpup (BMap.sorted_insert _ _ hT.sorted) (fun x => ?_) (fun _ => ⟨?_, ?_⟩)
    · rw [BMap.get_insert _ _ _ hT.sorted, hT.get]
      by_cases hx : x = q
      · subst hx
        rw [if_pos rfl, if_neg (fun h : Proper x x => h.2 rfl),
          subNode_stem (hdown' _ (List.prefix_refl _)) ⟨A.yes, hqs⟩ hup']
      · rw [if_neg hx]
        by_cases hp : Proper x q
        · rw [if_pos hp]
        rw [if_neg hp]
        have hsame : ∀ y, RB P m y ↔ RB P m' y := by
          intro y
          refine ⟨fun h => h.elim Or.inl fun h => Or.inr (A.many h), fun h => ?_⟩
          by_cases hy : P ++ y <+: s.1
          · rcases List.prefix_or_prefix_of_prefix hqs hy with h' | h'
            · exact absurd h (hdown' _ ((List.prefix_append_right_inj P).1 h'))
            · have h' := (List.prefix_append_right_inj P).1 h'
              by_cases e : y = q
              · subst e; exact absurd h (hdown' _ (List.prefix_refl _))
              · exact hpup y ⟨h', e⟩
          · unfold RB at *
            rwa [(A.agree hy).many]
        by_cases hxs : P ++ x <+: s.1
        · have hqx : q <+: x := by
            rcases List.prefix_or_prefix_of_prefix hqs hxs with h' | h'
            · exact (List.prefix_append_right_inj P).1 h'
            · exact absurd ⟨(List.prefix_append_right_inj P).1 h', hx⟩ hp
          have hqd : q <+: x.dropLast := by
            obtain ⟨y, j, rfl⟩ := (List.eq_nil_or_concat x).resolve_left (fun e => hne (List.prefix_nil.1 (e ▸ hqx)))
            rw [List.concat_eq_append] at hqx hx ⊢
            have : q <+: y := proper_snoc.1 ⟨hqx, Ne.symm hx⟩
            simpa using this
          have h1 := hdown' _ hqx
          have h2 := hdown' _ hqd
          rw [subNode_none (fun h => h1 ((hsame _).1 h)) (Or.inr fun h => h2 ((hsame _).1 h)), subNode_none h1 (Or.inr h2)]
        · exact subNode_congr (A.agree hxs) (hsame _) (hsame _)
    · exact (childHash_none hno).symm
    · exact (childHash_single (RB.not_many (hdown' q (List.prefix_refl _))) ⟨A.yes, hqs⟩).symm
  · -- a stem is in the way
    have hts : t ≠ s := fun e => A.no (e ▸ ht.1)
    have hlen : 31 - rest.length = (P ++ q).length := by
      have := congrArg List.length he
      rw [s.2, List.length_append] at this
      omega
    obtain ⟨rt, hrt⟩ := ht.2
    have hdt : t.1.drop (31 - rest.length) = rt := by rw [hlen, ← hrt]; simp
    have hs1 := BMap.sorted_insert q (.inner 0) hT.sorted
    have hll : rt.length = rest.length := by
      have h1 := congrArg List.length hrt
      have h2 := congrArg List.length he
      rw [t.2, List.length_append] at h1
      rw [s.2, List.length_append] at h2
      omega
    have hrne : rt ≠ rest := fun e => hts (Subtype.ext (by rw [← hrt, e, he]))
    obtain ⟨com, a, as', c, bs', T', e1, e2, hac, hsp, hsT', hgT'⟩ := splitLoop_spec rt rest q _ hll hrne hs1
    have S : Split P m s t q (q ++ com) a c := by
      refine ⟨hne, hup, hdown, ht, List.prefix_append _ _, ⟨bs', ?_⟩, ⟨as', ?_⟩, hac⟩
      · rw [← he, e2]; simp
      · rw [← hrt, e1]; simp
    have hsT2 := BMap.sorted_insert (q ++ com ++ [a]) (.stem t (stemComm C m t)) hsT'
    have hsT3 := BMap.sorted_insert (q ++ com ++ [c]) (.stem s (stemComm C m' s)) hsT2
    have hnb : ∀ j : Byte, q ++ com ≠ q ++ com ++ [j] := fun j h => by
      have := congrArg List.length h; simp at this
    have hg3 : BMap.get (q ++ com) (BMap.insert (q ++ com ++ [c]) (.stem s (stemComm C m' s))
        (BMap.insert (q ++ com ++ [a]) (.stem t (stemComm C m t)) T')) = some (.inner 0) := by
      rw [BMap.get_insert _ _ _ hsT2, if_neg (hnb c), BMap.get_insert _ _ _ hsT', if_neg (hnb a), hgT',
        BMap.get_insert _ _ _ hT.sorted]
      by_cases hc : com = []
      · subst hc; simp
      · rw [if_pos ⟨com, hc, List.prefix_refl _, rfl⟩]
    have hbot : (0 : G) + (C.scalarMul (C.h (stemComm C m t)) a.val + C.scalarMul (C.h (stemComm C m' s)) c.val)
        = branchComm C m' (P ++ (q ++ com)) := by
      rw [zero_add, S.bottom A C]; rfl
    simp only [hdt, hsp, hg3, SubNode.getInner, hbot]
    obtain ⟨T4, h4, hs4, hg4⟩ := S.chainClimb_spec A C com (BMap.insert (q ++ com) (.inner (branchComm C m' (P ++ (q ++ com))))
        (BMap.insert (q ++ com ++ [c]) (.stem s (stemComm C m' s))
        (BMap.insert (q ++ com ++ [a]) (.stem t (stemComm C m t)) T'))) (List.prefix_refl _) (BMap.sorted_insert _ _ hsT3)
      (fun x => by
        rw [BMap.get_insert _ _ _ hsT3]
        by_cases hxb : x = q ++ com
        · subst hxb
          rw [if_pos rfl, if_neg (fun h : Proper (q ++ com) q => h.2 (h.1.eq_of_length_le (List.prefix_append _ _).length_le)),
            if_neg (fun h : _ ∧ Proper (q ++ com) (q ++ com) => h.2.2 rfl), subNode_inner (Or.inr (S.many' A (List.prefix_refl _)))]
        rw [if_neg hxb, BMap.get_insert _ _ _ hsT2]
        have hnot : ∀ j : Byte, ¬ q ++ com ++ [j] <+: q ++ com := fun j h => by have := h.length_le; simp at this
        have hqj : ∀ j : Byte, q <+: q ++ com ++ [j] := fun j => by rw [List.append_assoc]; exact List.prefix_append _ _
        have hnp : ∀ j : Byte, ¬ Proper (q ++ com ++ [j]) q := fun j h =>
          h.2 (h.1.eq_of_length_le (hqj j).length_le)
        by_cases hxc : x = q ++ com ++ [c]
        · subst hxc
          rw [if_pos rfl, if_neg (hnp c), if_neg (fun h => hnot c h.2.1),
            subNode_stem (S.not_rb' A (hqj c) (hnot c)) ⟨A.yes, S.bs⟩
              (by rw [List.dropLast_concat]; exact Or.inr (S.many' A (List.prefix_refl _)))]
        rw [if_neg hxc, BMap.get_insert _ _ _ hsT']
        by_cases hxa : x = q ++ com ++ [a]
        · subst hxa
          rw [if_pos rfl, if_neg (hnp a), if_neg (fun h => hnot a h.2.1),
            subNode_stem (S.not_rb' A (hqj a) (hnot a)) (A.under.2 (Or.inl ⟨ht.1, S.bt⟩))
              (by rw [List.dropLast_concat]; exact Or.inr (S.many' A (List.prefix_refl _))), A.stemComm_ne C hts]
        rw [if_neg hxa, hgT', BMap.get_insert _ _ _ hT.sorted, hT.get]
        by_cases hp : Proper x q
        · rw [if_pos hp, if_neg, if_neg hp.2]
          rintro ⟨y, hy, _, rfl⟩
          exact hp.2 (hp.1.eq_of_length_le (List.prefix_append _ _).length_le)
        rw [if_neg hp]
        by_cases hm : q <+: x ∧ x <+: q ++ com
        · rw [if_pos (⟨hm.1, hm.2, hxb⟩ : q <+: x ∧ Proper x (q ++ com))]
          obtain ⟨⟨y, rfl⟩, h2⟩ := hm
          have h2 := (List.prefix_append_right_inj q).1 h2
          by_cases hy : y = []
          · subst hy
            simp
          · rw [if_pos ⟨y, hy, h2, rfl⟩]
        · rw [if_neg (fun h : q <+: x ∧ Proper x (q ++ com) => hm ⟨h.1, h.2.1⟩), if_neg, if_neg]
          · exact S.same A C hp hm hxc hxa
          · rintro rfl; exact hm ⟨List.prefix_refl _, List.prefix_append _ _⟩
          · rintro ⟨y, _, hy, rfl⟩
            exact hm ⟨List.prefix_append _ _, (List.prefix_append_right_inj q).2 hy⟩)
    rw [h4]
    have hcl := climb_spec C A q T4 (C.h (stemComm C m t)) (C.h (branchComm C m' (P ++ q))) hqs hpup hs4 hg4
      (fun _ => ⟨(childHash_single (RB.not_many hdown) ht).symm,
        (childHash_many (S.many' A (List.prefix_append _ _))).symm⟩)
    obtain ⟨j, l, hjl⟩ : ∃ j l, q.reverse = j :: l := List.exists_cons_of_ne_nil (by simpa using hne)
    rw [hjl] at hcl
    simp only [climb, bind, Except.bind] at hcl
    simp only [hjl]
    exact hcl

theorem subtreeLoop_spec (C : Crypto F G) {P : Path} (M : KV) (hP : P.length < 31) :
    ∀ (es done : List Stem) (T : BMap Path (SubNode G)), (es ++ done).Nodup →
      (∀ s ∈ es, Under M P s) → TreeOk C P (patch (· ∈ done) emptyKV M) T →
      ∃ T', subtreeLoop C P (es.map fun s => (s, stemComm C M s)) T = .ok T' ∧
        TreeOk C P (patch (fun s => s ∈ es ∨ s ∈ done) emptyKV M) T'
  | [], done, T, _, _, hT => ⟨T, rfl, by simpa using hT⟩
  | s :: es, done, T, hnd, hu, hT => by
    have hsd : s ∉ done := fun h => by
      rw [List.cons_append, List.nodup_cons] at hnd
      exact hnd.1 (List.mem_append_right _ h)
    have A : AddStem (patch (· ∈ done) emptyKV M) (patch (· ∈ s :: done) emptyKV M) s := by
      refine ⟨fun t ht b => ?_, ?_, ?_⟩
      · by_cases hd : t ∈ done
        · rw [patch_in hd, patch_in (List.mem_cons_of_mem _ hd)]
        · rw [patch_out hd, patch_out (by simp [ht, hd])]
      · rw [hasStem_patch]
        rintro (h | ⟨_, b, h⟩)
        · exact hsd h.1
        · exact h rfl
      · rw [hasStem_patch]
        exact Or.inl ⟨List.mem_cons_self, (hu s (by simp)).1⟩
    obtain ⟨T1, h1, hT1⟩ := subtreeStep_spec C A hP (hu s (by simp)).2 hT
    have hc : stemComm C (patch (· ∈ s :: done) emptyKV M) s = stemComm C M s :=
      stemComm_congr C fun b => patch_in List.mem_cons_self b
    rw [hc] at h1
    obtain ⟨T2, h2, hT2⟩ := subtreeLoop_spec C M hP es (s :: done) T1 (by
        rw [List.cons_append] at hnd
        exact (List.perm_middle.nodup_iff).2 hnd) (fun t ht => hu t (by simp [ht])) hT1
    refine ⟨T2, ?_, ?_⟩
    · rw [List.map_cons]
      simp only [subtreeLoop, h1, bind, Except.bind, h2]
    · have : (fun t => t ∈ s :: es ∨ t ∈ done) = fun t => t ∈ es ∨ t ∈ s :: done := by
        funext t
        simp only [List.mem_cons]
        apply propext
        tauto
      rw [this]
      exact hT2

/-- **`build_subtree`.**  Given all stems of the map below `P`, in any order, with their commitments, the result is the
commitment of the branch at `P`. -/
theorem buildSubtree_spec (C : Crypto F G) {P : Path} (M : KV) (hP : P.length < 31) {es : List Stem} (hnd : es.Nodup)
    (hes : ∀ s, s ∈ es ↔ Under M P s) :
    buildSubtree C P (es.map fun s => (s, stemComm C M s)) = .ok (branchComm C M P) := by
  have h0 : TreeOk C P (patch (· ∈ ([] : List Stem)) emptyKV M) (BMap.insert [] (.inner (0 : G)) []) := by
    have hnone : ∀ p u, ¬ Under (patch (· ∈ ([] : List Stem)) emptyKV M) p u := by
      rintro p u ⟨h, _⟩
      rw [hasStem_patch] at h
      rcases h with h | ⟨_, b, h⟩
      · simp at h
      · exact h rfl
    refine ⟨BMap.sorted_insert _ _ List.Pairwise.nil, fun x => ?_⟩
    have hn : BMap.Sorted ([] : BMap Path (SubNode G)) := List.Pairwise.nil
    rw [BMap.get_insert _ _ _ hn]
    by_cases hx : x = []
    · subst hx
      rw [if_pos rfl, subNode_inner (Or.inl rfl), branchComm_eq _ _ _ (by simp; omega)]
      congr 2
      symm
      apply Finset.sum_eq_zero
      intro i _
      rw [childHash_none (hnone _), zero_smul]
    · rw [if_neg hx, subNode_none]
      · rfl
      · rintro (h | ⟨u, _, _, h, _⟩)
        · exact hx h
        · exact hnone _ u h
      · exact Or.inl (hnone _)
  obtain ⟨T, h1, hT⟩ := subtreeLoop_spec C M hP es [] _ (by simpa using hnd) (fun s h => (hes s).1 h) h0
  have hag : AgreeUnder (patch (fun s => s ∈ es ∨ s ∈ ([] : List Stem)) emptyKV M) M P := by
    refine patch_agree_right fun s hs hn b => ?_
    have : ¬ HasStem M s := fun h => hn (Or.inl ((hes s).2 ⟨h, hs⟩))
    by_contra hne
    exact this ⟨b, fun e => hne e.symm⟩
  have hg := hT.get []
  rw [subNode_inner (Or.inl rfl), List.append_nil, hag.branchComm C] at hg
  simp only [buildSubtree, h1, bind, Except.bind, hg, unwrap, SubNode.getInner]

end Verif.Proof
