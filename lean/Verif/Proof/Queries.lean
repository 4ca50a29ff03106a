import Verif.Proof.Prover

/-!
# The queries of the prover

Each query opens the node at a path `p` at an index `z`; `Label m K (p, z)` says which pairs are opened for the keys `K`.
-/

set_option autoImplicit false

namespace Verif.Proof
open Verif.Spec Verif.Trie BOrd
open scoped Classical

variable {F G : Type} [Field F] [AddCommGroup G] [Module F G]

/-- Index of the half of a stem in which a suffix lies. -/
def halfIdx (b : Byte) : Byte := if b.val < 128 then 2 else 3
/-- First slot of that half. -/
def halfOff (b : Byte) : ℕ := if b.val < 128 then 0 else 128
/-- Position of the low half of a value in its suffix commitment. -/
def lowIdx (b : Byte) : Byte := asU8 (2 * (b.val % 128))
/-- Position of the high half. -/
def highIdx (b : Byte) : Byte := asU8 (2 * (b.val % 128) + 1)

theorem lowIdx_val (b : Byte) : (lowIdx b).val = 2 * (b.val % 128) := asU8_val (by omega)
theorem highIdx_val (b : Byte) : (highIdx b).val = 2 * (b.val % 128) + 1 := asU8_val (by omega)

/-- The vector committed at path `p`: of a branch, of a stem, or of one half of a stem (path of the stem followed by `2` or
`3`); zero where there is no node. -/
noncomputable def nodeVec (C : Crypto F G) (m : KV) (p : Path) : Byte → F :=
  if IsBranch m p then branchVec C m p
  else if h : ∃ u, TermStem m p u then stemVec C m h.choose
  else if h : ∃ u, TermStem m p.dropLast u then suffixVec m h.choose (if p.getLast? = some 2 then 0 else 128) F
  else fun _ => 0

/-- The commitment at path `p`. -/
noncomputable def nodeComm (C : Crypto F G) (m : KV) (p : Path) : G := commit C (nodeVec C m p)

theorem nodeVec_branch {C : Crypto F G} {m : KV} {p : Path} (h : IsBranch m p) : nodeVec C m p = branchVec C m p := by
  rw [nodeVec, if_pos h]

theorem nodeVec_stem {C : Crypto F G} {m : KV} {p : Path} {u : Stem} (h : TermStem m p u) :
    nodeVec C m p = stemVec C m u := by
  have hex : ∃ u, TermStem m p u := ⟨u, h⟩
  rw [nodeVec, if_neg h.1, dif_pos hex, hex.choose_spec.unique h]

theorem TermStem.not_branch_append {m : KV} {p : Path} {u : Stem} (h : TermStem m p u) (i : Byte) :
    ¬ IsBranch m (p ++ [i]) := fun hb => h.not_proper hb (List.prefix_append _ _)

theorem TermStem.not_term_append {m : KV} {p : Path} {u v : Stem} (h : TermStem m p u) (i : Byte) :
    ¬ TermStem m (p ++ [i]) v := fun hv => by
  have := h.antichain hv (List.prefix_append _ _)
  simp at this

theorem nodeVec_suffix {C : Crypto F G} {m : KV} {p : Path} {u : Stem} (h : TermStem m p u) (b : Byte) :
    nodeVec C m (p ++ [halfIdx b]) = suffixVec m u (halfOff b) F := by
  have hdl : (p ++ [halfIdx b]).dropLast = p := by simp
  have hex : ∃ u, TermStem m (p ++ [halfIdx b]).dropLast u := ⟨u, by rw [hdl]; exact h⟩
  have h1 : ¬ ∃ u, TermStem m (p ++ [halfIdx b]) u := fun ⟨v, hv⟩ => h.not_term_append _ hv
  have h2 := hex.choose_spec
  rw [nodeVec, if_neg (h.not_branch_append _), dif_neg h1, dif_pos hex,
    show hex.choose = u from h2.unique (hdl.symm ▸ h)]
  unfold halfIdx halfOff
  by_cases hb : b.val < 128 <;> simp [hb]

theorem nodeVec_empty {C : Crypto F G} {m : KV} {p : Path} (h1 : ¬ IsBranch m p) (h2 : ∀ u, ¬ Under m p u)
    (h3 : IsBranch m p.dropLast) : nodeVec C m p = fun _ => 0 := by
  rw [nodeVec, if_neg h1, dif_neg (fun ⟨u, hu⟩ => h2 u hu.2.2), dif_neg (fun ⟨u, hu⟩ => hu.1 h3)]

theorem IsBranch.len {m : KV} {p : Path} (h : IsBranch m p) : p.length < 31 := by
  rcases h with rfl | h
  · simp
  · exact h.length_lt

theorem nodeComm_branch {C : Crypto F G} {m : KV} {p : Path} (h : IsBranch m p) : nodeComm C m p = branchComm C m p := by
  have := IsBranch.len h
  rw [nodeComm, nodeVec_branch h, branchComm_eq_commit _ _ _ (by omega)]

theorem nodeComm_stem {C : Crypto F G} {m : KV} {p : Path} {u : Stem} (h : TermStem m p u) :
    nodeComm C m p = stemComm C m u := by
  rw [nodeComm, nodeVec_stem h, stemComm_eq_commit]

theorem nodeComm_suffix {C : Crypto F G} {m : KV} {p : Path} {u : Stem} (h : TermStem m p u) (b : Byte) :
    nodeComm C m (p ++ [halfIdx b]) = suffixComm C m u (halfOff b) := by
  rw [nodeComm, nodeVec_suffix h, suffixComm_eq_commit]

/-- The evaluations handed to the opening argument for the node at `p`. -/
noncomputable def nodePoly (C : Crypto F G) (m : KV) (p : Path) : List F :=
  if IsBranch m p then (List.finRange 256).map (branchVec C m p)
  else if h : ∃ u, TermStem m p u then
    [1, (leNat h.choose.1 : F), C.h (suffixComm C m h.choose 0), C.h (suffixComm C m h.choose 128)]
  else if h : ∃ u, TermStem m p.dropLast u then
    halfOfStem (specDb C m) h.choose (if p.getLast? = some 2 then 0 else 128)
  else []

theorem nodePoly_branch {C : Crypto F G} {m : KV} {p : Path} (h : IsBranch m p) :
    nodePoly C m p = (List.finRange 256).map (branchVec C m p) := by rw [nodePoly, if_pos h]

theorem nodePoly_stem {C : Crypto F G} {m : KV} {p : Path} {u : Stem} (h : TermStem m p u) :
    nodePoly C m p = [1, (leNat u.1 : F), C.h (suffixComm C m u 0), C.h (suffixComm C m u 128)] := by
  have hex : ∃ u, TermStem m p u := ⟨u, h⟩
  rw [nodePoly, if_neg h.1, dif_pos hex, hex.choose_spec.unique h]

theorem nodePoly_suffix {C : Crypto F G} {m : KV} {p : Path} {u : Stem} (h : TermStem m p u) (b : Byte) :
    nodePoly C m (p ++ [halfIdx b]) = halfOfStem (specDb C m) u (halfOff b) := by
  have hdl : (p ++ [halfIdx b]).dropLast = p := by simp
  have hex : ∃ u, TermStem m (p ++ [halfIdx b]).dropLast u := ⟨u, by rw [hdl]; exact h⟩
  have h1 : ¬ ∃ u, TermStem m (p ++ [halfIdx b]) u := fun ⟨v, hv⟩ => h.not_term_append _ hv
  have h2 := hex.choose_spec
  rw [nodePoly, if_neg (h.not_branch_append _), dif_neg h1, dif_pos hex,
    show hex.choose = u from h2.unique (hdl.symm ▸ h)]
  unfold halfIdx halfOff
  by_cases hb : b.val < 128 <;> simp [hb]

theorem flatMap_pairs {α : Type} (a b : ℕ → α) (d : α) : ∀ n,
    ((List.range n).flatMap fun i => [a i, b i]).length = 2 * n ∧
    ∀ j, j < 2 * n → ((List.range n).flatMap fun i => [a i, b i]).getD j d = if j % 2 = 0 then a (j / 2) else b (j / 2)
  | 0 => by simp
  | n + 1 => by
    obtain ⟨h1, h2⟩ := flatMap_pairs a b d n
    rw [List.range_succ, List.flatMap_append, List.flatMap_singleton]
    refine ⟨by rw [List.length_append, h1]; simp; omega, fun j hj => ?_⟩
    by_cases hlt : j < 2 * n
    · rw [List.getD_append _ _ _ _ (by rw [h1]; exact hlt)]
      exact h2 j hlt
    · rw [List.getD_append_right _ _ _ _ (by rw [h1]; omega), h1]
      have : j = 2 * n ∨ j = 2 * n + 1 := by omega
      rcases this with rfl | rfl
      · simp
      · have e1 : (2 * n + 1) % 2 = 1 := by omega
        have e2 : (2 * n + 1) / 2 = n := by omega
        simp [e1, e2]

theorem leafScalars_eq (F : Type) [Field F] (v : Option Value) : leafScalars F v = [(slot F v).1, (slot F v).2] := by
  cases v with
  | none =>
    have : leNat (List.replicate 16 0) = 0 := by decide
    simp only [leafScalars, slot, frLe, this, Nat.cast_zero]
  | some v => rfl

theorem valueHalves_eq (F : Type) [Field F] (v : Option Value) : valueHalves F v = slot F v := by
  cases v <;> rfl

theorem halfOfStem_spec (C : Crypto F G) (m : KV) (u : Stem) (off : ℕ) :
    (halfOfStem (specDb C m) u off).length = 256 ∧
      ∀ j : Byte, (halfOfStem (specDb C m) u off).getD j.val 0 = suffixVec m u off F j := by
  have e : halfOfStem (specDb C m) u off = (List.range 128).flatMap fun i =>
      [(slot F (m (mkKey u (asU8 (off + i))))).1, (slot F (m (mkKey u (asU8 (off + i))))).2] := by
    unfold halfOfStem
    congr 1
    funext i
    exact leafScalars_eq F _
  have h := flatMap_pairs (fun i => (slot F (m (mkKey u (asU8 (off + i))))).1)
    (fun i => (slot F (m (mkKey u (asU8 (off + i))))).2) (0 : F) 128
  rw [e]
  exact ⟨h.1, fun j => h.2 j.val j.2⟩

theorem nodePoly_spec {C : Crypto F G} {m : KV} {p : Path} :
    (nodePoly C m p).length ≤ 256 ∧ ∀ j : Byte, (nodePoly C m p).getD j.val 0 = nodeVec C m p j := by
  by_cases h1 : IsBranch m p
  · rw [nodePoly_branch h1, nodeVec_branch h1]
    refine ⟨by simp, fun j => ?_⟩
    rw [List.getD_eq_getElem _ _ (by simp)]
    simp
  by_cases h2 : ∃ u, TermStem m p u
  · obtain ⟨u, hu⟩ := h2
    rw [nodePoly_stem hu, nodeVec_stem hu]
    refine ⟨by simp, fun j => ?_⟩
    obtain ⟨j, hj⟩ := j
    match j, hj with
    | 0, _ => rfl
    | 1, _ => rfl
    | 2, _ => rfl
    | 3, _ => rfl
    | n + 4, _ => simp [stemVec]
  by_cases h3 : ∃ u, TermStem m p.dropLast u
  · rw [nodePoly, if_neg h1, dif_neg h2, dif_pos h3, nodeVec, if_neg h1, dif_neg h2, dif_pos h3]
    have := halfOfStem_spec C m h3.choose (if p.getLast? = some 2 then 0 else 128)
    exact ⟨this.1.le, this.2⟩
  · rw [nodePoly, if_neg h1, dif_neg h2, dif_neg h3, nodeVec, if_neg h1, dif_neg h2, dif_neg h3]
    simp

/-- The openings needed for the keys `K`. -/
inductive Label (m : KV) (K : Key → Prop) : Path × Byte → Prop
  | branch (p : Path) (z : Byte) (k : Key) (hk : K k) (hb : IsBranch m p) (hp : p ++ [z] <+: k.stem.1) : Label m K (p, z)
  | ext (p : Path) (z : Byte) (u : Stem) (k : Key) (hk : K k) (hu : TermStem m p u) (hp : p <+: k.stem.1)
      (hz : z = 0 ∨ z = 1) : Label m K (p, z)
  | half (p : Path) (k : Key) (hk : K k) (hu : TermStem m p k.stem) : Label m K (p, halfIdx k.suffix)
  | low (p : Path) (k : Key) (hk : K k) (hu : TermStem m p k.stem) : Label m K (p ++ [halfIdx k.suffix], lowIdx k.suffix)
  | high (p : Path) (k : Key) (hk : K k) (hu : TermStem m p k.stem) : Label m K (p ++ [halfIdx k.suffix], highIdx k.suffix)

/-- The prover's query for a label. -/
noncomputable def labelQuery (C : Crypto F G) (m : KV) (x : Path × Byte) : ProverQuery F G :=
  ⟨nodeComm C m x.1, nodePoly C m x.1, x.2.val, nodeVec C m x.1 x.2⟩

/-- The labels of one opening, in the order in which they are queried. -/
def labelsOf : Path × Openings F G → List (Path × Byte)
  | (p, .suffix _ s) => [(p, 0), (p, 1)] ++ (if s.any (fun sv => decide (sv.1.val < 128)) then [(p, 2)] else [])
      ++ (if s.any (fun sv => !decide (sv.1.val < 128)) then [(p, 3)] else [])
      ++ s.flatMap fun sv => [(p ++ [halfIdx sv.1], lowIdx sv.1), (p ++ [halfIdx sv.1], highIdx sv.1)]
  | (p, .branch _ ch) => ch.map fun z => (p, z)
  | (p, .extension _) => [(p, 0), (p, 1)]

/-- Everything that `OpeningOk` says about an entry of the collected data. -/
def EntryOk (C : Crypto F G) (m : KV) (K : Key → Prop) (e : Path × Openings F G) : Prop := OpeningOk C m K e.1 (some e.2)

theorem mapM_ok {α β : Type} (f : α → Res β) (g : α → β) : ∀ (l : List α), (∀ a ∈ l, f a = .ok (g a)) → l.mapM f = .ok (l.map g)
  | [], _ => rfl
  | a :: l, h => by
    rw [List.mapM_cons, h a (by simp), mapM_ok f g l (fun b hb => h b (by simp [hb]))]
    rfl

theorem childHashOf_spec (C : Crypto F G) (m : KV) {p : Path} (hb : IsBranch m p) (i : Byte) :
    childHashOf (specDb C m) p i = .ok (branchVec C m p i) := by
  have hg : HigherDb.getBranchChild (specDb C m) p i = node C m (p ++ [i]) := rfl
  unfold childHashOf
  rw [hg]
  by_cases h1 : IsBranch m (p ++ [i])
  · rw [node_branch h1]
    have hm : Many m (p ++ [i]) := by
      rcases h1 with h1 | h1
      · simp at h1
      · exact h1
    show Except.ok _ = _
    rw [branchVec, childHash_many hm]
    rfl
  · have hnm : ¬ Many m (p ++ [i]) := fun h => h1 (Or.inr h)
    by_cases h2 : ∃ u, Under m (p ++ [i]) u
    · obtain ⟨u, hu⟩ := h2
      rw [node_stem h1 hu (by simpa using hb)]
      have hsm : HigherDb.getStemMeta (specDb C m) u = some (stemMeta C m u) := by
        show (if HasStem m u then _ else _) = _
        rw [if_pos hu.1]
      simp only [hsm, unwrap, bind, Except.bind]
      rw [branchVec, childHash_single hnm hu]
      rfl
    · rw [node_none h1 (Or.inl fun u hu => h2 ⟨u, hu⟩), branchVec, childHash_none (fun u hu => h2 ⟨u, hu⟩)]

theorem mkKey_half (k : Key) : mkKey k.stem (Fin.ofNat 256 (halfOff k.suffix + k.suffix.val % 128)) = k := by
  have : Fin.ofNat 256 (halfOff k.suffix + k.suffix.val % 128) = k.suffix := by
    apply Fin.ext
    have := k.suffix.2
    unfold halfOff
    show (_ + _) % 256 = _
    split <;> omega
  rw [this, mkKey_stem_suffix]

theorem suffixVec_low (m : KV) (k : Key) :
    suffixVec m k.stem (halfOff k.suffix) F (lowIdx k.suffix) = (slot F (m k)).1 := by
  have e1 : 2 * (k.suffix.val % 128) / 2 = k.suffix.val % 128 := by omega
  have e2 : 2 * (k.suffix.val % 128) % 2 = 0 := by omega
  simp only [suffixVec, lowIdx_val, e1, e2, if_true, mkKey_half]

theorem suffixVec_high (m : KV) (k : Key) :
    suffixVec m k.stem (halfOff k.suffix) F (highIdx k.suffix) = (slot F (m k)).2 := by
  have e1 : (2 * (k.suffix.val % 128) + 1) / 2 = k.suffix.val % 128 := by omega
  have e2 : ¬ (2 * (k.suffix.val % 128) + 1) % 2 = 0 := by omega
  simp only [suffixVec, highIdx_val, e1, e2, if_false, mkKey_half]

theorem openQuery_spec {C : Crypto F G} {m : KV} {K : Key → Prop} {e : Path × Openings F G} (h : EntryOk C m K e) :
    openQuery (specDb C m) e = .ok ((labelsOf e).map (labelQuery C m)) := by
  obtain ⟨p, o⟩ := e
  have v0 : ((0 : Byte)).val = 0 := rfl
  have v1 : ((1 : Byte)).val = 1 := rfl
  have v2 : ((2 : Byte)).val = 2 := rfl
  have v3 : ((3 : Byte)).val = 3 := rfl
  have hext : ∀ (u : Stem) (c1 c2 : Bool), TermStem m p u → extOpenQuery ⟨u, .stem (stemMeta C m u)⟩ c1 c2 =
      .ok (([(p, (0 : Byte)), (p, 1)] ++ (if c1 then [(p, 2)] else []) ++ (if c2 then [(p, 3)] else [])).map (labelQuery C m)) := by
    intro u c1 c2 hu
    have hc := nodeComm_stem (C := C) hu
    have hv := nodeVec_stem (C := C) hu
    have hp := nodePoly_stem (C := C) hu
    have q0 : labelQuery C m (p, 0) = ⟨stemComm C m u, nodePoly C m p, 0, 1⟩ := by
      simp only [labelQuery, hc, hv, stemVec, v0, if_true]
    have q1 : labelQuery C m (p, 1) = ⟨stemComm C m u, nodePoly C m p, 1, (leNat u.1 : F)⟩ := by
      simp only [labelQuery, hc, hv, stemVec, v1, if_true, one_ne_zero, if_false]
    have q2 : labelQuery C m (p, 2) = ⟨stemComm C m u, nodePoly C m p, 2, C.h (suffixComm C m u 0)⟩ := by
      simp only [labelQuery, hc, hv, stemVec, v2]; simp
    have q3 : labelQuery C m (p, 3) = ⟨stemComm C m u, nodePoly C m p, 3, C.h (suffixComm C m u 128)⟩ := by
      simp only [labelQuery, hc, hv, stemVec, v3]; simp
    simp only [extOpenQuery, intoStem, bind, Except.bind, stemMeta, frLe]
    rw [← hp]
    cases c1 <;> cases c2 <;> simp [q0, q1, q2, q3]
  match o, h with
  | .branch mt ch, ⟨hb, hm, _, _, _⟩ =>
    have hm : mt = .branch (branchMeta C m p) := hm
    subst hm
    have hb : IsBranch m p := hb
    have hf : branchChildrenHashes (specDb C m) p = .ok ((List.finRange 256).map (branchVec C m p)) :=
      mapM_ok _ _ _ (fun i _ => childHashOf_spec C m hb i)
    simp only [openQuery, branchOpenQuery, intoBranch, bind, Except.bind, hf, labelsOf, List.map_map]
    apply mapM_ok
    intro i _
    rw [List.getElem?_eq_getElem (by simp)]
    simp only [unwrap, Function.comp, labelQuery, branchMeta, nodeComm_branch hb, nodePoly_branch hb, nodeVec_branch hb]
    simp
  | .extension e, ⟨u, hu, he, _⟩ =>
    subst he
    exact hext u false false hu
  | .suffix e sfx, ⟨u, hu, he, _, _, hs⟩ =>
    subst he
    simp only [openQuery, suffixOpenQuery, bind, Except.bind, hext u _ _ hu, intoStem, labelsOf]
    rw [List.map_append (l₂ := sfx.flatMap _), List.map_flatMap]
    congr 2
    apply List.flatMap_congr
    intro sv hsv
    obtain ⟨k, _, rfl, rfl⟩ := (hs sv).1 hsv
    have hc := nodeComm_suffix (C := C) hu k.suffix
    have hv := nodeVec_suffix (C := C) hu k.suffix
    have hp := nodePoly_suffix (C := C) hu k.suffix
    have hl := suffixVec_low (F := F) m k
    have hh := suffixVec_high (F := F) m k
    simp only [suffixQueries, labelQuery, List.map_cons, List.map_nil, hc, hv, hp, hl, hh, lowIdx_val, highIdx_val,
      valueHalves_eq, stemMeta]
    unfold halfOff
    by_cases hb : k.suffix.val < 128 <;> simp [hb]

/-! ### Order of the labels -/

theorem ltList_append_right : ∀ {p q : Path} (b : Path), ltList p q = true → ltList p (q ++ b) = true
  | [], [], _, h => by simp [ltList] at h
  | [], _ :: _, _, _ => rfl
  | _ :: _, [], _, h => by simp [ltList] at h
  | x :: xs, y :: ys, b, h => by
    simp only [List.cons_append, ltList] at h ⊢
    cases h1 : lt x y
    · cases h2 : lt y x
      · simp only [h1, h2, Bool.false_eq_true, if_false] at h ⊢
        exact ltList_append_right b h
      · simp [h1, h2] at h
    · simp

theorem ltList_append_both : ∀ {p q : Path} (a b : Path), ltList p q = true → ¬ p <+: q → ltList (p ++ a) (q ++ b) = true
  | [], _, _, _, _, hn => absurd List.nil_prefix hn
  | _ :: _, [], _, _, h, _ => by simp [ltList] at h
  | x :: xs, y :: ys, a, b, h, hn => by
    simp only [List.cons_append, ltList] at h ⊢
    cases h1 : lt x y
    · cases h2 : lt y x
      · simp only [h1, h2, Bool.false_eq_true, if_false] at h ⊢
        have e := ltTri x y h1 h2
        subst e
        exact ltList_append_both a b h (fun hp => hn (List.cons_prefix_cons.2 ⟨rfl, hp⟩))
      · simp [h1, h2] at h
    · simp

theorem ltList_append : ∀ (p : Path) {a b : Path}, ltList a b = true → ltList (p ++ a) (p ++ b) = true
  | [], _, _, h => h
  | x :: xs, a, b, h => by
    simp only [List.cons_append, ltList, ltSelf, Bool.false_eq_true, if_false]
    exact ltList_append xs h

theorem lt_path {p q : Path} (h : ltList p q = true) (x y : Byte) : lt (p, x) (q, y) = true := by
  show (if ltList p q then true else _) = true
  rw [h]; rfl

theorem lt_idx {p : Path} {x y : Byte} (h : x.val < y.val) : lt (p, x) (p, y) = true := by
  show (if ltList p p then true else if ltList p p then false else lt x y) = true
  rw [ltListSelf]
  simpa [lt] using h

theorem lt_byte {x y : Byte} : lt x y = true ↔ x.val < y.val := by simp [lt]

/-- The paths of the labels of an opening. -/
theorem labelsOf_path {C : Crypto F G} {m : KV} {K : Key → Prop} {e : Path × Openings F G} (h : EntryOk C m K e)
    {x : Path × Byte} (hx : x ∈ labelsOf e) : x.1 = e.1 ∨ ∃ u b, TermStem m e.1 u ∧ x.1 = e.1 ++ [b] := by
  obtain ⟨p, o⟩ := e
  match o, h with
  | .branch mt ch, _ =>
    simp only [labelsOf, List.mem_map] at hx
    obtain ⟨z, _, rfl⟩ := hx
    exact Or.inl rfl
  | .extension e, _ =>
    simp only [labelsOf, List.mem_cons, List.not_mem_nil, or_false] at hx
    rcases hx with rfl | rfl <;> exact Or.inl rfl
  | .suffix e sfx, ⟨u, hu, _⟩ =>
    simp only [labelsOf, List.mem_append, List.mem_flatMap] at hx
    rcases hx with ((hx | hx) | hx) | ⟨sv, _, hx⟩
    · simp at hx
      rcases hx with rfl | rfl <;> exact Or.inl rfl
    · split at hx <;> simp at hx
      subst hx; exact Or.inl rfl
    · split at hx <;> simp at hx
      subst hx; exact Or.inl rfl
    · right
      simp at hx
      rcases hx with rfl | rfl <;> exact ⟨u, _, hu, rfl⟩

theorem entry_node {C : Crypto F G} {m : KV} {K : Key → Prop} {e : Path × Openings F G} (h : EntryOk C m K e) :
    IsBranch m e.1 ∨ ∃ u, TermStem m e.1 u := by
  obtain ⟨p, o⟩ := e
  match o, h with
  | .branch mt ch, ⟨hb, _⟩ => exact Or.inl hb
  | .extension e, ⟨u, hu, _⟩ => exact Or.inr ⟨u, hu⟩
  | .suffix e sfx, ⟨u, hu, _⟩ => exact Or.inr ⟨u, hu⟩

theorem labelsOf_asc {C : Crypto F G} {m : KV} {K : Key → Prop} {e : Path × Openings F G} (h : EntryOk C m K e) :
    Ascending (labelsOf e) := by
  obtain ⟨p, o⟩ := e
  have v0 : ((0 : Byte)).val = 0 := rfl
  have v1 : ((1 : Byte)).val = 1 := rfl
  have v2 : ((2 : Byte)).val = 2 := rfl
  have v3 : ((3 : Byte)).val = 3 := rfl
  match o, h with
  | .branch mt ch, ⟨_, _, ha, _, _⟩ =>
    simp only [labelsOf]
    exact List.pairwise_map.2 (ha.imp fun h => lt_idx (lt_byte.1 h))
  | .extension e, _ =>
    simp only [labelsOf, Ascending, List.pairwise_cons]
    refine ⟨?_, by simp⟩
    intro y hy
    simp at hy
    subst hy
    exact lt_idx (by omega)
  | .suffix e sfx, ⟨u, hu, _, _, ha, hs⟩ =>
    have hu : TermStem m p u := hu
    -- the extension part
    have hA : ∀ (c1 c2 : Bool), Ascending ([(p, (0 : Byte)), (p, 1)] ++ (if c1 then [(p, 2)] else []) ++
        (if c2 then [(p, 3)] else [])) := by
      intro c1 c2
      have e : [(p, (0 : Byte)), (p, 1)] ++ (if c1 then [(p, 2)] else []) ++ (if c2 then [(p, 3)] else []) =
          ([(0 : Byte), 1] ++ (if c1 then [2] else []) ++ (if c2 then [3] else [])).map fun z => (p, z) := by
        cases c1 <;> cases c2 <;> rfl
      rw [e]
      refine List.pairwise_map.2 (List.Pairwise.imp (R := fun x y : Byte => x.val < y.val) (fun h => lt_idx h) ?_)
      cases c1 <;> cases c2 <;> decide
    simp only [labelsOf]
    refine List.pairwise_append.2 ⟨hA _ _, ?_, ?_⟩
    · refine List.pairwise_flatMap.2 ⟨?_, ?_⟩
      · intro sv _
        simp only [List.pairwise_cons, List.mem_singleton, forall_eq]
        exact ⟨lt_idx (by rw [lowIdx_val, highIdx_val]; omega), by simp⟩
      · refine ha.imp_of_mem ?_
        intro a b hma hmb hab x hx y hy
        obtain ⟨ka, _, hka, rfl⟩ := (hs a).1 hma
        obtain ⟨kb, _, hkb, rfl⟩ := (hs b).1 hmb
        have hlt : ka.suffix.val < kb.suffix.val := by
          by_contra hge
          have hab' : (if lt ka.suffix kb.suffix then true else if lt kb.suffix ka.suffix then false
            else lt (m ka) (m kb)) = true := hab
          by_cases heq : ka.suffix = kb.suffix
          · have : ka = kb := Key.ext_parts (hka.trans hkb.symm) heq
            subst this
            rw [ltSelf, ltSelf] at hab'
            simp at hab'
          · have h1 : ka.suffix.val ≠ kb.suffix.val := fun h => heq (Fin.ext h)
            have h2 : lt kb.suffix ka.suffix = true := lt_byte.2 (by omega)
            rw [ltAsymm h2, h2] at hab'
            simp at hab'
        -- same half or first against second
        have hcase : halfIdx ka.suffix = halfIdx kb.suffix ∧ ka.suffix.val % 128 < kb.suffix.val % 128 ∨
            (halfIdx ka.suffix).val < (halfIdx kb.suffix).val := by
          unfold halfIdx
          have := kb.suffix.2
          by_cases h1 : ka.suffix.val < 128 <;> by_cases h2 : kb.suffix.val < 128
          · left; simp only [h1, h2, if_true, true_and]; omega
          · right; simp only [h1, h2, if_true, if_false]; decide
          · omega
          · left; simp only [h1, h2, if_false, true_and]; omega
        simp only [List.mem_cons, List.not_mem_nil, or_false] at hx hy
        rcases hcase with ⟨h1, h2⟩ | h1
        · rw [← h1] at hy
          rcases hx with rfl | rfl <;> rcases hy with rfl | rfl <;> apply lt_idx <;>
            simp only [lowIdx_val, highIdx_val] <;> omega
        · have h3 : ltList (p ++ [halfIdx ka.suffix]) (p ++ [halfIdx kb.suffix]) = true := by
            apply ltList_append
            simp only [ltList]
            rw [lt_byte.2 h1]; rfl
          rcases hx with rfl | rfl <;> rcases hy with rfl | rfl <;> exact lt_path h3 _ _
    · intro x hx y hy
      have hx1 : x.1 = p := by
        simp only [List.mem_append] at hx
        rcases hx with (hx | hx) | hx
        · simp at hx
          rcases hx with rfl | rfl <;> rfl
        · split at hx <;> simp at hx
          subst hx; rfl
        · split at hx <;> simp at hx
          subst hx; rfl
      have hy1 : ∃ b, y.1 = p ++ [b] := by
        simp only [List.mem_flatMap] at hy
        obtain ⟨sv, _, hy⟩ := hy
        simp at hy
        rcases hy with rfl | rfl <;> exact ⟨_, rfl⟩
      obtain ⟨b, hy1⟩ := hy1
      obtain ⟨x1, x2⟩ := x
      obtain ⟨y1, y2⟩ := y
      simp only at hx1 hy1
      subst hx1 hy1
      exact lt_path (by have := ltList_append x1 (a := []) (b := [b]) rfl; rwa [List.append_nil] at this) _ _

/-- The labels of all openings. -/
def labels (os : List (Path × Openings F G)) : List (Path × Byte) := os.flatMap labelsOf

theorem Inv.entry {C : Crypto F G} {m : KV} {K : Key → Prop} {od : OpeningData F G} (h : Inv C m K od)
    {e : Path × Openings F G} (he : e ∈ od.openings) : EntryOk C m K e := by
  have h1 := h.opening e.1
  rw [(BMap.get_eq_some_iff h.sorted).2 (show (e.1, e.2) ∈ od.openings from he)] at h1
  exact h1

theorem labels_asc {C : Crypto F G} {m : KV} {K : Key → Prop} {od : OpeningData F G} (h : Inv C m K od) :
    Ascending (labels od.openings) := by
  refine List.pairwise_flatMap.2 ⟨fun e he => labelsOf_asc (h.entry he), ?_⟩
  have hs : od.openings.Pairwise (fun a b => lt a.1 b.1 = true) := List.pairwise_map.1 h.sorted
  refine hs.imp_of_mem ?_
  intro a b ha hb hab x hx y hy
  have hab : ltList a.1 b.1 = true := hab
  have hy1 : ∃ t, y.1 = b.1 ++ t := by
    rcases labelsOf_path (h.entry hb) hy with h1 | ⟨_, c, _, h1⟩
    · exact ⟨[], by rw [h1]; simp⟩
    · exact ⟨[c], h1⟩
  obtain ⟨t, hy1⟩ := hy1
  have key : ltList x.1 y.1 = true := by
    rcases labelsOf_path (h.entry ha) hx with h1 | ⟨u, c, hu, h1⟩
    · rw [h1, hy1]
      exact ltList_append_right _ hab
    · rw [h1, hy1]
      apply ltList_append_both _ _ hab
      intro hpre
      rcases entry_node (h.entry hb) with hbr | ⟨v, hv⟩
      · exact hu.not_proper hbr hpre
      · rw [hu.antichain hv hpre, ltListSelf] at hab
        simp at hab
  exact lt_path key _ _

theorem labelsOf_mem {C : Crypto F G} {m : KV} {K : Key → Prop} {e : Path × Openings F G} (h : EntryOk C m K e)
    {x : Path × Byte} (hx : x ∈ labelsOf e) : Label m K x := by
  obtain ⟨p, o⟩ := e
  match o, h with
  | .branch mt ch, ⟨hb, _, _, _, hc⟩ =>
    simp only [labelsOf, List.mem_map] at hx
    obtain ⟨z, hz, rfl⟩ := hx
    obtain ⟨k, hk, hp⟩ := (hc z).1 hz
    exact .branch p z k hk hb hp
  | .extension e, ⟨u, hu, _, ⟨k, hk, hp⟩, _⟩ =>
    simp only [labelsOf, List.mem_cons, List.not_mem_nil, or_false] at hx
    rcases hx with rfl | rfl
    · exact .ext p 0 u k hk hu hp (Or.inl rfl)
    · exact .ext p 1 u k hk hu hp (Or.inr rfl)
  | .suffix e sfx, ⟨u, hu, _, ⟨k, hk, hku⟩, _, hs⟩ =>
    have hu : TermStem m p u := hu
    have hp : p <+: k.stem.1 := by rw [hku]; exact hu.2.2.2
    simp only [labelsOf, List.mem_append, List.mem_flatMap] at hx
    rcases hx with ((hx | hx) | hx) | ⟨sv, hsv, hx⟩
    · simp only [List.mem_cons, List.not_mem_nil, or_false] at hx
      rcases hx with rfl | rfl
      · exact .ext p 0 u k hk hu hp (Or.inl rfl)
      · exact .ext p 1 u k hk hu hp (Or.inr rfl)
    · split at hx
      · rename_i hany
        simp only [List.mem_singleton] at hx
        subst hx
        obtain ⟨sv, hsv, hlt⟩ := List.any_eq_true.1 hany
        obtain ⟨k', hk', rfl, rfl⟩ := (hs sv).1 hsv
        have : halfIdx k'.suffix = 2 := by
          unfold halfIdx; rw [if_pos (by simpa using hlt)]
        have h2 := Label.half (m := m) p k' hk' hu
        rwa [this] at h2
      · simp at hx
    · split at hx
      · rename_i hany
        simp only [List.mem_singleton] at hx
        subst hx
        obtain ⟨sv, hsv, hlt⟩ := List.any_eq_true.1 hany
        obtain ⟨k', hk', rfl, rfl⟩ := (hs sv).1 hsv
        have : halfIdx k'.suffix = 3 := by
          unfold halfIdx; rw [if_neg (by simpa using hlt)]
        have h2 := Label.half (m := m) p k' hk' hu
        rwa [this] at h2
      · simp at hx
    · obtain ⟨k', hk', rfl, rfl⟩ := (hs sv).1 hsv
      simp only [List.mem_cons, List.not_mem_nil, or_false] at hx
      rcases hx with rfl | rfl
      · exact .low p k' hk' hu
      · exact .high p k' hk' hu

theorem Inv.branch_entry {C : Crypto F G} {m : KV} {K : Key → Prop} {od : OpeningData F G} (h : Inv C m K od) {p : Path}
    {k : Key} (hk : K k) (hp : p <+: k.stem.1) (hb : IsBranch m p) :
    ∃ mt ch, (p, Openings.branch mt ch) ∈ od.openings := by
  have h1 := h.opening p
  match hg : BMap.get p od.openings, h1 with
  | none, h1 => exact absurd hb (h1 k hk hp).1
  | some (.branch mt ch), _ => exact ⟨mt, ch, (BMap.get_eq_some_iff h.sorted).1 hg⟩
  | some (.extension e), ⟨u, hu, _⟩ => exact absurd hb hu.1
  | some (.suffix e sfx), ⟨u, hu, _⟩ => exact absurd hb hu.1

theorem Inv.stem_entry {C : Crypto F G} {m : KV} {K : Key → Prop} {od : OpeningData F G} (h : Inv C m K od) {p : Path}
    {k : Key} {u : Stem} (hk : K k) (hp : p <+: k.stem.1) (hu : TermStem m p u) :
    (∃ e, (p, Openings.extension e) ∈ od.openings) ∨ ∃ e sfx, (p, Openings.suffix e sfx) ∈ od.openings := by
  have h1 := h.opening p
  match hg : BMap.get p od.openings, h1 with
  | none, h1 => exact absurd hu ((h1 k hk hp).2 u)
  | some (.branch mt ch), ⟨hb, _⟩ => exact absurd hb hu.1
  | some (.extension e), _ => exact Or.inl ⟨e, (BMap.get_eq_some_iff h.sorted).1 hg⟩
  | some (.suffix e sfx), _ => exact Or.inr ⟨e, sfx, (BMap.get_eq_some_iff h.sorted).1 hg⟩

theorem Inv.suffix_entry {C : Crypto F G} {m : KV} {K : Key → Prop} {od : OpeningData F G} (h : Inv C m K od) {p : Path}
    {k : Key} (hk : K k) (hu : TermStem m p k.stem) :
    ∃ e sfx, (p, Openings.suffix e sfx) ∈ od.openings ∧ (k.suffix, m k) ∈ sfx := by
  rcases h.stem_entry hk hu.2.2.2 hu with ⟨e, he⟩ | ⟨e, sfx, he⟩
  · obtain ⟨v, hv, _, _, hno⟩ := h.entry he
    exact absurd (hu.unique hv) (hno k hk)
  · obtain ⟨v, hv, _, _, _, hs⟩ := h.entry he
    exact ⟨e, sfx, he, (hs _).2 ⟨k, hk, hu.unique hv, rfl⟩⟩

theorem labels_mem {C : Crypto F G} {m : KV} {K : Key → Prop} {od : OpeningData F G} (h : Inv C m K od)
    (x : Path × Byte) : x ∈ labels od.openings ↔ Label m K x := by
  unfold labels
  rw [List.mem_flatMap]
  constructor
  · rintro ⟨e, he, hx⟩
    exact labelsOf_mem (h.entry he) hx
  · intro hx
    cases hx with
    | branch p z k hk hb hp =>
      obtain ⟨mt, ch, he⟩ := h.branch_entry hk ((List.prefix_append _ _).trans hp) hb
      refine ⟨_, he, ?_⟩
      obtain ⟨_, _, _, _, hc⟩ := h.entry he
      simp only [labelsOf, List.mem_map]
      exact ⟨z, (hc z).2 ⟨k, hk, hp⟩, rfl⟩
    | ext p z u k hk hu hp hz =>
      rcases h.stem_entry hk hp hu with ⟨e, he⟩ | ⟨e, sfx, he⟩
      · refine ⟨_, he, ?_⟩
        rcases hz with rfl | rfl <;> simp [labelsOf]
      · refine ⟨_, he, ?_⟩
        rcases hz with rfl | rfl <;> simp [labelsOf]
    | half p k hk hu =>
      obtain ⟨e, sfx, he, hs⟩ := h.suffix_entry hk hu
      refine ⟨_, he, ?_⟩
      simp only [labelsOf, List.mem_append]
      left
      by_cases hb : k.suffix.val < 128
      · left; right
        rw [if_pos (List.any_eq_true.2 ⟨_, hs, by simpa using hb⟩)]
        simp [halfIdx, hb]
      · right
        rw [if_pos (List.any_eq_true.2 ⟨_, hs, by simpa using hb⟩)]
        simp [halfIdx, hb]
    | low p k hk hu =>
      obtain ⟨e, sfx, he, hs⟩ := h.suffix_entry hk hu
      refine ⟨_, he, ?_⟩
      simp only [labelsOf, List.mem_append, List.mem_flatMap]
      right
      exact ⟨_, hs, by simp⟩
    | high p k hk hu =>
      obtain ⟨e, sfx, he, hs⟩ := h.suffix_entry hk hu
      refine ⟨_, he, ?_⟩
      simp only [labelsOf, List.mem_append, List.mem_flatMap]
      right
      exact ⟨_, hs, by simp⟩

theorem openAll_spec {C : Crypto F G} {m : KV} {K : Key → Prop} : ∀ (os : List (Path × Openings F G)),
    (∀ e ∈ os, EntryOk C m K e) → openAll (specDb C m) os = .ok ((labels os).map (labelQuery C m))
  | [], _ => rfl
  | e :: os, h => by
    simp only [openAll, openQuery_spec (h e (by simp)), openAll_spec os (fun e' he' => h e' (by simp [he'])), bind, Except.bind,
      labels, List.flatMap_cons, List.map_append]

end Verif.Proof
