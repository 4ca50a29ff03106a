import Verif.Proof.UpdateRoot

/-!
# When the nodes opened by a request are separated

`Separated` (C19, C20) says that neighbouring opened nodes have different commitments.  Here: apart from the two halves of one stem, equal
commitments of neighbouring nodes break the commitments of the trie.
-/

set_option autoImplicit false

namespace Verif.Proof
open Verif.Spec Verif.Trie BOrd
open scoped Classical

variable {F G : Type} [Field F] [AddCommGroup G] [Module F G]

/-- A break of the commitments of the trie of `m` by its own nodes: two different vectors with one commitment, two different commitments
with one hash, a hash equal to `1`, or a hash other than zero that is half of a value in the trie. -/
def SelfBreak (C : Crypto F G) (m : KV) : Prop :=
  Broken C m m ∨ ∃ x, Comms C m x ∧ C.h x ≠ 0 ∧ ∃ s, HasStem m s ∧ ∃ off j, (off = 0 ∨ off = 128) ∧ C.h x = suffixVec m s off F j

/-- The two halves of a stem have the same contents. -/
def EqualHalves (m : KV) (s : Stem) : Prop :=
  ∀ i : ℕ, i < 128 → m (mkKey s (Fin.ofNat 256 i)) = m (mkKey s (Fin.ofNat 256 (128 + i)))

/-- Both halves of some stem of the trie are asked for and have the same contents. -/
def TwinHalves (m : KV) (K : Key → Prop) : Prop :=
  ∃ k k', K k ∧ K k' ∧ k.stem = k'.stem ∧ HasStem m k.stem ∧ k.suffix.val < 128 ∧ 128 ≤ k'.suffix.val ∧ EqualHalves m k.stem

theorem under_child {m : KV} {p : Path} {s : Stem} (h : Under m p s) (hl : p.length < 31) : ∃ i, Under m (p ++ [i]) s := by
  have hl' : p.length < s.1.length := by rw [s.2]; exact hl
  refine ⟨s.1[p.length], h.1, ?_⟩
  have h1 := List.take_append_getElem hl'
  rw [← prefix_iff_take.1 h.2] at h1
  rw [h1]
  exact List.take_prefix _ _

section
variable {C : Crypto F G} {m : KV} (hnb : ¬ Broken C m m)
include hnb

theorem stemVec_zero (s : Stem) : stemVec C m s 0 = 1 := by simp [stemVec]

theorem childHash_ne_zero : ∀ (n : ℕ) (q : Path), 31 ≤ q.length + n → (∃ s, Under m q s) → childHash C m q ≠ 0
  | n, q, hn, ⟨s, hs⟩, h0 => by
    obtain ⟨v, hv, he, hcase⟩ := childHash_vec (C := C) m q
    rw [he] at h0
    have hv0 : v = fun _ => 0 := vec_eq_of_hash hnb hv .empty (by rw [h0, commit_zero, C.h_zero])
    rcases hcase with ⟨hm, rfl⟩ | ⟨_, t, ht, rfl⟩ | ⟨hno, _⟩
    · cases n with
      | zero => have := hm.length_lt; omega
      | succ n =>
        obtain ⟨i, hi⟩ := under_child hs hm.length_lt
        exact childHash_ne_zero n (q ++ [i]) (by simp; omega) ⟨s, hi⟩ (congrFun hv0 i)
    · have := congrFun hv0 0
      rw [stemVec_zero hnb] at this
      exact one_ne_zero this
    · exact hno s hs

theorem child_ne_zero {q : Path} (h : ∃ s, Under m q s) : childHash C m q ≠ 0 := childHash_ne_zero hnb 31 q (by omega) h

/-- Different branches have different vectors. -/
theorem branchVec_inj (hF : BigField F) : ∀ (n : ℕ) (p q : Path), 31 ≤ q.length + n → IsBranch m p → Many m q →
    branchVec C m p = branchVec C m q → p = q
  | n, p, q, hn, hp, hq, h => by
    obtain ⟨s, _, _, hs, _⟩ := id hq
    obtain ⟨i, hi⟩ := under_child hs hq.length_lt
    have hc : childHash C m (p ++ [i]) = childHash C m (q ++ [i]) := congrFun h i
    obtain ⟨v, hv, he, hcase⟩ := childHash_vec (C := C) m (p ++ [i])
    obtain ⟨w, hw, he', hcase'⟩ := childHash_vec (C := C) m (q ++ [i])
    have hne := child_ne_zero hnb ⟨s, hi⟩
    rw [he, he'] at hc
    have hvw := vec_eq_of_hash hnb hv hw hc
    have b0 : ∀ x : Path, branchVec C m x 0 ≠ 1 := fun x => (childHash_ne_one hnb (x ++ [0])).1
    rcases hcase' with ⟨hm', rfl⟩ | ⟨hm', t, ht, rfl⟩ | ⟨hno', _⟩
    · rcases hcase with ⟨hm, rfl⟩ | ⟨_, u, hu, rfl⟩ | ⟨hno, rfl⟩
      · cases n with
        | zero => have := hm'.length_lt; simp at this; omega
        | succ n =>
          have := branchVec_inj hF n (p ++ [i]) (q ++ [i]) (by simp; omega) (Or.inr hm) hm' hvw
          simpa using this
      · exact absurd ((congrFun hvw 0).symm.trans (stemVec_zero hnb u)) (b0 _)
      · rw [he', ← hvw, commit_zero, C.h_zero] at hne
        exact absurd rfl hne
    · rcases hcase with ⟨hm, rfl⟩ | ⟨hm, u, hu, rfl⟩ | ⟨hno, rfl⟩
      · exact absurd ((congrFun hvw 0).trans (stemVec_zero hnb t)) (b0 _)
      · obtain ⟨rfl, -⟩ := stem_agree hF hnb hu.1 ht.1 hvw
        rcases Nat.lt_trichotomy p.length q.length with hl | hl | hl
        · exact absurd (hq.mono (List.prefix_of_prefix_length_le hu.2 ((List.prefix_append q [i]).trans ht.2) (by simp; omega))) hm
        · exact List.IsPrefix.eq_of_length_le (List.prefix_of_prefix_length_le ((List.prefix_append p [i]).trans hu.2)
            ((List.prefix_append q [i]).trans ht.2) (by omega)) (by omega)
        · rcases hp with rfl | hp
          · simp at hl
          · exact absurd (hp.mono (List.prefix_of_prefix_length_le ht.2 ((List.prefix_append p [i]).trans hu.2) (by simp; omega))) hm'
      · rw [he', ← hvw, commit_zero, C.h_zero] at hne
        exact absurd rfl hne
    · exact absurd hi (hno' s)

end

/-- What is opened, with the key asked for at the halves of stems. -/
theorem opened_kinds {m : KV} {K : Key → Prop} {p : Path} (h : Opened m K p) :
    IsBranch m p ∨ (∃ u, TermStem m p u) ∨ ∃ q k, K k ∧ TermStem m q k.stem ∧ p = q ++ [halfIdx k.suffix] := by
  obtain ⟨w, hw⟩ := h
  generalize hx : (p, w) = x at hw
  cases hw with
  | branch q z k' _ hb2 _ => cases hx; exact Or.inl hb2
  | ext q z u _ _ hu _ _ => cases hx; exact Or.inr (Or.inl ⟨u, hu⟩)
  | half q k' _ hu => cases hx; exact Or.inr (Or.inl ⟨_, hu⟩)
  | low q k' hk hu => cases hx; exact Or.inr (Or.inr ⟨q, k', hk, hu, rfl⟩)
  | high q k' hk hu => cases hx; exact Or.inr (Or.inr ⟨q, k', hk, hu, rfl⟩)

theorem not_lt_nil' (r : Path) : lt r ([] : Path) = false := by cases r <;> rfl

theorem between_child : ∀ (q : Path) {p : Path} {b : Byte}, lt q p = true → lt p (q ++ [b]) = true → q <+: p
  | [], p, b, _, _ => List.nil_prefix
  | a :: q, [], b, h, _ => by rw [not_lt_nil'] at h; simp at h
  | a :: q, c :: p, b, h1, h2 => by
    have h1' : (if lt a c then true else if lt c a then false else ltList q p) = true := h1
    have h2' : (if lt c a then true else if lt a c then false else ltList p (q ++ [b])) = true := h2
    cases hac : lt a c
    · cases hca : lt c a
      · have e := ltTri a c hac hca
        subst e
        simp only [hac, Bool.false_eq_true, if_false] at h1' h2'
        exact List.cons_prefix_cons.2 ⟨rfl, between_child q h1' h2'⟩
      · simp [hac, hca] at h1'
    · rw [ltAsymm hac, hac] at h2'
      simp at h2'

theorem suffixVec_zero_ne_one (hF : BigField F) (m : KV) (s : Stem) (off : ℕ) : suffixVec m s off F 0 ≠ 1 := by
  have v0 : (0 : Byte).val = 0 := rfl
  unfold suffixVec
  simp only [v0, Nat.zero_mod, if_true]
  cases m (mkKey s (Fin.ofNat 256 (off + 0 / 2))) with
  | none => exact zero_ne_one
  | some v =>
    simp only [slot, lowHalf_eq]
    intro h
    have := hF (leNat (v.1.take 16) + 2 ^ 128) 1 (by have := (half_lt v).1; omega) (by norm_num) (by simpa using h)
    have : (1 : ℕ) < 2 ^ 128 := by norm_num
    omega

theorem equalHalves_of_vec (hF : BigField F) {m : KV} {s : Stem} (h : suffixVec m s 0 F = suffixVec m s 128 F) : EqualHalves m s := by
  intro i hi
  apply slot_inj hF
  have h1 := congrFun h ⟨2 * i, by omega⟩
  have h2 := congrFun h ⟨2 * i + 1, by omega⟩
  have e1 : (2 * i) / 2 = i := by omega
  have e2 : (2 * i + 1) / 2 = i := by omega
  have e3 : (2 * i) % 2 = 0 := by omega
  have e4 : ¬ (2 * i + 1) % 2 = 0 := by omega
  simp only [suffixVec, e1, e2, e3, e4, if_true, if_false, Nat.zero_add] at h1 h2
  exact Prod.ext h1 h2

theorem suffixVec_of_equalHalves {m : KV} {s : Stem} (h : EqualHalves m s) : suffixVec m s 0 F = suffixVec m s 128 F := by
  funext j
  unfold suffixVec
  rw [Nat.zero_add, h (j.val / 2) (by have := j.2; omega)]

/-- Unless the nodes of the trie break its commitments, or two equal halves of a stem are asked for, the opened nodes are separated. -/
theorem separated_of (hF : BigField F) {C : Crypto F G} {m : KV} {K : Key → Prop} (hnb : ¬ SelfBreak C m) (ht : ¬ TwinHalves m K) :
    Separated C m K := by
  have hb : ¬ Broken C m m := fun h => hnb (Or.inl h)
  have hhalf : ∀ b : Byte, halfOff b = 0 ∨ halfOff b = 128 := fun b => by unfold halfOff; split <;> simp
  have hvec : ∀ p, Opened m K p → Vectors C m (nodeVec C m p) := by
    intro p hp
    rcases opened_kinds hp with h | ⟨u, h⟩ | ⟨q, k, _, h, rfl⟩
    · rw [nodeVec_branch h]; exact .branch p h
    · rw [nodeVec_stem h]; exact .stem u h.2.2.1
    · rw [nodeVec_suffix h]; exact .suffix _ h.2.2.1 _ (hhalf _)
  -- a branch and a stem, a stem and a half, a branch and a half
  have hbs : ∀ p q u, IsBranch m p → TermStem m q u → branchVec C m p ≠ stemVec C m u := fun p q u _ _ h =>
    (childHash_ne_one hb (p ++ [0])).1 ((congrFun h 0).trans (stemVec_zero hb u))
  have hsh : ∀ (u : Stem) (q : Path) (k : Key), TermStem m q k.stem → stemVec C m u ≠ suffixVec m k.stem (halfOff k.suffix) F := fun u q k _ h =>
    suffixVec_zero_ne_one hF m k.stem (halfOff k.suffix) ((congrFun h 0).symm.trans (stemVec_zero hb u))
  have hbh : ∀ (p q : Path) (k : Key), IsBranch m p → TermStem m q k.stem → branchVec C m p ≠ suffixVec m k.stem (halfOff k.suffix) F := by
    intro p q k hp hq h
    obtain ⟨s, hs⟩ : ∃ s, Under m p s := by
      rcases hp with rfl | ⟨s, _, _, hs, _⟩
      · exact ⟨k.stem, hq.2.2.1, List.nil_prefix⟩
      · exact ⟨s, hs⟩
    have hl : p.length < 31 := by
      rcases hp with rfl | hp
      · simp
      · exact hp.length_lt
    obtain ⟨i, hi⟩ := under_child hs hl
    have hne := child_ne_zero hb ⟨s, hi⟩
    obtain ⟨v, hv, he, _⟩ := childHash_vec (C := C) m (p ++ [i])
    refine hnb (Or.inr ⟨commit C v, ⟨v, hv, rfl⟩, by rw [← he]; exact hne, k.stem, hq.2.2.1, halfOff k.suffix, i, hhalf _, ?_⟩)
    rw [← he]
    exact congrFun h i
  intro p q hp hq hlt hc
  have hv : nodeVec C m p = nodeVec C m q := vec_eq hb (hvec p hp) (hvec q hq) hc
  have hne := neLt hlt
  have hqn : q ≠ [] := by
    rintro rfl
    rw [not_lt_nil'] at hlt
    simp at hlt
  rcases opened_kinds hp with h | ⟨u, h⟩ | ⟨p', k, hk, h, rfl⟩ <;> rcases opened_kinds hq with h' | ⟨u', h'⟩ | ⟨q', k', hk', h', rfl⟩
  · rw [nodeVec_branch h, nodeVec_branch h'] at hv
    exact absurd (branchVec_inj hb hF 31 p q (by omega) h (h'.resolve_left hqn) hv) hne
  · rw [nodeVec_branch h, nodeVec_stem h'] at hv
    exact absurd hv (hbs p q u' h h')
  · rw [nodeVec_branch h, nodeVec_suffix h'] at hv
    exact absurd hv (hbh p q' k' h h')
  · rw [nodeVec_stem h, nodeVec_branch h'] at hv
    exact absurd hv.symm (hbs q p u h' h)
  · rw [nodeVec_stem h, nodeVec_stem h'] at hv
    obtain ⟨rfl, -⟩ := stem_agree hF hb h.2.2.1 h'.2.2.1 hv
    exact absurd ((h.termPath h.2.2.2).symm.trans (h'.termPath h'.2.2.2)) hne
  · rw [nodeVec_stem h, nodeVec_suffix h'] at hv
    exact absurd hv (hsh u q' k' h')
  · rw [nodeVec_suffix h, nodeVec_branch h'] at hv
    exact absurd hv.symm (hbh q p' k h' h)
  · rw [nodeVec_suffix h, nodeVec_stem h'] at hv
    exact absurd hv.symm (hsh u' p' k h)
  · by_cases hpq : p' = q'
    · subst hpq
      have hst := h.unique h'
      rw [nodeVec_suffix h, nodeVec_suffix h', ← hst] at hv
      have hlt' : ltList (p' ++ [halfIdx k.suffix]) (p' ++ [halfIdx k'.suffix]) = true := hlt
      exfalso
      by_cases h1 : k.suffix.val < 128
      · by_cases h2 : k'.suffix.val < 128
        · exact hne (by simp [halfIdx, h1, h2])
        · simp only [halfOff, h1, h2, if_true, if_false] at hv
          exact ht ⟨k, k', hk, hk', hst, h.2.2.1, h1, by omega, equalHalves_of_vec hF hv⟩
      · by_cases h2 : k'.suffix.val < 128
        · simp only [halfOff, h1, h2, if_true, if_false] at hv
          exact ht ⟨k', k, hk', hk, hst.symm, by rw [← hst]; exact h.2.2.1, h2, by omega, by rw [← hst]; exact equalHalves_of_vec hF hv.symm⟩
        · exact hne (by simp [halfIdx, h1, h2])
    · refine ⟨by simp, q', opened_term h' hk' h'.2.2.2, ?_, ?_⟩
      · cases hx : lt (p' ++ [halfIdx k.suffix]) q'
        · cases hy : lt q' (p' ++ [halfIdx k.suffix])
          · have e := ltTri _ _ hx hy
            rw [← e] at h'
            exact absurd h' (h.not_term_append _)
          · have hpre := between_child q' hy hlt
            exfalso
            by_cases hl : q'.length ≤ p'.length
            · exact hpq (h'.antichain h (List.prefix_of_prefix_length_le hpre (List.prefix_append _ _) hl)).symm
            · have e := hpre.eq_of_length_le (by simp; omega)
              rw [e] at h'
              exact h.not_term_append _ h'
        · rfl
      · have := ltList_append q' (a := []) (b := [halfIdx k'.suffix]) rfl
        rwa [List.append_nil] at this

end Verif.Proof
