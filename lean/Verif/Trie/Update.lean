import Verif.Trie.Spec
import Mathlib.Tactic.Abel
import Mathlib.Tactic.Module

/-!
# How the specification changes when one key is written
-/

set_option autoImplicit false

namespace Verif.Spec
open scoped BigOperators Classical

variable {F G : Type} [Field F] [AddCommGroup G] [Module F G]
variable {m : KV} {k : Key} {v : Value}

theorem hasStem_update {t : Stem} :
    HasStem (Function.update m k (some v)) t ↔ HasStem m t ∨ t = k.stem := by
  unfold HasStem
  constructor
  · rintro ⟨b, hb⟩
    by_cases h : mkKey t b = k
    · right; exact (mkKey_eq_iff.1 h).1
    · rw [Function.update_of_ne h] at hb
      exact Or.inl ⟨b, hb⟩
  · rintro (⟨b, hb⟩ | rfl)
    · refine ⟨b, ?_⟩
      by_cases h : mkKey t b = k
      · simp [h]
      · rwa [Function.update_of_ne h]
    · exact ⟨k.suffix, by simp⟩

theorem under_update {p : Path} {t : Stem} :
    Under (Function.update m k (some v)) p t ↔ Under m p t ∨ (t = k.stem ∧ p <+: k.stem.1) := by
  unfold Under
  rw [hasStem_update]
  constructor
  · rintro ⟨h1 | rfl, h2⟩
    · exact Or.inl ⟨h1, h2⟩
    · exact Or.inr ⟨rfl, h2⟩
  · rintro (⟨h1, h2⟩ | ⟨rfl, h2⟩)
    · exact ⟨Or.inl h1, h2⟩
    · exact ⟨Or.inr rfl, h2⟩

theorem Under.update {p : Path} {t : Stem} (h : Under m p t) : Under (Function.update m k (some v)) p t :=
  under_update.2 (Or.inl h)

theorem Many.update {p : Path} (h : Many m p) : Many (Function.update m k (some v)) p := by
  obtain ⟨s, t, hne, hs, ht⟩ := h
  exact ⟨s, t, hne, hs.update, ht.update⟩

theorem IsBranch.update {p : Path} (h : IsBranch m p) : IsBranch (Function.update m k (some v)) p :=
  h.imp id Many.update

theorem under_update_off {p : Path} {t : Stem} (hp : ¬ p <+: k.stem.1) :
    Under (Function.update m k (some v)) p t ↔ Under m p t := by
  rw [under_update]; simp [hp]

theorem many_update_off {p : Path} (hp : ¬ p <+: k.stem.1) :
    Many (Function.update m k (some v)) p ↔ Many m p := by
  simp only [Many, under_update_off hp]

theorem isBranch_update_off {p : Path} (hp : ¬ p <+: k.stem.1) :
    IsBranch (Function.update m k (some v)) p ↔ IsBranch m p := by
  simp only [IsBranch, many_update_off hp]

theorem suffixComm_update_ne (C : Crypto F G) {t : Stem} (ht : t ≠ k.stem) (off : ℕ) :
    suffixComm C (Function.update m k (some v)) t off = suffixComm C m t off := by
  unfold suffixComm
  have : ∀ b, Function.update m k (some v) (mkKey t b) = m (mkKey t b) := by
    intro b
    apply Function.update_of_ne
    intro h
    exact ht (mkKey_eq_iff.1 h).1
  simp only [this]

theorem stemComm_update_ne (C : Crypto F G) {t : Stem} (ht : t ≠ k.stem) :
    stemComm C (Function.update m k (some v)) t = stemComm C m t := by
  simp only [stemComm, suffixComm_update_ne C ht]

theorem stemMeta_update_ne (C : Crypto F G) {t : Stem} (ht : t ≠ k.stem) :
    stemMeta C (Function.update m k (some v)) t = stemMeta C m t := by
  simp only [stemMeta, stemComm_update_ne C ht, suffixComm_update_ne C ht]

theorem not_prefix_append {p q : Path} {l : List Byte} (h : ¬ p <+: l) : ¬ (p ++ q) <+: l :=
  fun h' => h ((List.prefix_append p q).trans h')

theorem branchCommAux_update_off (C : Crypto F G) (fuel : ℕ) : ∀ {p : Path}, ¬ p <+: k.stem.1 →
    branchCommAux C (Function.update m k (some v)) fuel p = branchCommAux C m fuel p := by
  induction fuel with
  | zero => intros; rfl
  | succ n ih =>
    intro p hp
    simp only [branchCommAux]
    apply Finset.sum_congr rfl
    intro i _
    have hq := not_prefix_append (q := [i]) hp
    rw [ih hq]
    congr 1
    simp only [many_update_off hq]
    split
    · rfl
    · rename_i hm
      by_cases hs : ∃ s, Under m (p ++ [i]) s
      · have hs' : ∃ s, Under (Function.update m k (some v)) (p ++ [i]) s := by
          simpa only [under_update_off hq] using hs
        rw [dif_pos hs, dif_pos hs']
        have e1 : Under m (p ++ [i]) hs'.choose := (under_update_off hq).1 hs'.choose_spec
        have : hs'.choose = hs.choose := Under.unique hm e1 hs.choose_spec
        rw [this, stemComm_update_ne]
        intro h
        apply hq
        rw [← h]
        exact hs.choose_spec.2
      · have hs' : ¬ ∃ s, Under (Function.update m k (some v)) (p ++ [i]) s := by
          simpa only [under_update_off hq] using hs
        rw [dif_neg hs, dif_neg hs']

theorem branchComm_update_off (C : Crypto F G) {p : Path} (hp : ¬ p <+: k.stem.1) :
    branchComm C (Function.update m k (some v)) p = branchComm C m p :=
  branchCommAux_update_off C _ hp

theorem childHash_update_off (C : Crypto F G) {p : Path} (hp : ¬ p <+: k.stem.1) :
    childHash C (Function.update m k (some v)) p = childHash C m p := by
  by_cases h : Many m p
  · rw [childHash_many h, childHash_many h.update, branchComm_update_off C hp]
  · have h' : ¬ Many (Function.update m k (some v)) p := by rwa [many_update_off hp]
    by_cases hs : ∃ s, Under m p s
    · obtain ⟨s, hs⟩ := hs
      rw [childHash_single h hs, childHash_single h' hs.update, stemComm_update_ne]
      rintro rfl
      exact hp hs.2
    · push Not at hs
      rw [childHash_none hs, childHash_none]
      intro s; rw [under_update_off hp]; exact hs s

theorem prefix_snoc_inj {p : Path} {i j : Byte} {l : List Byte} (hi : p ++ [i] <+: l) (hj : p ++ [j] <+: l) :
    i = j := by
  have := List.prefix_of_prefix_length_le hi hj (by simp)
  have := this.eq_of_length (by simp)
  simpa using this

/-- The branch commitment of a path on the way to the written key changes by the change of one child hash. -/
theorem branchComm_update_on (C : Crypto F G) {p : Path} {i : Byte} (hp : p ++ [i] <+: k.stem.1) :
    branchComm C (Function.update m k (some v)) p
      = branchComm C m p
        + (childHash C (Function.update m k (some v)) (p ++ [i]) - childHash C m (p ++ [i])) • C.g i.val := by
  have hlen : p.length < 32 := by
    have := hp.length_le
    have h31 := k.stem.2
    simp at this
    omega
  rw [branchComm_eq _ _ _ hlen, branchComm_eq _ _ _ hlen]
  rw [← Finset.add_sum_erase _ _ (Finset.mem_univ i)]
  conv_rhs => rw [← Finset.add_sum_erase _ _ (Finset.mem_univ i)]
  have : ∑ x ∈ Finset.univ.erase i, childHash C (Function.update m k (some v)) (p ++ [x]) • C.g x.val
      = ∑ x ∈ Finset.univ.erase i, childHash C m (p ++ [x]) • C.g x.val := by
    apply Finset.sum_congr rfl
    intro x hx
    rw [childHash_update_off]
    intro h
    exact (Finset.ne_of_mem_erase hx) (prefix_snoc_inj h hp)
  rw [this]
  module

/-- Change of the suffix commitment that contains the written slot. -/
theorem suffixComm_update_in (C : Crypto F G) {off : ℕ} (hoff : off = 0 ∨ off = 128)
    (h : off ≤ k.suffix.val) (h2 : k.suffix.val < off + 128) :
    suffixComm C (Function.update m k (some v)) k.stem off
      = suffixComm C m k.stem off
        + (lowHalf F v - (slot F (m k)).1) • C.g (2 * (k.suffix.val % 128))
        + (highHalf F v - (slot F (m k)).2) • C.g (2 * (k.suffix.val % 128) + 1) := by
  have hmod : k.suffix.val % 128 = k.suffix.val - off := by
    rcases hoff with rfl | rfl <;> omega
  have hlt : k.suffix.val - off < 128 := by omega
  set i0 : Fin 128 := ⟨k.suffix.val - off, hlt⟩ with hi0
  have hkey : mkKey k.stem (Fin.ofNat 256 (off + i0.val)) = k := by
    rw [mkKey_eq_iff]
    refine ⟨rfl, ?_⟩
    apply Fin.ext
    have := k.suffix.isLt
    simp [hi0]
    omega
  have hne : ∀ x : Fin 128, x ≠ i0 → mkKey k.stem (Fin.ofNat 256 (off + x.val)) ≠ k := by
    intro x hx h'
    have := (mkKey_eq_iff.1 h').2
    have := congrArg Fin.val this
    apply hx
    apply Fin.ext
    simp [hi0] at this ⊢
    rcases hoff with rfl | rfl <;> omega
  unfold suffixComm
  rw [← Finset.add_sum_erase _ _ (Finset.mem_univ i0)]
  conv_rhs => rw [← Finset.add_sum_erase _ _ (Finset.mem_univ i0)]
  have : ∀ x ∈ Finset.univ.erase i0, Function.update m k (some v) (mkKey k.stem (Fin.ofNat 256 (off + x.val)))
      = m (mkKey k.stem (Fin.ofNat 256 (off + x.val))) := by
    intro x hx
    exact Function.update_of_ne (hne x (Finset.ne_of_mem_erase hx)) _ _
  rw [Finset.sum_congr rfl (fun x hx => by rw [this x hx])]
  rw [hkey, Function.update_self, hmod]
  simp only [hi0, slot]
  module

/-- The other suffix commitment does not change. -/
theorem suffixComm_update_out (C : Crypto F G) {off : ℕ}
    (hoff : (off = 0 ∧ 128 ≤ k.suffix.val) ∨ (off = 128 ∧ k.suffix.val < 128)) :
    suffixComm C (Function.update m k (some v)) k.stem off = suffixComm C m k.stem off := by
  unfold suffixComm
  have : ∀ i : Fin 128, Function.update m k (some v) (mkKey k.stem (Fin.ofNat 256 (off + i.val)))
      = m (mkKey k.stem (Fin.ofNat 256 (off + i.val))) := by
    intro i
    apply Function.update_of_ne
    intro h
    have := congrArg Fin.val (mkKey_eq_iff.1 h).2
    simp at this
    omega
  simp only [this]

theorem suffixComm_of_not_hasStem (C : Crypto F G) {s : Stem} (h : ¬ HasStem m s) (off : ℕ) :
    suffixComm C m s off = 0 := by
  unfold suffixComm
  apply Finset.sum_eq_zero
  intro i _
  have : m (mkKey s (Fin.ofNat 256 (off + i.val))) = none := by
    by_contra h'
    exact h ⟨_, h'⟩
  rw [this]
  simp [slot]

/-! ### Nodes -/

/-- A path off the written key keeps its node, unless its parent newly becomes a branch above an existing stem. -/
theorem node_update_off (C : Crypto F G) {p : Path} (hp : ¬ p <+: k.stem.1)
    (hd : IsBranch (Function.update m k (some v)) p.dropLast → IsBranch m p.dropLast ∨ ∀ s, ¬ Under m p s) :
    node C (Function.update m k (some v)) p = node C m p := by
  by_cases hb : IsBranch m p
  · rw [node_branch hb, node_branch hb.update]
    simp only [branchMeta, branchComm_update_off C hp]
  · have hb' : ¬ IsBranch (Function.update m k (some v)) p := by rwa [isBranch_update_off hp]
    by_cases hs : ∃ s, Under m p s
    · obtain ⟨s, hs⟩ := hs
      by_cases hdd : IsBranch m p.dropLast
      · rw [node_stem hb hs hdd, node_stem hb' hs.update hdd.update]
      · have hdd' : ¬ IsBranch (Function.update m k (some v)) p.dropLast := by
          intro h
          rcases hd h with h | h
          · exact hdd h
          · exact h s hs
        rw [node_none hb (Or.inr hdd), node_none hb' (Or.inr hdd')]
    · push Not at hs
      rw [node_none hb (Or.inl hs), node_none hb']
      left; intro s; rw [under_update_off hp]; exact hs s

end Verif.Spec
