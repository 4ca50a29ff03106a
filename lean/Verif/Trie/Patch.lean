import Verif.Trie.Binding

/-!
# Maps that agree below a path

Everything the specification says about a path depends only on the keys below it.  `patch A m m'` is `m` with the stems in
`A` taken from `m'`.
-/

set_option autoImplicit false

namespace Verif.Spec
open scoped BigOperators Classical

variable {F G : Type} [Field F] [AddCommGroup G] [Module F G]

/-- `m` with the stems in `A` taken from `m'`. -/
noncomputable def patch (A : Stem → Prop) (m m' : KV) : KV := fun k => if A k.stem then m' k else m k

variable {m m' : KV}

theorem AgreeUnder.symm {q : Path} (h : AgreeUnder m m' q) : AgreeUnder m' m q := fun s b hs => (h s b hs).symm

theorem AgreeUnder.mono {p q : Path} (h : AgreeUnder m m' p) (hpq : p <+: q) : AgreeUnder m m' q :=
  fun s b hs => h s b (hpq.trans hs)

theorem hasStem_congr {s : Stem} (h : ∀ b, m (mkKey s b) = m' (mkKey s b)) : HasStem m s ↔ HasStem m' s := by
  unfold HasStem
  simp only [h]

theorem AgreeUnder.under {p : Path} (h : AgreeUnder m m' p) {s : Stem} : Under m p s ↔ Under m' p s := by
  unfold Under
  constructor
  · rintro ⟨h1, h2⟩; exact ⟨(hasStem_congr fun b => h s b h2).1 h1, h2⟩
  · rintro ⟨h1, h2⟩; exact ⟨(hasStem_congr fun b => h s b h2).2 h1, h2⟩

theorem AgreeUnder.many {p : Path} (h : AgreeUnder m m' p) : Many m p ↔ Many m' p := by
  unfold Many
  simp only [h.under]

theorem suffixComm_congr (C : Crypto F G) {s : Stem} (h : ∀ b, m (mkKey s b) = m' (mkKey s b)) (off : ℕ) :
    suffixComm C m s off = suffixComm C m' s off := by
  unfold suffixComm
  simp only [h]

theorem stemComm_congr (C : Crypto F G) {s : Stem} (h : ∀ b, m (mkKey s b) = m' (mkKey s b)) :
    stemComm C m s = stemComm C m' s := by
  unfold stemComm
  rw [suffixComm_congr C h, suffixComm_congr C h]

theorem branchCommAux_congr (C : Crypto F G) : ∀ (fuel : ℕ) {p : Path}, AgreeUnder m m' p →
    branchCommAux C m fuel p = branchCommAux C m' fuel p
  | 0, _, _ => rfl
  | n + 1, p, h => by
    simp only [branchCommAux]
    apply Finset.sum_congr rfl
    intro i _
    have hq : AgreeUnder m m' (p ++ [i]) := h.mono (List.prefix_append _ _)
    rw [branchCommAux_congr C n hq]
    congr 1
    simp only [hq.many]
    split
    · rfl
    · rename_i hm
      by_cases hs : ∃ s, Under m (p ++ [i]) s
      · have hs' : ∃ s, Under m' (p ++ [i]) s := by simpa only [hq.under] using hs
        rw [dif_pos hs, dif_pos hs']
        have e1 : Under m' (p ++ [i]) hs.choose := hq.under.1 hs.choose_spec
        have e : hs.choose = hs'.choose := Under.unique hm e1 hs'.choose_spec
        rw [e]
        congr 1
        exact stemComm_congr C fun b => hq _ b hs'.choose_spec.2
      · have hs' : ¬ ∃ s, Under m' (p ++ [i]) s := by simpa only [hq.under] using hs
        rw [dif_neg hs, dif_neg hs']

theorem AgreeUnder.branchComm {p : Path} (h : AgreeUnder m m' p) (C : Crypto F G) :
    branchComm C m p = branchComm C m' p := branchCommAux_congr C _ h

theorem AgreeUnder.childHash {p : Path} (h : AgreeUnder m m' p) (C : Crypto F G) :
    childHash C m p = childHash C m' p := by
  by_cases hm : Many m p
  · rw [childHash_many hm, childHash_many (h.many.1 hm), h.branchComm C]
  · have hm' : ¬ Many m' p := fun x => hm (h.many.2 x)
    by_cases hs : ∃ s, Under m p s
    · obtain ⟨s, hs⟩ := hs
      rw [childHash_single hm hs, childHash_single hm' (h.under.1 hs), stemComm_congr C fun b => h s b hs.2]
    · push Not at hs
      rw [childHash_none hs, childHash_none fun s x => hs s (h.under.2 x)]

/-- A branch commitment changes by the change of the only child below which the maps differ. -/
theorem branchComm_step (C : Crypto F G) {p : Path} (hp : p.length < 32) (i : Byte)
    (h : ∀ j, j ≠ i → AgreeUnder m m' (p ++ [j])) :
    Spec.branchComm C m' p = Spec.branchComm C m p
      + (Spec.childHash C m' (p ++ [i]) - Spec.childHash C m (p ++ [i])) • C.g i.val := by
  rw [branchComm_eq _ _ _ hp, branchComm_eq _ _ _ hp]
  rw [← Finset.add_sum_erase _ _ (Finset.mem_univ i)]
  conv_rhs => rw [← Finset.add_sum_erase _ _ (Finset.mem_univ i)]
  have : ∑ x ∈ Finset.univ.erase i, Spec.childHash C m' (p ++ [x]) • C.g x.val
      = ∑ x ∈ Finset.univ.erase i, Spec.childHash C m (p ++ [x]) • C.g x.val := by
    apply Finset.sum_congr rfl
    intro x hx
    rw [(h x (Finset.ne_of_mem_erase hx)).childHash C]
  rw [this]
  module

/-! ### `patch` -/

theorem patch_in {A : Stem → Prop} {s : Stem} (h : A s) (b : Byte) : patch A m m' (mkKey s b) = m' (mkKey s b) := by
  simp [patch, h]

theorem patch_out {A : Stem → Prop} {s : Stem} (h : ¬ A s) (b : Byte) : patch A m m' (mkKey s b) = m (mkKey s b) := by
  simp [patch, h]

theorem hasStem_patch {A : Stem → Prop} {s : Stem} :
    HasStem (patch A m m') s ↔ (A s ∧ HasStem m' s) ∨ (¬ A s ∧ HasStem m s) := by
  by_cases h : A s
  · rw [hasStem_congr (m' := m') fun b => patch_in h b]; simp [h]
  · rw [hasStem_congr (m' := m) fun b => patch_out h b]; simp [h]

theorem patch_agree {A B : Stem → Prop} {p : Path} (h : ∀ s : Stem, p <+: s.1 → (A s ↔ B s)) :
    AgreeUnder (patch A m m') (patch B m m') p := by
  intro s b hs
  have := h s hs
  by_cases ha : A s
  · rw [patch_in ha, patch_in (this.1 ha)]
  · rw [patch_out ha, patch_out (fun hb => ha (this.2 hb))]

theorem patch_agree_right {A : Stem → Prop} {p : Path} (h : ∀ s : Stem, p <+: s.1 → ¬ A s → ∀ b, m (mkKey s b) = m' (mkKey s b)) :
    AgreeUnder (patch A m m') m' p := by
  intro s b hs
  by_cases ha : A s
  · rw [patch_in ha]
  · rw [patch_out ha, h s hs ha]

theorem patch_agree_left {A : Stem → Prop} {p : Path} (h : ∀ s : Stem, p <+: s.1 → A s → ∀ b, m (mkKey s b) = m' (mkKey s b)) :
    AgreeUnder (patch A m m') m p := by
  intro s b hs
  by_cases ha : A s
  · rw [patch_in ha, h s hs ha]
  · rw [patch_out ha]

end Verif.Spec
