import Verif.Ipa.Count
import Mathlib.Data.Real.Basic
import Mathlib.Algebra.BigOperators.Field
import Mathlib.Algebra.Order.BigOperators.Group.Finset
import Mathlib.Algebra.Order.Ring.Pow
import Mathlib.Tactic.Positivity
import Mathlib.Tactic.FieldSimp
import Mathlib.Tactic.Linarith

/-!
# An extractor with a bounded number of runs

`Verif.Ipa.Count` shows that a convincing prover has a family of accepted runs.  Here such a family is found: challenges are drawn
at random, a fixed number at every stage, the prover is run on all of them and the first accepted runs with different challenges
are kept.  If the prover convinces on more than a small part of all challenges, this succeeds for at least half of the draws.
-/

set_option autoImplicit false
set_option linter.unusedSectionVars false

namespace Verif.Ipa
open Proof

/-! ### Parts of a finite set -/

section
variable {α β Z : Type} [Fintype α] [Fintype β] [Fintype Z]

/-- The part of a finite set where `p` holds. -/
noncomputable def part (p : α → Prop) : ℝ := (Nat.card {a // p a} : ℝ) / Fintype.card α

theorem part_eq (p : α → Prop) [DecidablePred p] : part p = (Fintype.card {a // p a} : ℝ) / Fintype.card α := by
  rw [part, Nat.card_eq_fintype_card]

theorem part_nonneg (p : α → Prop) : 0 ≤ part p := by unfold part; positivity

theorem part_le_one (p : α → Prop) : part p ≤ 1 := by
  classical
  rw [part_eq]
  refine div_le_one_of_le₀ ?_ (by positivity)
  exact_mod_cast Fintype.card_subtype_le _

theorem part_mono {p q : α → Prop} (h : ∀ a, p a → q a) : part p ≤ part q := by
  classical
  rw [part_eq, part_eq]
  refine div_le_div_of_nonneg_right ?_ (by positivity)
  exact_mod_cast Fintype.card_subtype_mono _ _ h

theorem part_not [Nonempty α] (p : α → Prop) : part (fun a => ¬ p a) = 1 - part p := by
  classical
  have hc : (0 : ℝ) < Fintype.card α := by exact_mod_cast Fintype.card_pos
  have h1 := Fintype.card_subtype_compl p
  have h2 := Fintype.card_subtype_le p
  rw [part_eq, part_eq]
  rw [eq_sub_iff_add_eq, ← add_div, div_eq_one_iff_eq hc.ne']
  have h3 : Fintype.card {a // ¬ p a} + Fintype.card {a // p a} = Fintype.card α := by omega
  exact_mod_cast h3

theorem part_pos {p : α → Prop} (h : 0 < part p) : ∃ a, p a := by
  classical
  by_contra hn
  have : part p = 0 := by
    rw [part_eq]
    have : IsEmpty {a // p a} := ⟨fun x => hn ⟨x.1, x.2⟩⟩
    simp
  exact absurd this h.ne'

theorem part_congr (e : α ≃ β) (p : β → Prop) : part (fun a => p (e a)) = part p := by
  classical
  rw [part_eq, part_eq, Fintype.card_congr e, Fintype.card_congr (e.subtypeEquiv fun a => (Iff.rfl : p (e a) ↔ p (e a)))]

theorem part_prod (p : α → β → Prop) : part (fun z : α × β => p z.1 z.2) * Fintype.card α = ∑ a, part (p a) := by
  classical
  rcases isEmpty_or_nonempty α with hα | hα
  · simp
  have h1 : Fintype.card {z : α × β // p z.1 z.2} = ∑ x : α, Fintype.card {y // p x y} := by
    rw [← Fintype.card_sigma]
    exact Fintype.card_congr ⟨fun p => ⟨p.1.1, p.1.2, p.2⟩, fun q => ⟨(q.1, q.2.1), q.2.2⟩, fun _ => rfl, fun _ => rfl⟩
  have hc : (Fintype.card α : ℝ) ≠ 0 := by exact_mod_cast Fintype.card_ne_zero
  simp only [part_eq]
  rw [← Finset.sum_div, h1, Fintype.card_prod]
  push_cast
  rw [div_mul_eq_mul_div, mul_comm (Fintype.card α : ℝ) (Fintype.card β : ℝ), mul_div_mul_right _ _ hc]

/-- A bound for two stages: the first fails rarely, and if it does not, so does the second. -/
theorem part_two [Nonempty α] {p : α → β → Prop} {q : α → Prop} {x y : ℝ} (hx : part (fun a => ¬ q a) ≤ x) (hy0 : 0 ≤ y)
    (hy : ∀ a, q a → part (p a) ≤ y) : part (fun z : α × β => p z.1 z.2) ≤ x + y := by
  classical
  have hc : (0 : ℝ) < Fintype.card α := by exact_mod_cast Fintype.card_pos
  have h1 : ∑ a, part (p a) ≤ ∑ a, ((if q a then 0 else 1) + y) := by
    refine Finset.sum_le_sum fun a _ => ?_
    by_cases h : q a
    · simpa [h] using hy a h
    · simpa [h] using (part_le_one (p a)).trans (by linarith)
  have h2 : ∑ a : α, ((if q a then 0 else 1) + y) = part (fun a => ¬ q a) * Fintype.card α + Fintype.card α * y := by
    rw [Finset.sum_add_distrib]
    congr 1
    · rw [part_eq, div_mul_cancel₀ _ hc.ne', Fintype.card_subtype]
      rw [Finset.card_filter]
      push_cast
      refine Finset.sum_congr rfl fun a _ => ?_
      by_cases h : q a <;> simp [h]
    · simp
  have h3 : part (fun z : α × β => p z.1 z.2) * Fintype.card α ≤ (x + y) * Fintype.card α := by
    rw [part_prod p]
    refine h1.trans ?_
    rw [h2]
    nlinarith
  exact le_of_mul_le_mul_right h3 hc

/-- Independent draws. -/
theorem part_all (q : Z → Prop) (m : ℕ) : part (fun f : Fin m → Z => ∀ i, q (f i)) = part q ^ m := by
  classical
  rw [part_eq, part_eq, div_pow]
  congr 1
  · have : Fintype.card {f : Fin m → Z // ∀ i, q (f i)} = Fintype.card (Fin m → {z // q z}) :=
      Fintype.card_congr ⟨fun f i => ⟨f.1 i, f.2 i⟩, fun f => ⟨fun i => (f i).1, fun i => (f i).2⟩, fun _ => rfl, fun _ => rfl⟩
    rw [this]
    simp
  · simp

/-- More than the part `x` of the `a` have more than the part `e` of partners. -/
theorem part_heavy [Nonempty α] (p : α → β → Prop) {x e : ℝ} (he : 0 ≤ e) (h : e + x < part (fun z : α × β => p z.1 z.2)) :
    x < part (fun a => e < part (p a)) := by
  by_contra hx
  refine absurd h (not_lt.2 ?_)
  rw [add_comm]
  refine part_two (q := fun a => ¬ e < part (p a)) ?_ he fun a ha => not_lt.1 ha
  simpa using not_lt.1 hx

end

/-! ### One stage -/

section
variable {F Y τ : Type}

/-- The draws of one stage: `k` times `m` challenges, with the draws of the later stages for each. -/
abbrev Level (F : Type) (k m : ℕ) (Y : Type) : Type := Fin k → Fin m → F × Y

/-- Keep the first success for each challenge outside `A`. -/
def collect [DecidableEq F] : List F → List (F × Option τ) → List (F × τ)
  | _, [] => []
  | A, (_, none) :: l => collect A l
  | A, (c, some t) :: l => if c ∈ A then collect A l else (c, t) :: collect (c :: A) l

/-- The first `k` successes with different challenges outside `A`. -/
def firstK [DecidableEq F] (k : ℕ) (A : List F) (l : List (F × Option τ)) : Option (Fin k → F × τ) :=
  if h : k ≤ (collect A l).length then some fun i => (collect A l)[i.1]'(i.2.trans_le h) else none

/-- The results of the draws of a stage, if `ext` treats the later stages. -/
def results {k m : ℕ} (ext : F → Y → Option τ) (s : Level F k m Y) : List (F × Option τ) :=
  (List.finRange k).flatMap fun a => (List.finRange m).map fun i => ((s a i).1, ext (s a i).1 (s a i).2)

/-- One stage of the extractor. -/
def level [DecidableEq F] {k m : ℕ} (A : List F) (ext : F → Y → Option τ) (s : Level F k m Y) : Option (Fin k → F × τ) :=
  firstK k A (results ext s)

theorem mem_results {k m : ℕ} {ext : F → Y → Option τ} {s : Level F k m Y} {x : F × Option τ} :
    x ∈ results ext s ↔ ∃ a i, ((s a i).1, ext (s a i).1 (s a i).2) = x := by
  simp [results]

variable [DecidableEq F]

theorem collect_mem : ∀ {A : List F} {l : List (F × Option τ)} {x : F × τ}, x ∈ collect A l → (x.1, some x.2) ∈ l ∧ x.1 ∉ A
  | _, [], _, h => by simp [collect] at h
  | A, (_, none) :: l, x, h => by
    simp only [collect] at h
    exact ⟨List.mem_cons_of_mem _ (collect_mem h).1, (collect_mem h).2⟩
  | A, (c, some t) :: l, x, h => by
    simp only [collect] at h
    split at h
    · exact ⟨List.mem_cons_of_mem _ (collect_mem h).1, (collect_mem h).2⟩
    · rename_i hc
      rcases List.mem_cons.1 h with rfl | h
      · exact ⟨by simp, hc⟩
      · have := collect_mem h
        exact ⟨List.mem_cons_of_mem _ this.1, fun h' => this.2 (List.mem_cons_of_mem _ h')⟩

theorem collect_nodup : ∀ (A : List F) (l : List (F × Option τ)), ((collect A l).map Prod.fst).Nodup
  | _, [] => by simp [collect]
  | A, (_, none) :: l => by simpa only [collect] using collect_nodup A l
  | A, (c, some t) :: l => by
    simp only [collect]
    split
    · exact collect_nodup A l
    · rw [List.map_cons, List.nodup_cons]
      refine ⟨fun h => ?_, collect_nodup _ l⟩
      obtain ⟨x, hx, e⟩ := List.mem_map.1 h
      exact (collect_mem hx).2 (by rw [e]; simp)

theorem collect_complete : ∀ {A : List F} {l : List (F × Option τ)} {c : F} {t : τ}, (c, some t) ∈ l → c ∉ A →
    c ∈ (collect A l).map Prod.fst
  | _, [], _, _, h, _ => by simp at h
  | A, (_, none) :: l, c, t, h, hA => by
    simp only [collect]
    rcases List.mem_cons.1 h with h | h
    · simp at h
    · exact collect_complete h hA
  | A, (c', some t') :: l, c, t, h, hA => by
    simp only [collect]
    split
    · rename_i hc
      rcases List.mem_cons.1 h with h | h
      · simp only [Prod.mk.injEq] at h
        exact absurd (h.1 ▸ hc) hA
      · exact collect_complete h hA
    · by_cases hcc : c = c'
      · simp [hcc]
      · rw [List.map_cons]
        refine List.mem_cons_of_mem _ ?_
        rcases List.mem_cons.1 h with h | h
        · simp only [Prod.mk.injEq] at h
          exact absurd h.1 hcc
        · exact collect_complete h (by simp [hcc, hA])

/-- What a stage of the extractor returns. -/
theorem level_some {k m : ℕ} {A : List F} {ext : F → Y → Option τ} {s : Level F k m Y} {f : Fin k → F × τ}
    (h : level A ext s = some f) :
    Function.Injective (fun j => (f j).1) ∧ (∀ j, (f j).1 ∉ A) ∧
      ∀ j, ∃ a i, (s a i).1 = (f j).1 ∧ ext (f j).1 (s a i).2 = some (f j).2 := by
  unfold level firstK at h
  split at h
  · rename_i hk
    cases h
    refine ⟨fun i j e => ?_, fun j => (collect_mem (List.getElem_mem _)).2, fun j => ?_⟩
    · have hn := collect_nodup A (results ext s)
      have := hn.getElem_inj_iff (i := i.1) (j := j.1) (hi := by simp; exact i.2.trans_le hk) (hj := by simp; exact j.2.trans_le hk)
      simp only [List.getElem_map] at this
      exact Fin.ext (this.1 e)
    · have h1 := (collect_mem (List.getElem_mem (l := collect A (results ext s)) (j.2.trans_le hk))).1
      obtain ⟨a, i, e⟩ := mem_results.1 h1
      simp only [Prod.mk.injEq] at e
      refine ⟨a, i, e.1, ?_⟩
      rw [← e.2, e.1]
  · simp at h

/-- When a stage of the extractor succeeds. -/
theorem level_isSome {k m : ℕ} {A : List F} {ext : F → Y → Option τ} {s : Level F k m Y} (f : Fin k → F)
    (hf : Function.Injective f) (hA : ∀ j, f j ∉ A) (h : ∀ j, ∃ a i, (s a i).1 = f j ∧ (ext (f j) (s a i).2).isSome) :
    (level A ext s).isSome := by
  have h1 : ∀ j, f j ∈ (collect A (results ext s)).map Prod.fst := by
    intro j
    obtain ⟨a, i, e1, e2⟩ := h j
    obtain ⟨t, ht⟩ := Option.isSome_iff_exists.1 e2
    exact collect_complete (mem_results.2 ⟨a, i, by rw [e1, ht]⟩) (hA j)
  have h2 : k ≤ (collect A (results ext s)).length := by
    have h3 : (Finset.univ.image f).card = k := by rw [Finset.card_image_of_injective _ hf]; simp
    have h4 : Finset.univ.image f ⊆ ((collect A (results ext s)).map Prod.fst).toFinset := by
      intro x hx
      obtain ⟨j, _, rfl⟩ := Finset.mem_image.1 hx
      exact List.mem_toFinset.2 (h1 j)
    have h5 := (Finset.card_le_card h4).trans (List.toFinset_card_le _)
    rw [h3, List.length_map] at h5
    exact h5
  unfold level firstK
  rw [dif_pos h2]
  rfl

end

/-! ### The part of the draws for which a stage succeeds -/

section
variable {F Y : Type} [Fintype F] [Fintype Y] [Nonempty F] [Nonempty Y]

/-- A block of draws without a new good challenge. -/
theorem block_fails (good : F → Y → Prop) {b m : ℕ} {g : ℝ} (hg : 0 < g)
    (hH : 1 / g + b / Fintype.card F < part (fun c => 1 / 2 ≤ part (good c))) {A : Finset F} (hA : A.card ≤ b) :
    part (fun f : Fin m → F × Y => ∀ i, ¬ ((f i).1 ∉ A ∧ good (f i).1 (f i).2)) ≤ (1 - 1 / (2 * g)) ^ m := by
  classical
  rw [part_all (fun z : F × Y => ¬ (z.1 ∉ A ∧ good z.1 z.2))]
  refine pow_le_pow_left₀ (part_nonneg _) ?_ m
  rw [part_not (fun z : F × Y => z.1 ∉ A ∧ good z.1 z.2)]
  have hc : (0 : ℝ) < Fintype.card F := by exact_mod_cast Fintype.card_pos
  have h1 := part_prod fun (c : F) (y : Y) => c ∉ A ∧ good c y
  have h2 : ∑ c : F, ((if 1 / 2 ≤ part (good c) then (1 / 2 : ℝ) else 0) - (if c ∈ A then (1 / 2 : ℝ) else 0)) ≤
      ∑ c : F, part fun y => c ∉ A ∧ good c y := by
    refine Finset.sum_le_sum fun c _ => ?_
    by_cases hcA : c ∈ A
    · have := part_nonneg fun y => c ∉ A ∧ good c y
      rw [if_pos hcA]
      split_ifs <;> linarith
    · simp only [hcA, if_false, not_false_eq_true, true_and, sub_zero]
      split_ifs with h
      · exact h
      · exact part_nonneg _
  have h3 : ∑ c : F, ((if 1 / 2 ≤ part (good c) then (1 / 2 : ℝ) else 0) - (if c ∈ A then (1 / 2 : ℝ) else 0)) =
      (part (fun c => 1 / 2 ≤ part (good c)) * Fintype.card F - A.card) / 2 := by
    rw [Finset.sum_sub_distrib, ← Finset.sum_filter, ← Finset.sum_filter]
    rw [part_eq, div_mul_cancel₀ _ hc.ne', Fintype.card_subtype]
    simp only [Finset.sum_const, nsmul_eq_mul, Finset.filter_univ_mem]
    ring
  have h4 : (A.card : ℝ) ≤ b := by exact_mod_cast hA
  have h5 : Fintype.card F / g + b ≤ part (fun c => 1 / 2 ≤ part (good c)) * Fintype.card F := by
    have := mul_le_mul_of_nonneg_right hH.le hc.le
    rw [add_mul, div_mul_cancel₀ _ hc.ne', one_div_mul_eq_div] at this
    exact this
  have h6 : (Fintype.card F / g) / 2 ≤ part (fun z : F × Y => z.1 ∉ A ∧ good z.1 z.2) * Fintype.card F := by
    rw [h1]
    refine le_trans ?_ h2
    rw [h3]
    linarith
  have h7 : 1 / (2 * g) ≤ part (fun z : F × Y => z.1 ∉ A ∧ good z.1 z.2) := by
    refine le_of_mul_le_mul_right (le_trans (le_of_eq ?_) h6) hc
    field_simp
  linarith

/-- `j` blocks give `j` good challenges outside `A` but for a small part of the draws. -/
theorem blocks_fail (good : F → Y → Prop) {b m : ℕ} {g : ℝ} (hg : 1 ≤ g)
    (hH : 1 / g + b / Fintype.card F < part (fun c => 1 / 2 ≤ part (good c))) : ∀ (j : ℕ) (A : Finset F), A.card + j ≤ b + 1 →
    part (fun s : Level F j m Y => ¬ ∃ f : Fin j → F, Function.Injective f ∧ (∀ i, f i ∉ A) ∧
      ∀ i, ∃ a a', (s a a').1 = f i ∧ good (f i) (s a a').2) ≤ j * (1 - 1 / (2 * g)) ^ m
  | 0, A, _ => by
    have h : part (fun s : Level F 0 m Y => ¬ ∃ f : Fin 0 → F, Function.Injective f ∧ (∀ i, f i ∉ A) ∧
        ∀ i, ∃ a a', (s a a').1 = f i ∧ good (f i) (s a a').2) ≤ part (fun _ : Level F 0 m Y => False) :=
      part_mono fun s hs => hs ⟨Fin.elim0, fun i => i.elim0, fun i => i.elim0, fun i => i.elim0⟩
    refine h.trans ?_
    unfold part
    simp
  | j + 1, A, hA => by
    classical
    have hg0 : 0 < g := by linarith
    have hη : 0 ≤ (1 - 1 / (2 * g)) ^ m := by
      refine pow_nonneg ?_ m
      have : 1 / (2 * g) ≤ 1 := by
        rw [div_le_one (by linarith)]
        linarith
      linarith
    rw [← part_congr (Fin.consEquiv (fun _ : Fin (j + 1) => Fin m → F × Y))]
    have key : part (fun z : (Fin m → F × Y) × (Fin j → Fin m → F × Y) => ¬ ∃ f : Fin (j + 1) → F, Function.Injective f ∧
        (∀ i, f i ∉ A) ∧ ∀ i, ∃ a a', ((Fin.consEquiv (fun _ : Fin (j + 1) => Fin m → F × Y)) z a a').1 = f i ∧
          good (f i) ((Fin.consEquiv (fun _ : Fin (j + 1) => Fin m → F × Y)) z a a').2) ≤
        (1 - 1 / (2 * g)) ^ m + j * (1 - 1 / (2 * g)) ^ m := by
      refine part_two (p := fun z₁ z₂ => ¬ ∃ f : Fin (j + 1) → F, Function.Injective f ∧
        (∀ i, f i ∉ A) ∧ ∀ i, ∃ a a', ((Fin.consEquiv (fun _ : Fin (j + 1) => Fin m → F × Y)) (z₁, z₂) a a').1 = f i ∧
          good (f i) ((Fin.consEquiv (fun _ : Fin (j + 1) => Fin m → F × Y)) (z₁, z₂) a a').2)
        (q := fun z => ¬ ∀ i, ¬ ((z i).1 ∉ A ∧ good (z i).1 (z i).2)) ?_ (by positivity) fun z₁ hz => ?_
      · simp only [not_not]
        exact block_fails good hg0 hH (by omega)
      · push Not at hz
        obtain ⟨i₀, hi, hgood⟩ := hz
        refine (part_mono fun z₂ hz₂ => ?_).trans
          (blocks_fail good hg hH j (insert (z₁ i₀).1 A) (by have := Finset.card_insert_le (z₁ i₀).1 A; omega))
        rintro ⟨f, f1, f2, f3⟩
        refine hz₂ ⟨Fin.cons (z₁ i₀).1 f, ?_, fun i => ?_, fun i => ?_⟩
        · rw [Fin.cons_injective_iff]
          refine ⟨fun ⟨i, hi'⟩ => f2 i (by rw [hi']; simp), f1⟩
        · refine Fin.cases ?_ (fun i => ?_) i
          · exact hi
          · exact fun h => f2 i (Finset.mem_insert_of_mem h)
        · refine Fin.cases ?_ (fun i => ?_) i
          · exact ⟨0, i₀, rfl, hgood⟩
          · obtain ⟨a, a', h1, h2⟩ := f3 i
            exact ⟨a.succ, a', h1, h2⟩
    refine key.trans (le_of_eq ?_)
    push_cast
    ring

/-- `(1 - 1 / N) ^ N` is at most one half. -/
theorem pow_half {N : ℕ} (hN : N ≠ 0) : (1 - 1 / (N : ℝ)) ^ N ≤ 1 / 2 := by
  have hN' : (0 : ℝ) < N := by exact_mod_cast Nat.pos_of_ne_zero hN
  have h1 : (1 : ℝ) / N ≤ 1 := by
    rw [div_le_one hN']
    exact_mod_cast Nat.one_le_iff_ne_zero.2 hN
  have h2 : (2 : ℝ) ≤ (1 + 1 / N) ^ N := by
    have := one_add_mul_le_pow (a := (1 : ℝ) / N) (by have := (by positivity : (0 : ℝ) ≤ 1 / N); linarith) N
    rw [mul_one_div_cancel hN'.ne'] at this
    linarith
  have h3 : (1 - 1 / (N : ℝ)) ^ N * (1 + 1 / N) ^ N ≤ 1 := by
    rw [← mul_pow]
    refine pow_le_one₀ ?_ ?_
    · have := (by positivity : (0 : ℝ) ≤ 1 / N)
      exact mul_nonneg (by linarith) (by linarith)
    · nlinarith [sq_nonneg ((1 : ℝ) / N)]
  have h4 : 0 ≤ (1 - 1 / (N : ℝ)) ^ N := pow_nonneg (by linarith) N
  nlinarith

theorem small_pow {g e : ℕ} (hg : g ≠ 0) {k : ℕ} (hk : 2 * k ≤ 2 ^ e) :
    k * (1 - 1 / (2 * (g : ℝ))) ^ (2 * g * e) ≤ 1 / 2 := by
  have h1 := pow_half (N := 2 * g) (by omega)
  push_cast at h1
  have h0 : (0 : ℝ) ≤ (1 - 1 / (2 * (g : ℝ))) ^ (2 * g) := by
    refine pow_nonneg ?_ _
    have h2 : (1 : ℝ) ≤ g := by exact_mod_cast Nat.one_le_iff_ne_zero.2 hg
    have : 1 / (2 * (g : ℝ)) ≤ 1 := by
      rw [div_le_one (by linarith)]
      linarith
    linarith
  rw [pow_mul]
  have h3 := pow_le_pow_left₀ h0 h1 e
  have h4 : (k : ℝ) * 2 ≤ 2 ^ e := by
    have : ((2 * k : ℕ) : ℝ) ≤ ((2 ^ e : ℕ) : ℝ) := by exact_mod_cast hk
    push_cast at this
    linarith
  have h5 : ((1 : ℝ) / 2) ^ e * 2 ^ e = 1 := by rw [← mul_pow]; norm_num
  have h6 : (0 : ℝ) ≤ (1 / 2) ^ e := by positivity
  calc (k : ℝ) * ((1 - 1 / (2 * (g : ℝ))) ^ (2 * g)) ^ e ≤ k * (1 / 2) ^ e := by
        exact mul_le_mul_of_nonneg_left h3 (by positivity)
    _ ≤ 1 / 2 := by nlinarith

/-- One stage of the extractor succeeds for half of the draws, if the later stages do so for the heavy challenges. -/
theorem level_half [DecidableEq F] {X τ : Type} [Fintype X] [Nonempty X] (P : F → X → Prop) (ext : F → Y → Option τ) {k b e g : ℕ}
    (hg : g ≠ 0) {A : List F} (hb : A.length + k ≤ b + 1) (hk : 2 * k ≤ 2 ^ e) {ε : ℝ} (hε : 0 ≤ ε)
    (hP : ε + (1 / g + b / Fintype.card F) < part (fun z : F × X => P z.1 z.2))
    (hext : ∀ c, ε < part (P c) → 1 / 2 ≤ part (fun y => (ext c y).isSome = true)) :
    1 / 2 ≤ part (fun s : Level F k (2 * g * e) Y => (level A ext s).isSome = true) := by
  have hg1 : (1 : ℝ) ≤ g := by exact_mod_cast Nat.one_le_iff_ne_zero.2 hg
  have h1 := (part_heavy P hε hP).trans_le (part_mono hext)
  have h2 := blocks_fail (m := 2 * g * e) (fun c y => (ext c y).isSome = true) hg1 h1 k A.toFinset
    ((Nat.add_le_add_right (List.toFinset_card_le _) _).trans hb)
  have h3 := h2.trans (small_pow hg hk)
  rw [part_not] at h3
  refine le_trans (by linarith) (part_mono (p := fun s : Level F k (2 * g * e) Y => ∃ f : Fin k → F, Function.Injective f ∧
    (∀ i, f i ∉ A.toFinset) ∧ ∀ i, ∃ a a', (s a a').1 = f i ∧ (ext (f i) (s a a').2).isSome = true) fun s hs => ?_)
  obtain ⟨f, f1, f2, f3⟩ := hs
  exact level_isSome f f1 (fun j => by simpa using f2 j) f3

end

/-! ### The extractor -/

section
variable {F G : Type}

/-- The draws for the rounds of the inner product argument: four times `m` challenges in each. -/
def IpaSample (F : Type) (m : ℕ) : ℕ → Type
  | 0 => Unit
  | k + 1 => Level F 4 m (IpaSample F m k)

/-- The draws for the multipoint argument: `q`, `n` and two times `m` challenges for `r`, `t` and `w`. -/
abbrev MultiSample (F : Type) (q n k m : ℕ) : Type := Level F q m (Level F n m (Level F 2 m (IpaSample F m k)))

/-- The challenges on which the prover is run. -/
def IpaSample.challenges {m : ℕ} : {k : ℕ} → IpaSample F m k → List (Fin k → F)
  | 0, _ => [Fin.elim0]
  | _ + 1, s => (List.finRange 4).flatMap fun a => (List.finRange m).flatMap fun i =>
    (IpaSample.challenges (s a i).2).map (Fin.cons (s a i).1)

/-- The challenges on which the prover of the multipoint argument is run. -/
def MultiSample.challenges {q n k m : ℕ} (s : MultiSample F q n k m) : List (F × F × F × (Fin k → F)) :=
  (List.finRange q).flatMap fun a => (List.finRange m).flatMap fun i =>
    (List.finRange n).flatMap fun a' => (List.finRange m).flatMap fun i' =>
      (List.finRange 2).flatMap fun a'' => (List.finRange m).flatMap fun i'' =>
        (IpaSample.challenges (((s a i).2 a' i').2 a'' i'').2).map fun x =>
          ((s a i).1, ((s a i).2 a' i').1, (((s a i).2 a' i').2 a'' i'').1, x)

theorem flatMap_length {α β : Type} (l : List α) (f : α → List β) {n : ℕ} (h : ∀ a, (f a).length = n) :
    (l.flatMap f).length = l.length * n := by
  simp [List.length_flatMap, h]

theorem IpaSample.challenges_length {m : ℕ} : ∀ {k : ℕ} (s : IpaSample F m k), s.challenges.length = (4 * m) ^ k
  | 0, _ => rfl
  | k + 1, s => by
    rw [IpaSample.challenges, flatMap_length (n := m * (4 * m) ^ k)]
    · rw [List.length_finRange, pow_succ]; ring
    · intro a
      rw [flatMap_length (n := (4 * m) ^ k), List.length_finRange]
      intro i
      rw [List.length_map, IpaSample.challenges_length]

/-- The number of runs. -/
theorem MultiSample.challenges_length {q n k m : ℕ} (s : MultiSample F q n k m) :
    s.challenges.length = q * n * 2 * 4 ^ k * m ^ (k + 3) := by
  unfold MultiSample.challenges
  rw [flatMap_length (n := m * (n * (m * (2 * (m * (4 * m) ^ k)))))]
  · rw [List.length_finRange, mul_pow, pow_add]; ring
  · intro a
    rw [flatMap_length (n := n * (m * (2 * (m * (4 * m) ^ k)))), List.length_finRange]
    intro i
    rw [flatMap_length (n := m * (2 * (m * (4 * m) ^ k))), List.length_finRange]
    intro a'
    rw [flatMap_length (n := 2 * (m * (4 * m) ^ k)), List.length_finRange]
    intro i'
    rw [flatMap_length (n := m * (4 * m) ^ k), List.length_finRange]
    intro a''
    rw [flatMap_length (n := (4 * m) ^ k), List.length_finRange]
    intro i''
    rw [List.length_map, IpaSample.challenges_length]

variable [Field F] [DecidableEq F]

/-- The extractor for the inner product argument: run the prover `S` on the drawn challenges; `P` tells which are accepted. -/
def Strat.extract {m : ℕ} : {k : ℕ} → Strat F G k → ((Fin k → F) → Bool) → IpaSample F m k → Option (Tree F G k)
  | _, .last a, P, _ => if P Fin.elim0 then some (.leaf a) else none
  | _, .round L R next, P, s =>
    (level (k := 4) (m := m) [0] (fun c y => (next c).extract (fun x => P (Fin.cons c x)) y) s).map fun f =>
      .node L R (fun j => (f j).1) fun j => (f j).2

/-- The extractor for the multipoint argument with a domain of `n` points. -/
def MultiStrat.extract {q n' k m : ℕ} (n : ℕ) (S : MultiStrat F G k) (P : F × F × F × (Fin k → F) → Bool)
    (s : MultiSample F q (n' + 1) k m) : Option (MultiTree F G q n' k) :=
  (level [] (fun r y => level ((List.range n).map fun p : ℕ => (p : F)) (fun t y => level [0] (fun w y =>
    (S.ipa r t w).extract (fun x => P (r, t, w, x)) y) y) y) s).map fun f =>
      ⟨fun i => (f i).1, fun i => S.D (f i).1, fun i j => ((f i).2 j).1, fun i j u => (((f i).2 j).2 u).1,
        fun i j u => (((f i).2 j).2 u).2⟩

/-- The extractor for the inner product argument with the challenge `w` in front. -/
def openExtract {k m : ℕ} (S : F → Strat F G k) (P : F × (Fin k → F) → Bool) (s : Level F 2 m (IpaSample F m k)) :
    Option (Fin 2 → F × Tree F G k) :=
  level [0] (fun w y => (S w).extract (fun x => P (w, x)) y) s

/-- The challenges on which it runs the prover. -/
def openChallenges {k m : ℕ} (s : Level F 2 m (IpaSample F m k)) : List (F × (Fin k → F)) :=
  (List.finRange 2).flatMap fun a => (List.finRange m).flatMap fun i => (IpaSample.challenges (s a i).2).map fun x => ((s a i).1, x)

theorem openChallenges_length {k m : ℕ} (s : Level F 2 m (IpaSample F m k)) :
    (openChallenges s).length = 2 * 4 ^ k * m ^ (k + 1) := by
  unfold openChallenges
  rw [flatMap_length (n := m * (4 * m) ^ k)]
  · rw [List.length_finRange, mul_pow, pow_add]; ring
  · intro a
    rw [flatMap_length (n := (4 * m) ^ k), List.length_finRange]
    intro i
    rw [List.length_map, IpaSample.challenges_length]

/-- What the extractor returns: accepted runs, on challenges that were drawn. -/
theorem Strat.extract_spec {m : ℕ} : ∀ {k : ℕ} (S : Strat F G k) (P : (Fin k → F) → Bool) (s : IpaSample F m k) {T : Tree F G k},
    S.extract P s = some T →
    T.Distinct ∧ ∀ p ∈ T.leaves, ∃ x ∈ s.challenges, p = (List.ofFn x, S.run x) ∧ P x = true
  | _, .last a, P, s, T, h => by
    simp only [Strat.extract] at h
    split at h
    · rename_i hP
      cases h
      refine ⟨trivial, fun p hp => ⟨Fin.elim0, by simp [IpaSample.challenges], ?_, hP⟩⟩
      simpa [Tree.leaves, Strat.run] using hp
    · simp at h
  | _, .round L R next, P, s, T, h => by
    simp only [Strat.extract, Option.map_eq_some_iff] at h
    obtain ⟨f, h1, rfl⟩ := h
    obtain ⟨f1, f2, f3⟩ := level_some h1
    refine ⟨⟨f1, fun j => by simpa using f2 j, fun j => ?_⟩, fun p hp => ?_⟩
    · obtain ⟨a, i, _, e2⟩ := f3 j
      exact (Strat.extract_spec _ _ _ e2).1
    · simp only [Tree.leaves, List.mem_flatMap, List.mem_map] at hp
      obtain ⟨j, _, p, hp, rfl⟩ := hp
      obtain ⟨a, i, e1, e2⟩ := f3 j
      obtain ⟨x, hx, rfl, hP⟩ := (Strat.extract_spec _ _ _ e2).2 p hp
      refine ⟨Fin.cons (f j).1 x, ?_, ?_, hP⟩
      · simp only [IpaSample.challenges, List.mem_flatMap, List.mem_map, List.mem_finRange, true_and]
        exact ⟨a, i, x, hx, by rw [e1]⟩
      · simp [Strat.run, List.ofFn_succ]

theorem openExtract_spec {k m : ℕ} (S : F → Strat F G k) (P : F × (Fin k → F) → Bool) (s : Level F 2 m (IpaSample F m k))
    {f : Fin 2 → F × Tree F G k} (h : openExtract S P s = some f) :
    OpenDistinct (fun u => (f u).1) (fun u => (f u).2) ∧ ∀ u, ∀ p ∈ (f u).2.leaves, ∃ x,
      p = (List.ofFn x, (S (f u).1).run x) ∧ P ((f u).1, x) = true ∧ ((f u).1, x) ∈ openChallenges s := by
  obtain ⟨f1, f2, f3⟩ := level_some h
  choose a i e1 e2 using f3
  have h4 := fun u => Strat.extract_spec _ _ _ (e2 u)
  refine ⟨⟨fun e => absurd (f1 e) (by decide), fun u => by simpa using f2 u, fun u => (h4 u).1⟩, fun u p hp => ?_⟩
  obtain ⟨x, hx, rfl, hP⟩ := (h4 u).2 p hp
  refine ⟨x, rfl, hP, ?_⟩
  simp only [openChallenges, List.mem_flatMap, List.mem_map, List.mem_finRange, true_and]
  exact ⟨_, _, x, hx, by rw [e1]⟩

theorem MultiStrat.extract_spec {q n' n k m : ℕ} (S : MultiStrat F G k) (P : F × F × F × (Fin k → F) → Bool)
    (s : MultiSample F q (n' + 1) k m) {X : MultiTree F G q n' k} (h : S.extract n P s = some X) :
    X.Distinct n ∧ ∀ i j u, ∀ p ∈ (X.ipa i j u).leaves, ∃ x : Fin k → F,
      p.1 = List.ofFn x ∧ S.run (X.r i, X.t i j, X.w i j u, x) = ⟨p.2, X.D i⟩ ∧ P (X.r i, X.t i j, X.w i j u, x) = true ∧
      (X.r i, X.t i j, X.w i j u, x) ∈ s.challenges := by
  simp only [MultiStrat.extract, Option.map_eq_some_iff] at h
  obtain ⟨f, h1, rfl⟩ := h
  obtain ⟨f1, _, f3⟩ := level_some h1
  choose a₁ i₁ g1 g2 using f3
  have h2 := fun i => level_some (g2 i)
  choose a₂ i₂ g3 g4 using fun i => (h2 i).2.2
  have h3 := fun i j => level_some (g4 i j)
  choose a₃ i₃ g5 g6 using fun i j => (h3 i j).2.2
  have h4 := fun i j u => Strat.extract_spec _ _ _ (g6 i j u)
  refine ⟨⟨f1, fun i => (h2 i).1, fun i j p hp e => (h2 i).2.1 j ?_, fun i j => ⟨fun e => ?_, fun u => ?_, fun u => (h4 i j u).1⟩⟩,
    fun i j u p hp => ?_⟩
  · exact List.mem_map.2 ⟨p, List.mem_range.2 hp, e.symm⟩
  · exact absurd ((h3 i j).1 e) (by decide)
  · simpa using (h3 i j).2.1 u
  · obtain ⟨x, hx, rfl, hP⟩ := (h4 i j u).2 p hp
    refine ⟨x, rfl, rfl, hP, ?_⟩
    simp only [MultiSample.challenges, List.mem_flatMap, List.mem_map, List.mem_finRange, true_and]
    exact ⟨_, _, _, _, _, _, x, hx, by rw [g1, g3, g5]⟩

/-! ### It only runs the prover on the drawn challenges -/

theorem level_congr {k m : ℕ} {Y τ : Type} (A : List F) {ext ext' : F → Y → Option τ} {s : Level F k m Y}
    (h : ∀ a i, ext (s a i).1 (s a i).2 = ext' (s a i).1 (s a i).2) : level A ext s = level A ext' s := by
  simp only [level, results, h]

theorem IpaSample.exists_challenge {k m : ℕ} (i : Fin m) (s : IpaSample F m k) : ∃ x, x ∈ s.challenges := by
  apply List.exists_mem_of_length_pos
  rw [IpaSample.challenges_length]
  have := i.pos
  positivity

/-- Provers with the same answers on the drawn challenges lead to the same result. -/
theorem Strat.extract_congr {m : ℕ} : ∀ {k : ℕ} (S S' : Strat F G k) (P P' : (Fin k → F) → Bool) (s : IpaSample F m k),
    (∀ x ∈ s.challenges, S.run x = S'.run x ∧ P x = P' x) → S.extract P s = S'.extract P' s
  | _, .last a, .last a', P, P', s, h => by
    obtain ⟨h1, h2⟩ := h Fin.elim0 (by simp [IpaSample.challenges])
    simp only [Strat.run, IpaProof.mk.injEq, true_and] at h1
    simp only [Strat.extract, h1, h2]
  | _, .round L R next, .round L' R' next', P, P', s, h => by
    have hm : ∀ (a : Fin 4) (i : Fin m), ∀ x ∈ IpaSample.challenges (s a i).2,
        (L = L' ∧ R = R') ∧ (next (s a i).1).run x = (next' (s a i).1).run x ∧
          P (Fin.cons (s a i).1 x) = P' (Fin.cons (s a i).1 x) := by
      intro a i x hx
      obtain ⟨h1, h2⟩ := h (Fin.cons (s a i).1 x) (by
        simp only [IpaSample.challenges, List.mem_flatMap, List.mem_map, List.mem_finRange, true_and]
        exact ⟨a, i, x, hx, rfl⟩)
      simp only [Strat.run, Fin.cons_zero, Fin.cons_succ, IpaProof.mk.injEq, List.cons.injEq] at h1
      obtain ⟨⟨e1, e2⟩, ⟨e3, e4⟩, e5⟩ := h1
      refine ⟨⟨e1, e3⟩, ?_, h2⟩
      cases hp : (next (s a i).1).run x
      cases hp' : (next' (s a i).1).run x
      rw [hp, hp'] at e2 e4 e5
      simp only at e2 e4 e5
      rw [e2, e4, e5]
    have h1 := level_congr (s := (s : Level F 4 m (IpaSample F m _))) [0]
      (ext := fun c y => (next c).extract (fun x => P (Fin.cons c x)) y)
      (ext' := fun c y => (next' c).extract (fun x => P' (Fin.cons c x)) y)
      fun a i => Strat.extract_congr _ _ _ _ _ fun x hx => (hm a i x hx).2
    simp only [Strat.extract]
    rw [← h1]
    cases h2 : level [0] (fun c y => (next c).extract (fun x => P (Fin.cons c x)) y) (s : Level F 4 m (IpaSample F m _)) with
    | none => rfl
    | some f =>
      obtain ⟨a, i, _⟩ := (level_some h2).2.2 0
      obtain ⟨x, hx⟩ := IpaSample.exists_challenge i (s a i).2
      obtain ⟨⟨rfl, rfl⟩, _⟩ := hm a i x hx
      rfl

theorem openExtract_congr {k m : ℕ} (S S' : F → Strat F G k) (P P' : F × (Fin k → F) → Bool) (s : Level F 2 m (IpaSample F m k))
    (h : ∀ c ∈ openChallenges s, (S c.1).run c.2 = (S' c.1).run c.2 ∧ P c = P' c) : openExtract S P s = openExtract S' P' s :=
  level_congr _ fun a i => Strat.extract_congr _ _ _ _ _ fun x hx => h ((s a i).1, x) (by
    simp only [openChallenges, List.mem_flatMap, List.mem_map, List.mem_finRange, true_and]
    exact ⟨a, i, x, hx, rfl⟩)

/-- Likewise for the multipoint argument: the result is determined by the prover's answers on the drawn challenges and by
which of them are accepted. -/
theorem MultiStrat.extract_congr {q n' n k m : ℕ} (S S' : MultiStrat F G k) (P P' : F × F × F × (Fin k → F) → Bool)
    (s : MultiSample F q (n' + 1) k m) (h : ∀ c ∈ s.challenges, S.run c = S'.run c ∧ P c = P' c) :
    S.extract n P s = S'.extract n P' s := by
  have hm : ∀ a i a' i' a'' i'', ∀ x ∈ IpaSample.challenges (((s a i).2 a' i').2 a'' i'').2, ∀ c,
      c = ((s a i).1, ((s a i).2 a' i').1, (((s a i).2 a' i').2 a'' i'').1, x) →
      ((S.ipa c.1 c.2.1 c.2.2.1).run x = (S'.ipa c.1 c.2.1 c.2.2.1).run x ∧ S.D c.1 = S'.D c.1) ∧ P c = P' c := by
    rintro a i a' i' a'' i'' x hx c rfl
    obtain ⟨h1, h2⟩ := h ((s a i).1, ((s a i).2 a' i').1, (((s a i).2 a' i').2 a'' i'').1, x) (by
      simp only [MultiSample.challenges, List.mem_flatMap, List.mem_map, List.mem_finRange, true_and]
      exact ⟨a, i, a', i', a'', i'', x, hx, rfl⟩)
    simp only [MultiStrat.run, MultiProof.mk.injEq] at h1
    exact ⟨h1, h2⟩
  have h1 := level_congr (s := s) []
    (ext := fun r y => level ((List.range n).map fun p : ℕ => (p : F)) (fun t y => level [0] (fun w y =>
      (S.ipa r t w).extract (fun x => P (r, t, w, x)) y) y) y)
    (ext' := fun r y => level ((List.range n).map fun p : ℕ => (p : F)) (fun t y => level [0] (fun w y =>
      (S'.ipa r t w).extract (fun x => P' (r, t, w, x)) y) y) y)
    fun a i => level_congr _ fun a' i' => level_congr _ fun a'' i'' => Strat.extract_congr _ _ _ _ _ fun x hx =>
      ⟨(hm a i a' i' a'' i'' x hx _ rfl).1.1, (hm a i a' i' a'' i'' x hx _ rfl).2⟩
  simp only [MultiStrat.extract]
  rw [← h1]
  cases h2 : level [] (fun r y => level ((List.range n).map fun p : ℕ => (p : F)) (fun t y => level [0] (fun w y =>
      (S.ipa r t w).extract (fun x => P (r, t, w, x)) y) y) y) s with
  | none => rfl
  | some f =>
    have hD : ∀ i, S.D (f i).1 = S'.D (f i).1 := by
      intro j
      obtain ⟨a, i, e, _⟩ := (level_some h2).2.2 j
      obtain ⟨x, hx⟩ := IpaSample.exists_challenge i (((s a i).2 0 i).2 0 i).2
      have := (hm a i 0 i 0 i x hx _ rfl).1.2
      rwa [e] at this
    simp only [Option.map_some, hD]

/-! ### It succeeds for half of the draws -/

variable [Fintype F]

instance IpaSample.fintype (m : ℕ) : ∀ k, Fintype (IpaSample F m k)
  | 0 => inferInstanceAs (Fintype Unit)
  | k + 1 =>
    haveI := IpaSample.fintype m k
    inferInstanceAs (Fintype (Level F 4 m (IpaSample F m k)))

instance IpaSample.nonempty (m : ℕ) : ∀ k, Nonempty (IpaSample F m k)
  | 0 => inferInstanceAs (Nonempty Unit)
  | k + 1 =>
    haveI := IpaSample.nonempty m k
    inferInstanceAs (Nonempty (Level F 4 m (IpaSample F m k)))

instance MultiSample.fintype (q n k m : ℕ) : Fintype (MultiSample F q n k m) :=
  haveI : Fintype (Level F 2 m (IpaSample F m k)) := inferInstance
  haveI : Fintype (Level F n m (Level F 2 m (IpaSample F m k))) := inferInstance
  inferInstance

instance MultiSample.nonempty (q n k m : ℕ) : Nonempty (MultiSample F q n k m) :=
  haveI : Nonempty (Level F 2 m (IpaSample F m k)) := inferInstance
  haveI : Nonempty (Level F n m (Level F 2 m (IpaSample F m k))) := inferInstance
  inferInstance

theorem Strat.extract_half {g e : ℕ} (hg : g ≠ 0) (he : 8 ≤ 2 ^ e) : ∀ {k : ℕ} (S : Strat F G k) (P : (Fin k → F) → Bool),
    (k : ℝ) * (1 / g + 4 / Fintype.card F) < part (fun x => P x = true) →
    1 / 2 ≤ part (fun s : IpaSample F (2 * g * e) k => (S.extract P s).isSome = true)
  | _, .last a, P, h => by
    obtain ⟨x, hx⟩ := part_pos (lt_of_le_of_lt (by simp) h)
    have hx : P Fin.elim0 = true := by rw [← hx]; congr 1; funext i; exact i.elim0
    have h1 : ∀ s : IpaSample F (2 * g * e) 0, ((Strat.last a : Strat F G 0).extract P s).isSome = true := fun s => by
      simp [Strat.extract, hx]
    have h2 : part (fun s : IpaSample F (2 * g * e) 0 => ¬ ((Strat.last a : Strat F G 0).extract P s).isSome = true) ≤
        part (fun _ : IpaSample F (2 * g * e) 0 => False) := part_mono fun s hs => hs (h1 s)
    rw [part_not] at h2
    have h3 : part (fun _ : IpaSample F (2 * g * e) 0 => False) = 0 := by unfold part; simp
    linarith
  | k + 1, .round L R next, P, h => by
    rw [← part_congr (Fin.consEquiv (fun _ : Fin (k + 1) => F))] at h
    have h1 := level_half (Y := IpaSample F (2 * g * e) k) (k := 4) (b := 4) (A := [0]) (e := e) (g := g)
      (fun (c : F) (x : Fin k → F) => P (Fin.cons c x) = true)
      (fun c y => (next c).extract (fun x => P (Fin.cons c x)) y) hg (by simp) (by simpa using he)
      (ε := (k : ℝ) * (1 / g + 4 / Fintype.card F)) (by positivity) (by
        refine lt_of_eq_of_lt ?_ h
        push_cast
        ring) (fun c hc => (next c).extract_half hg he (fun x => P (Fin.cons c x)) hc)
    refine h1.trans (part_mono fun s hs => ?_)
    simp only [Strat.extract, Option.isSome_map]
    exact hs

theorem openExtract_half {k g e : ℕ} (hg : g ≠ 0) (he : 8 ≤ 2 ^ e) (S : F → Strat F G k) (P : F × (Fin k → F) → Bool)
    (h : ((4 * k + 2 : ℕ) : ℝ) / Fintype.card F + ((k + 1 : ℕ) : ℝ) / g < part (fun c => P c = true)) :
    1 / 2 ≤ part (fun s : Level F 2 (2 * g * e) (IpaSample F (2 * g * e) k) => (openExtract S P s).isSome = true) := by
  push_cast at h
  exact level_half (Y := IpaSample F (2 * g * e) k) (k := 2) (b := 2) (A := [0]) (e := e) (g := g)
    (fun (w : F) (x : Fin k → F) => P (w, x) = true) (fun w y => (S w).extract (fun x => P (w, x)) y) hg (by simp) (by omega)
    (ε := (k : ℝ) * (1 / g + 4 / Fintype.card F)) (by positivity) (lt_of_eq_of_lt (by push_cast; ring) h)
    fun w hw => (S w).extract_half hg he (fun x => P (w, x)) hw

/-- If the prover of the multipoint argument convinces on more than the part `(2 n + 2 q + 4 k) / |F| + (k + 3) / g` of the
challenges, the extractor that draws `2 g e` challenges at a time succeeds for at least half of the draws. -/
theorem MultiStrat.extract_half {q n n' k g e : ℕ} (hq : q ≠ 0) (hn : n' + 1 = n + q) (hg : g ≠ 0) (he : 2 * (n + q) ≤ 2 ^ e)
    (he' : 8 ≤ 2 ^ e) (S : MultiStrat F G k) (P : F × F × F × (Fin k → F) → Bool)
    (h : ((2 * n + 2 * q + 4 * k : ℕ) : ℝ) / Fintype.card F + ((k + 3 : ℕ) : ℝ) / g < part (fun c => P c = true)) :
    1 / 2 ≤ part (fun s : MultiSample F q (n' + 1) k (2 * g * e) => (S.extract n P s).isSome = true) := by
  have hb : ((2 * n + 2 * q + 4 * k : ℕ) : ℝ) = ((q - 1 : ℕ) : ℝ) + (n + n' : ℕ) + 2 + 4 * k := by
    have : 2 * n + 2 * q + 4 * k = (q - 1) + (n + n') + 2 + 4 * k := by omega
    rw [this]
    push_cast
    ring
  rw [hb] at h
  push_cast at h
  set N : ℝ := (Fintype.card F : ℝ)
  have h1 := level_half (Y := Level F (n' + 1) (2 * g * e) (Level F 2 (2 * g * e) (IpaSample F (2 * g * e) k))) (k := q) (b := q - 1)
    (A := []) (e := e) (g := g) (fun (r : F) (c : F × F × (Fin k → F)) => P (r, c) = true)
    (fun r y => level ((List.range n).map fun p : ℕ => (p : F)) (fun t y => level [0] (fun w y =>
      (S.ipa r t w).extract (fun x => P (r, t, w, x)) y) y) y) hg (by simp; omega) (by omega)
    (ε := (k : ℝ) * (1 / g + 4 / N) + (1 / g + 2 / N) + (1 / g + (n + n' : ℕ) / N)) (by positivity) (by
      refine lt_of_eq_of_lt ?_ h
      push_cast
      ring) (fun r hr => by
        refine level_half (Y := Level F 2 (2 * g * e) (IpaSample F (2 * g * e) k)) (k := n' + 1) (b := n + n')
          (A := (List.range n).map fun p : ℕ => (p : F)) (e := e) (g := g) (fun (t : F) (c : F × (Fin k → F)) => P (r, t, c) = true)
          (fun t y => level [0] (fun w y => (S.ipa r t w).extract (fun x => P (r, t, w, x)) y) y) hg (by simp; omega) (by omega)
          (ε := (k : ℝ) * (1 / g + 4 / N) + (1 / g + 2 / N)) (by positivity) hr fun t ht => ?_
        exact level_half (Y := IpaSample F (2 * g * e) k) (k := 2) (b := 2) (A := [0]) (e := e) (g := g)
          (fun (w : F) (x : Fin k → F) => P (r, t, w, x) = true)
          (fun w y => (S.ipa r t w).extract (fun x => P (r, t, w, x)) y) hg (by simp) (by omega)
          (ε := (k : ℝ) * (1 / g + 4 / N)) (by positivity) ht
          fun w hw => (S.ipa r t w).extract_half hg he' (fun x => P (r, t, w, x)) hw)
  refine h1.trans (part_mono fun s hs => ?_)
  simp only [MultiStrat.extract, Option.isSome_map]
  exact hs

/-- A part of at least one half, as a count. -/
theorem half_card {α : Type} [Fintype α] [Nonempty α] {p : α → Prop} [DecidablePred p] (h : 1 / 2 ≤ part p) :
    Fintype.card α ≤ 2 * Fintype.card {a // p a} := by
  have hc : (0 : ℝ) < Fintype.card α := by exact_mod_cast Fintype.card_pos
  rw [part_eq, le_div_iff₀ hc] at h
  have : (Fintype.card α : ℝ) ≤ 2 * Fintype.card {a // p a} := by linarith
  exact_mod_cast this

end
end Verif.Ipa
