import Verif.Ipa.RewindMulti
import Mathlib.Data.Fintype.BigOperators
import Mathlib.Logic.Equiv.Fin.Basic

/-!
# Provers and the challenges on which they convince

A prover of the inner product argument or of the multipoint argument, as a function from the challenges received so far to the
next message.  If more than a small part of all challenges convince the verifier, there is a family of accepted runs of this
prover that is fit for extraction (`Verif.Ipa.Rewind`, `Verif.Ipa.RewindMulti`): a challenge is *heavy* when its continuations
still convince more than a small part, and there are more heavy challenges than the bound for that round.
-/

set_option autoImplicit false
set_option linter.unusedSectionVars false

namespace Verif.Ipa
open Proof

/-- A prover of the inner product argument with `k` rounds: `L` and `R` are sent, a challenge is received. -/
inductive Strat (F G : Type) : ℕ → Type where
  | last (a : F) : Strat F G 0
  | round {k : ℕ} (L R : G) (next : F → Strat F G k) : Strat F G (k + 1)

/-- A prover of the multipoint argument: `D` depends on `r`; the inner product argument depends on `r`, `t` and `w`. -/
structure MultiStrat (F G : Type) (k : ℕ) where
  D : F → G
  ipa : F → F → F → Strat F G k

section
variable {F G : Type}

/-- The proof made by a prover that receives the challenges `xs`. -/
def Strat.run : {k : ℕ} → Strat F G k → (Fin k → F) → IpaProof F G
  | _, .last a, _ => ⟨[], [], a⟩
  | _, .round L R next, x =>
    let p := (next (x 0)).run (fun i => x i.succ)
    ⟨L :: p.L, R :: p.R, p.a⟩

/-- The proof made by a prover of the multipoint argument that receives the challenges `r`, `t`, `w` and `xs`. -/
def MultiStrat.run {k : ℕ} (S : MultiStrat F G k) (c : F × F × F × (Fin k → F)) : MultiProof F G :=
  ⟨(S.ipa c.1 c.2.1 c.2.2.1).run c.2.2.2, S.D c.1⟩

open scoped Classical in
/-- If a relation has more than `k |Y| + |X| e` pairs, more than `k` of the `x` have more than `e` partners. -/
theorem heavy {X Y : Type} [Fintype X] [Fintype Y] (A : X → Y → Prop) (k e : ℕ)
    (h : k * Fintype.card Y + Fintype.card X * e < Fintype.card {p : X × Y // A p.1 p.2}) :
    k < (Finset.univ.filter fun x => e < Fintype.card {y // A x y}).card := by
  by_contra hk
  have hk := not_lt.mp hk
  have h1 : Fintype.card {p : X × Y // A p.1 p.2} = ∑ x : X, Fintype.card {y // A x y} := by
    rw [← Fintype.card_sigma]
    exact Fintype.card_congr ⟨fun p => ⟨p.1.1, p.1.2, p.2⟩, fun q => ⟨(q.1, q.2.1), q.2.2⟩, fun _ => rfl, fun _ => rfl⟩
  rw [h1, ← Finset.sum_filter_add_sum_filter_not Finset.univ (fun x => e < Fintype.card {y // A x y})] at h
  have h2 : ∑ x ∈ Finset.univ.filter (fun x => e < Fintype.card {y // A x y}), Fintype.card {y // A x y} ≤
      (Finset.univ.filter fun x => e < Fintype.card {y // A x y}).card * Fintype.card Y := by
    rw [← smul_eq_mul]
    exact Finset.sum_le_card_nsmul _ _ _ fun x _ => Fintype.card_subtype_le _
  have h3 : ∑ x ∈ Finset.univ.filter (fun x => ¬ e < Fintype.card {y // A x y}), Fintype.card {y // A x y} ≤
      Fintype.card X * e := by
    refine (Finset.sum_le_card_nsmul _ _ e fun x hx => not_lt.mp (Finset.mem_filter.mp hx).2).trans ?_
    rw [smul_eq_mul]
    exact Nat.mul_le_mul_right _ (Finset.card_le_univ _)
  have h4 := Nat.mul_le_mul_right (Fintype.card Y) hk
  omega

open scoped Classical in
/-- Of more than `k + |B|` elements, `k + 1` can be enumerated outside `B`. -/
theorem pick {X : Type} {s : Finset X} (B : Finset X) {k : ℕ} (h : k + B.card < s.card) :
    ∃ f : Fin (k + 1) → X, Function.Injective f ∧ ∀ i, f i ∈ s ∧ f i ∉ B := by
  have h1 : k + 1 ≤ (s \ B).card := by
    have := Finset.le_card_sdiff B s
    omega
  obtain ⟨u, hu, hc⟩ := Finset.exists_subset_card_eq h1
  refine ⟨fun i => (u.equivFin.symm (i.cast hc.symm)).1, fun i j hij => ?_, fun i => ?_⟩
  · have := u.equivFin.symm.injective (Subtype.ext hij)
    exact Fin.ext (by simpa using congrArg Fin.val this)
  · have := hu (u.equivFin.symm (i.cast hc.symm)).2
    exact Finset.mem_sdiff.mp this

/-- The number of challenges above which `k` rounds can be extracted. -/
def bound (N : ℕ) : ℕ → ℕ
  | 0 => 0
  | k + 1 => 4 * N ^ k + N * bound N k

theorem bound_eq (N k : ℕ) : N * bound N k = 4 * k * N ^ k := by
  induction k with
  | zero => simp [bound]
  | succ k ih => rw [bound, ih, pow_succ]; ring

section
variable [Field F] [Fintype F]

open scoped Classical in
/-- A prover that convinces on more challenges than the bound has a tree of convincing runs. -/
theorem Strat.tree : ∀ {k : ℕ} (S : Strat F G k) (P : (Fin k → F) → IpaProof F G → Prop),
    bound (Fintype.card F) k < Fintype.card {x : Fin k → F // P x (S.run x)} →
    ∃ T : Tree F G k, T.Distinct ∧ ∀ p ∈ T.leaves, ∃ x : Fin k → F, p = (List.ofFn x, S.run x) ∧ P x (S.run x)
  | _, .last a, P, h => by
    obtain ⟨x, hx⟩ := Fintype.card_pos_iff.mp (lt_of_le_of_lt (Nat.zero_le _) h)
    refine ⟨.leaf a, trivial, fun p hp => ⟨x, ?_, hx⟩⟩
    simpa [Tree.leaves, Strat.run] using hp
  | k + 1, .round L R next, P, h => by
    have hc : Fintype.card {x : Fin (k + 1) → F // P x ((Strat.round L R next).run x)} =
        Fintype.card {p : F × (Fin k → F) // P (Fin.cons p.1 p.2) ((Strat.round L R next).run (Fin.cons p.1 p.2))} :=
      Fintype.card_congr ((Fin.consEquiv (fun _ : Fin (k + 1) => F)).symm.subtypeEquiv fun x => by
        rw [show (Fin.consEquiv (fun _ : Fin (k + 1) => F)).symm x = (x 0, Fin.tail x) from rfl, Fin.cons_self_tail])
    rw [hc] at h
    have h1 := heavy (fun (a : F) (y : Fin k → F) => P (Fin.cons a y) ((Strat.round L R next).run (Fin.cons a y))) 4
      (bound (Fintype.card F) k) (by simpa [bound] using h)
    obtain ⟨f, hf, hf'⟩ := pick ({0} : Finset F) (k := 3) (lt_of_eq_of_lt (by simp) h1)
    have h2 : ∀ j, ∃ T : Tree F G k, T.Distinct ∧ ∀ p ∈ T.leaves, ∃ x : Fin k → F, p = (List.ofFn x, (next (f j)).run x) ∧
        P (Fin.cons (f j) x) ((Strat.round L R next).run (Fin.cons (f j) x)) := by
      intro j
      apply (next (f j)).tree fun x _ => P (Fin.cons (f j) x) ((Strat.round L R next).run (Fin.cons (f j) x))
      exact (Finset.mem_filter.mp (hf' j).1).2
    choose T hT hT' using h2
    refine ⟨.node L R f T, ⟨hf, fun j => by simpa using (hf' j).2, hT⟩, fun p hp => ?_⟩
    simp only [Tree.leaves, List.mem_flatMap, List.mem_map] at hp
    obtain ⟨j, _, p, hp, rfl⟩ := hp
    obtain ⟨x, rfl, hx⟩ := hT' j p hp
    refine ⟨Fin.cons (f j) x, ?_, hx⟩
    simp [Strat.run, List.ofFn_succ]

open scoped Classical in
/-- The same with the challenge `w`. -/
theorem Strat.open_tree {k : ℕ} (S : F → Strat F G k) (P : F → (Fin k → F) → Prop)
    (h : 2 * Fintype.card F ^ k + Fintype.card F * bound (Fintype.card F) k < Fintype.card {c : F × (Fin k → F) // P c.1 c.2}) :
    ∃ (w : Fin 2 → F) (T : Fin 2 → Tree F G k), OpenDistinct w T ∧
      ∀ u, ∀ p ∈ (T u).leaves, ∃ x : Fin k → F, p = (List.ofFn x, (S (w u)).run x) ∧ P (w u) x := by
  have h1 := heavy P 2 (bound (Fintype.card F) k) (by simpa using h)
  obtain ⟨w, hw, hw'⟩ := pick ({0} : Finset F) (k := 1) (lt_of_eq_of_lt (by simp) h1)
  have h2 := fun u => (S (w u)).tree (fun x _ => P (w u) x) (Finset.mem_filter.mp (hw' u).1).2
  choose T hT hT' using h2
  exact ⟨w, T, ⟨fun e => absurd (hw e) (by decide), fun u => by simpa using (hw' u).2, hT⟩, hT'⟩

open scoped Classical in
/-- A prover of the multipoint argument for `q` queries that convinces on more than `(2 n + 2 q + 4 k) |F| ^ (k + 2)` of the
`|F| ^ (k + 3)` challenges has a family of convincing runs that is fit for extraction. -/
theorem MultiStrat.family {k n q m : ℕ} (hq : q ≠ 0) (hm : m + 1 = n + q) (S : MultiStrat F G k)
    (P : F × F × F × (Fin k → F) → Prop)
    (h : (2 * n + 2 * q + 4 * k) * Fintype.card F ^ (k + 2) < Fintype.card {c : F × F × F × (Fin k → F) // P c}) :
    ∃ X : MultiTree F G q m k, X.Distinct n ∧ ∀ i j u, ∀ p ∈ (X.ipa i j u).leaves, ∃ x : Fin k → F,
      p.1 = List.ofFn x ∧ S.run (X.r i, X.t i j, X.w i j u, x) = ⟨p.2, X.D i⟩ ∧ P (X.r i, X.t i j, X.w i j u, x) := by
  set N := Fintype.card F
  set ew := 2 * N ^ k + N * bound N k with hew
  set et := (m + n) * N ^ (k + 1) + N * ew with het
  have e1 : N * ew = (2 + 4 * k) * N ^ (k + 1) := by
    rw [hew, mul_add, bound_eq, pow_succ]; ring
  have e2 : N * et = (m + n + 2 + 4 * k) * N ^ (k + 2) := by
    rw [het, e1, pow_succ _ (k + 1)]; ring
  have e3 : (q - 1) * N ^ (k + 2) + N * et = (2 * n + 2 * q + 4 * k) * N ^ (k + 2) := by
    rw [e2, ← add_mul]
    congr 1
    omega
  have c3 : Fintype.card (F × F × (Fin k → F)) = N ^ (k + 2) := by
    simp only [Fintype.card_prod, Fintype.card_fun, Fintype.card_fin, pow_succ]
    ring
  have c2 : Fintype.card (F × (Fin k → F)) = N ^ (k + 1) := by
    simp only [Fintype.card_prod, Fintype.card_fun, Fintype.card_fin, pow_succ]
    ring
  have h1 := heavy (fun (r : F) (c : F × F × (Fin k → F)) => P (r, c)) (q - 1) et (by rw [c3, e3]; exact h)
  obtain ⟨r, hr, hr'⟩ := pick (∅ : Finset F) (k := q - 1) (lt_of_eq_of_lt (by simp) h1)
  have hq1 : q - 1 + 1 = q := by omega
  have h2 : ∀ i : Fin (q - 1 + 1), ∃ t : Fin (m + 1) → F, Function.Injective t ∧ (∀ j p, p < n → t j ≠ (p : F)) ∧
      ∀ j, ew < Fintype.card {c : F × (Fin k → F) // P (r i, t j, c)} := by
    intro i
    have h3 := heavy (fun (t : F) (c : F × (Fin k → F)) => P (r i, t, c)) (m + n) ew
      (by rw [c2]; exact (Finset.mem_filter.mp (hr' i).1).2)
    obtain ⟨t, ht, ht'⟩ := pick ((Finset.range n).image fun p : ℕ => (p : F)) (k := m)
      (lt_of_le_of_lt (Nat.add_le_add_left (Finset.card_image_le.trans (by simp)) m) h3)
    refine ⟨t, ht, fun j p hp e => (ht' j).2 ?_, fun j => (Finset.mem_filter.mp (ht' j).1).2⟩
    exact Finset.mem_image.mpr ⟨p, by simpa using hp, e.symm⟩
  choose t ht hout ht' using h2
  have h4 : ∀ (i : Fin (q - 1 + 1)) (j : Fin (m + 1)), ∃ (w : Fin 2 → F) (T : Fin 2 → Tree F G k), OpenDistinct w T ∧
      ∀ u, ∀ p ∈ (T u).leaves, ∃ x : Fin k → F, p = (List.ofFn x, (S.ipa (r i) (t i j) (w u)).run x) ∧
        P (r i, t i j, w u, x) :=
    fun i j => Strat.open_tree (S.ipa (r i) (t i j)) (fun w x => P (r i, t i j, w, x)) (ht' i j)
  choose w T hT hT' using h4
  have hc : ∀ i : Fin q, i.1 < q - 1 + 1 := fun i => by omega
  refine ⟨⟨fun i => r ⟨i, hc i⟩, fun i => S.D (r ⟨i, hc i⟩), fun i => t ⟨i, hc i⟩, fun i => w ⟨i, hc i⟩, fun i => T ⟨i, hc i⟩⟩,
    ⟨fun i i' e => ?_, fun i => ht _, fun i => hout _, fun i j => hT _ _⟩, fun i j u p hp => ?_⟩
  · have := hr e
    exact Fin.ext (by simpa using this)
  · obtain ⟨x, rfl, hx⟩ := hT' _ _ u p hp
    exact ⟨x, rfl, rfl, hx⟩

end
end
end Verif.Ipa
