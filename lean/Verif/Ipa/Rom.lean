import Verif.Ipa.Count
import Mathlib.Data.Finset.Card
import Mathlib.Data.List.Infix

/-!
# Programs that ask a random hash

A program asks a hash `H` for the values at finitely many points.  The hash is chosen at random on a finite set `D` of points
and is fixed elsewhere.  `hits` bounds the number of hashes for which the program meets a bad answer at a point it has not asked
before; `fork` derives from it that a program that wins for more than a small part of all hashes wins for a family of hashes
that fork at each of `μ` linked questions.
-/

set_option autoImplicit false
set_option linter.unusedSectionVars false

namespace Verif.Ipa
open scoped Classical

/-- A program that asks a hash with values in `F`. -/
inductive Prog (Q F α : Type) where
  | ret (a : α) : Prog Q F α
  | ask (s : Q) (next : F → Prog Q F α) : Prog Q F α

section
variable {Q F α β : Type}

/-- The result for the hash `H`. -/
def Prog.run (H : Q → F) : Prog Q F α → α
  | .ret a => a
  | .ask s next => (next (H s)).run H

/-- The points asked for the hash `H`. -/
def Prog.asked (H : Q → F) : Prog Q F α → List Q
  | .ret _ => []
  | .ask s next => s :: (next (H s)).asked H

/-- At most `n` questions are asked. -/
def Prog.Within : Prog Q F α → ℕ → Prop
  | .ret _, _ => True
  | .ask _ _, 0 => False
  | .ask _ next, n + 1 => ∀ x, (next x).Within n

/-- One program after the other. -/
def Prog.bind : Prog Q F α → (α → Prog Q F β) → Prog Q F β
  | .ret a, f => f a
  | .ask s next, f => .ask s fun x => (next x).bind f

theorem Prog.run_bind (H : Q → F) (f : α → Prog Q F β) : ∀ P : Prog Q F α, (P.bind f).run H = (f (P.run H)).run H
  | .ret _ => rfl
  | .ask s next => run_bind H f (next (H s))

theorem Prog.asked_bind (H : Q → F) (f : α → Prog Q F β) :
    ∀ P : Prog Q F α, (P.bind f).asked H = P.asked H ++ (f (P.run H)).asked H
  | .ret _ => rfl
  | .ask s next => by
    rw [Prog.bind, Prog.asked, Prog.asked, Prog.run, asked_bind H f (next (H s)), List.cons_append]

theorem Prog.Within.mono : ∀ {P : Prog Q F α} {m n : ℕ}, P.Within m → m ≤ n → P.Within n
  | .ret _, _, _, _, _ => trivial
  | .ask _ _, 0, _, h, _ => h.elim
  | .ask _ _, _ + 1, 0, _, h => absurd h (by omega)
  | .ask _ _, _ + 1, _ + 1, h, hle => fun x => (h x).mono (by omega)

theorem Prog.Within.bind {f : α → Prog Q F β} {n : ℕ} (hf : ∀ a, (f a).Within n) :
    ∀ {P : Prog Q F α} {m : ℕ}, P.Within m → (P.bind f).Within (m + n)
  | .ret a, m, _ => (hf a).mono (by omega)
  | .ask _ _, 0, h => h.elim
  | .ask _ next, m + 1, h => by
    rw [Nat.add_right_comm]
    exact fun x => Prog.Within.bind hf (h x)

theorem Prog.asked_length (H : Q → F) : ∀ {P : Prog Q F α} {n : ℕ}, P.Within n → (P.asked H).length ≤ n
  | .ret _, _, _ => Nat.zero_le _
  | .ask _ _, 0, h => h.elim
  | .ask s _, n + 1, h => Nat.succ_le_succ (asked_length H (h (H s)))

/-- A program that turns the values of the hash into challenges. -/
def Prog.lift {E : Type} (red : E → F) : Prog Q F α → Prog Q E α
  | .ret a => .ret a
  | .ask s next => .ask s fun e => (next (red e)).lift red

theorem Prog.lift_run {E : Type} (red : E → F) (H : Q → E) : ∀ P : Prog Q F α, (P.lift red).run H = P.run fun s => red (H s)
  | .ret _ => rfl
  | .ask s next => lift_run red H (next (red (H s)))

theorem Prog.lift_asked {E : Type} (red : E → F) (H : Q → E) : ∀ P : Prog Q F α, (P.lift red).asked H = P.asked fun s => red (H s)
  | .ret _ => rfl
  | .ask s next => congrArg (s :: ·) (lift_asked red H (next (red (H s))))

theorem Prog.Within.lift {E : Type} (red : E → F) : ∀ {P : Prog Q F α} {n : ℕ}, P.Within n → (P.lift red).Within n
  | .ret _, _, _ => trivial
  | .ask _ _, 0, h => h.elim
  | .ask _ _, _ + 1, h => fun e => (h (red e)).lift red

/-- The hash that is `H` on `D` and `H₀` elsewhere. -/
noncomputable def over {D : Finset Q} (H₀ : Q → F) (H : D → F) (s : Q) : F := if h : s ∈ D then H ⟨s, h⟩ else H₀ s

/-- The new questions in `D` and their answers, latest first. -/
noncomputable def Prog.trace (D : Finset Q) (H : Q → F) : Prog Q F α → List (Q × F) → List (Q × F)
  | .ret _, σ => σ
  | .ask s next, σ => (next (H s)).trace D H (if s ∈ D ∧ s ∉ σ.map Prod.fst then (s, H s) :: σ else σ)

/-- Some answer was bad when it was given. -/
def Hit (Bad : List (Q × F) → Q → Finset F) (σ : List (Q × F)) : Prop :=
  ∃ σ₂ s x σ₁, σ = σ₂ ++ (s, x) :: σ₁ ∧ x ∈ Bad σ₁ s

theorem Hit.cons {Bad : List (Q × F) → Q → Finset F} {s : Q} {x : F} {σ : List (Q × F)} (h : Hit Bad ((s, x) :: σ)) :
    x ∈ Bad σ s ∨ Hit Bad σ := by
  obtain ⟨σ₂, s', x', σ₁, e, hb⟩ := h
  cases σ₂ with
  | nil =>
    simp only [List.nil_append, List.cons.injEq, Prod.mk.injEq] at e
    obtain ⟨⟨rfl, rfl⟩, rfl⟩ := e
    exact Or.inl hb
  | cons a σ₂ =>
    simp only [List.cons_append, List.cons.injEq] at e
    exact Or.inr ⟨σ₂, s', x', σ₁, e.2, hb⟩

theorem Prog.trace_suffix (D : Finset Q) (H : Q → F) : ∀ (P : Prog Q F α) (σ : List (Q × F)), σ <:+ P.trace D H σ
  | .ret _, σ => List.suffix_rfl
  | .ask s next, σ => by
    refine List.IsSuffix.trans ?_ (trace_suffix D H (next (H s)) _)
    split
    · exact List.suffix_cons _ _
    · exact List.suffix_rfl

theorem Prog.trace_mem (D : Finset Q) (H : Q → F) : ∀ (P : Prog Q F α) (σ : List (Q × F)), (∀ p ∈ σ, p.2 = H p.1) →
    (∀ p ∈ P.trace D H σ, p.2 = H p.1) ∧ ∀ s ∈ P.asked H, s ∈ D → (s, H s) ∈ P.trace D H σ
  | .ret _, σ, h => ⟨h, fun s hs => by simp [Prog.asked] at hs⟩
  | .ask s next, σ, h => by
    have h' : ∀ p ∈ (if s ∈ D ∧ s ∉ σ.map Prod.fst then (s, H s) :: σ else σ), p.2 = H p.1 := by
      split
      · intro p hp
        rcases List.mem_cons.mp hp with rfl | hp
        · rfl
        · exact h p hp
      · exact h
    obtain ⟨h1, h2⟩ := trace_mem D H (next (H s)) _ h'
    refine ⟨h1, fun u hu hD => ?_⟩
    rcases List.mem_cons.mp hu with rfl | hu
    · apply (trace_suffix D H (next (H u)) _).subset
      split
      · simp
      · rename_i hn
        have : u ∈ σ.map Prod.fst := by
          by_contra hc
          exact hn ⟨hD, hc⟩
        obtain ⟨p, hp, rfl⟩ := List.mem_map.mp this
        rw [← h p hp]
        exact hp
    · exact h2 u hu hD

theorem Prog.trace_length (D : Finset Q) (H : Q → F) : ∀ {P : Prog Q F α} {n : ℕ} (σ : List (Q × F)), P.Within n →
    (P.trace D H σ).length ≤ σ.length + n
  | .ret _, _, σ, _ => Nat.le_add_right _ _
  | .ask _ _, 0, _, h => h.elim
  | .ask s next, n + 1, σ, h => by
    refine (trace_length D H _ (h (H s))).trans ?_
    split <;> simp <;> omega

section
variable [Fintype F] {D : Finset Q}

/-- The hash agrees with the answers given. -/
def Fits (H₀ : Q → F) (H : D → F) (σ : List (Q × F)) : Prop := ∀ p ∈ σ, p.2 = over H₀ H p.1

theorem fits_cons {H₀ : Q → F} {H : D → F} {s : Q} {x : F} {σ : List (Q × F)} :
    Fits H₀ H ((s, x) :: σ) ↔ x = over H₀ H s ∧ Fits H₀ H σ := by
  simp [Fits]

/-- Each answer to a new question is given by the same number of hashes. -/
theorem fits_card (H₀ : Q → F) {s : Q} (hD : s ∈ D) {σ : List (Q × F)} (hs : s ∉ σ.map Prod.fst) (x : F) :
    Fintype.card F * Fintype.card {H : D → F // Fits H₀ H ((s, x) :: σ)} = Fintype.card {H : D → F // Fits H₀ H σ} := by
  have hup : ∀ (H : D → F) (y : F), Fits H₀ H σ → Fits H₀ (Function.update H ⟨s, hD⟩ y) σ := by
    intro H y h p hp
    rw [h p hp]
    have : p.1 ≠ s := fun e => hs (e ▸ List.mem_map.mpr ⟨p, hp, rfl⟩)
    unfold over
    split
    · rw [Function.update_of_ne]
      exact fun e => this (congrArg Subtype.val e)
    · rfl
  have hat : ∀ H : D → F, over H₀ H s = H ⟨s, hD⟩ := fun H => by rw [over, dif_pos hD]
  rw [← Fintype.card_prod]
  refine Fintype.card_congr ⟨fun p => ⟨Function.update p.2.1 ⟨s, hD⟩ p.1, hup _ _ (fits_cons.mp p.2.2).2⟩,
    fun H => ⟨H.1 ⟨s, hD⟩, Function.update H.1 ⟨s, hD⟩ x, fits_cons.mpr ⟨by rw [hat, Function.update_self], hup _ _ H.2⟩⟩, ?_, ?_⟩
  · rintro ⟨y, H, h⟩
    have := (fits_cons.mp h).1
    rw [hat] at this
    simp [this]
  · rintro ⟨H, h⟩
    simp

theorem card_split {Ω X : Type} [Fintype Ω] [Fintype X] (P : Ω → Prop) (f : Ω → X) :
    Fintype.card {ω // P ω} = ∑ x : X, Fintype.card {ω // P ω ∧ f ω = x} := by
  rw [← Fintype.card_sigma]
  exact Fintype.card_congr ⟨fun p => ⟨f p.1, p.1, p.2, rfl⟩, fun q => ⟨q.2.1, q.2.2.1⟩, fun _ => rfl, fun ⟨x, ω, h, e⟩ => by
    subst e; rfl⟩

/-- The hashes for which a program meets a bad answer. -/
theorem hits (H₀ : Q → F) (Bad : List (Q × F) → Q → Finset F) (B : ℕ) : ∀ (P : Prog Q F α) (n : ℕ) (σ : List (Q × F)), P.Within n →
    (∀ τ s, τ.length < σ.length + n → (Bad τ s).card ≤ B) → ¬ Hit Bad σ →
    Fintype.card F * Fintype.card {H : D → F // Fits H₀ H σ ∧ Hit Bad (P.trace D (over H₀ H) σ)} ≤
      n * B * Fintype.card {H : D → F // Fits H₀ H σ}
  | .ret a, n, σ, _, _, h => by
    have : IsEmpty {H : D → F // Fits H₀ H σ ∧ Hit Bad ((Prog.ret a : Prog Q F α).trace D (over H₀ H) σ)} :=
      ⟨fun H => h H.2.2⟩
    rw [Fintype.card_eq_zero_iff.mpr this]
    simp
  | .ask _ _, 0, _, h, _, _ => h.elim
  | .ask s next, n + 1, σ, hw, hB, hh => by
    by_cases hs : s ∈ D ∧ s ∉ σ.map Prod.fst
    · have hsp : Fintype.card {H : D → F // Fits H₀ H σ ∧ Hit Bad ((Prog.ask s next).trace D (over H₀ H) σ)} =
          ∑ x : F, Fintype.card {H : D → F // (Fits H₀ H σ ∧ Hit Bad ((Prog.ask s next).trace D (over H₀ H) σ)) ∧
            over H₀ H s = x} := by
        convert card_split (fun H : D → F => Fits H₀ H σ ∧ Hit Bad ((Prog.ask s next).trace D (over H₀ H) σ)) fun H => over H₀ H s
      rw [hsp, Finset.mul_sum]
      have hle : ∀ x : F, Fintype.card F * Fintype.card {H : D → F // (Fits H₀ H σ ∧
          Hit Bad ((Prog.ask s next).trace D (over H₀ H) σ)) ∧ over H₀ H s = x} ≤
          (if x ∈ Bad σ s then Fintype.card {H : D → F // Fits H₀ H σ} else 0) +
            n * B * Fintype.card {H : D → F // Fits H₀ H ((s, x) :: σ)} := by
        intro x
        by_cases hx : x ∈ Bad σ s
        · rw [if_pos hx, ← fits_card H₀ hs.1 hs.2 x]
          refine le_trans (Nat.mul_le_mul_left _ ?_) (Nat.le_add_right _ _)
          exact Fintype.card_subtype_mono _ _ fun H h => fits_cons.mpr ⟨h.2.symm, h.1.1⟩
        · rw [if_neg hx, zero_add]
          have ih := hits H₀ Bad B (next x) n ((s, x) :: σ) (hw x) (fun τ u h => hB τ u (by simp at h ⊢; omega))
            (fun h => (Hit.cons h).elim hx hh)
          refine le_trans (Nat.mul_le_mul_left _ ?_) ih
          refine Fintype.card_subtype_mono _ _ fun H h => ⟨fits_cons.mpr ⟨h.2.symm, h.1.1⟩, ?_⟩
          have h2 := h.1.2
          rw [Prog.trace, if_pos hs, h.2] at h2
          exact h2
      refine (Finset.sum_le_sum fun x _ => hle x).trans ?_
      rw [Finset.sum_add_distrib, ← Finset.mul_sum, ← Finset.sum_filter, Finset.sum_const, smul_eq_mul]
      have h1 : (Finset.univ.filter fun x => x ∈ Bad σ s).card ≤ B := by
        rw [Finset.filter_mem_eq_inter, Finset.univ_inter]
        exact hB σ s (by omega)
      have h2 : ∑ x : F, Fintype.card {H : D → F // Fits H₀ H ((s, x) :: σ)} = Fintype.card {H : D → F // Fits H₀ H σ} := by
        rw [card_split (fun H : D → F => Fits H₀ H σ) fun H => over H₀ H s]
        refine Finset.sum_congr rfl fun x _ => ?_
        refine Fintype.card_congr (Equiv.subtypeEquivRight fun H => ?_)
        rw [fits_cons, and_comm, eq_comm]
      rw [h2]
      calc _ ≤ B * Fintype.card {H : D → F // Fits H₀ H σ} + n * B * Fintype.card {H : D → F // Fits H₀ H σ} :=
            Nat.add_le_add_right (Nat.mul_le_mul_right _ h1) _
        _ = _ := by ring
    · have hc : ∃ x, ∀ H : D → F, Fits H₀ H σ → over H₀ H s = x := by
        by_cases hD : s ∈ D
        · have : s ∈ σ.map Prod.fst := by
            by_contra hc
            exact hs ⟨hD, hc⟩
          obtain ⟨p, hp, rfl⟩ := List.mem_map.mp this
          exact ⟨p.2, fun H h => (h p hp).symm⟩
        · exact ⟨H₀ s, fun H _ => by rw [over, dif_neg hD]⟩
      obtain ⟨x, hx⟩ := hc
      have ih := hits H₀ Bad B (next x) n σ (hw x) (fun τ u h => hB τ u (by omega)) hh
      refine le_trans (Nat.mul_le_mul_left _ ?_) (ih.trans ?_)
      · refine Fintype.card_subtype_mono _ _ fun H h => ⟨h.1, ?_⟩
        have h2 := h.2
        rw [Prog.trace, if_neg hs, hx H h.1] at h2
        exact h2
      · exact Nat.mul_le_mul_right _ (Nat.mul_le_mul_right _ (Nat.le_succ _))

/-- The same for a program that starts anew, and answers that are bad at any time. -/
theorem hits_all (H₀ : Q → F) (B : Finset F) {P : Prog Q F α} {n : ℕ} (hP : P.Within n) (Lose : (D → F) → Prop)
    (h : ∀ H, Lose H → ∃ s ∈ P.asked (over H₀ H), s ∈ D ∧ over H₀ H s ∈ B) :
    Fintype.card F * Fintype.card {H : D → F // Lose H} ≤ n * B.card * Fintype.card F ^ D.card := by
  have hh := hits (D := D) H₀ (fun _ _ => B) B.card P n [] hP (fun _ _ _ => le_rfl) (by
    rintro ⟨a, b, c, d, e, _⟩
    simp at e)
  have hall : Fintype.card {H : D → F // Fits H₀ H []} = Fintype.card F ^ D.card := by
    rw [Fintype.card_congr (Equiv.subtypeUnivEquiv fun H => by intro p hp; simp at hp)]
    simp
  rw [hall] at hh
  refine le_trans (Nat.mul_le_mul_left _ ?_) hh
  convert Fintype.card_subtype_mono _ (fun H : D → F => Fits H₀ H [] ∧ Hit (fun _ _ => B) (P.trace D (over H₀ H) [])) ?_
  intro H hH
  obtain ⟨s, hs, hD, hB⟩ := h H hH
  obtain ⟨a, b, e⟩ := List.append_of_mem ((Prog.trace_mem D (over H₀ H) P [] (by simp)).2 s hs hD)
  exact ⟨by intro p hp; simp at hp, a, s, _, b, e, hB⟩

end

/-! ### Linked questions -/

section
variable (named : Q → Option F)

/-- The questions leading to `s`: the latest one whose answer is named by `s`, and those leading to it. -/
noncomputable def back : List (Q × F) → Q → List (Q × F)
  | [], _ => []
  | (u, x) :: σ, s => if named s = some x then back σ u ++ [(u, x)] else back σ s

/-- Each question names the answer to the one before; the first names none. -/
def Linked (H : Q → F) (c : List Q) : Prop :=
  (∀ s, c[0]? = some s → named s = none) ∧ ∀ j s s', c[j]? = some s → c[j + 1]? = some s' → named s' = some (H s)

/-- The questions with their answers. -/
def answered (H : Q → F) (c : List Q) : List (Q × F) := c.map fun s => (s, H s)

/-- There are runs that win and fork at each of the next `n` linked questions, after those of `pre`: at each of them there are
`K + 1` different answers.  `path` gives the linked questions of a run with their answers. -/
def Forks {Ω : Type} (Win : Ω → Prop) (path : Ω → List (Q × F)) (K : ℕ) : ℕ → List (Q × F) → Prop
  | 0, pre => ∃ ω, Win ω ∧ path ω = pre
  | n + 1, pre => ∃ (s : Q) (f : Fin (K + 1) → F), Function.Injective f ∧ ∀ i, Forks Win path K n (pre ++ [(s, f i)])

theorem answered_take (H : Q → F) {c : List Q} {j : ℕ} {s : Q} (h : c[j]? = some s) :
    answered H (c.take (j + 1)) = answered H (c.take j) ++ [(s, H s)] := by
  rw [answered, answered, List.take_add_one, h, List.map_append]
  rfl

theorem back_none {s : Q} (h : named s = none) : ∀ σ : List (Q × F), back named σ s = []
  | [] => rfl
  | (u, x) :: σ => by rw [back, if_neg (by simp [h]), back_none h σ]

theorem back_skip {s u : Q} {x : F} (h : named s = some x) : ∀ (a b : List (Q × F)), (∀ p ∈ a, p.2 ≠ x) →
    back named (a ++ (u, x) :: b) s = back named b u ++ [(u, x)]
  | [], b, _ => by rw [List.nil_append, back, if_pos h]
  | (v, y) :: a, b, ha => by
    rw [List.cons_append, back, if_neg, back_skip h a b fun p hp => ha p (List.mem_cons_of_mem _ hp)]
    rw [h]
    simpa using Ne.symm (ha (v, y) (by simp))

/-- Without bad answers the questions leading to a question of a chain are those before it in the chain. -/
theorem back_chain {Bad : List (Q × F) → Q → Finset F} (h1 : ∀ σ s, ∀ p ∈ σ, p.2 ∈ Bad σ s)
    (h2 : ∀ σ s, ∀ p ∈ σ, ∀ x, named p.1 = some x → x ∈ Bad σ s) (h3 : ∀ σ s x, named s = some x → x ∈ Bad σ s)
    {σ : List (Q × F)} (hh : ¬ Hit Bad σ) {H : Q → F} {c : List Q} (hl : Linked named H c) (hc : ∀ s ∈ c, (s, H s) ∈ σ) :
    ∀ (j : ℕ) (s : Q), c[j]? = some s → ∀ σ₂ σ₁, σ = σ₂ ++ (s, H s) :: σ₁ → back named σ₁ s = answered H (c.take j)
  | 0, s, hs, σ₂, σ₁, _ => by rw [back_none named (hl.1 s hs)]; rfl
  | j + 1, s, hs, σ₂, σ₁, e => by
    have hj : j < c.length := by
      have := (List.getElem?_eq_some_iff.mp hs).1
      omega
    have hs0 : c[j]? = some c[j] := List.getElem?_eq_getElem hj
    have hn := hl.2 j _ s hs0 hs
    have hm := hc c[j] (List.getElem_mem hj)
    rw [e, List.mem_append, List.mem_cons] at hm
    rcases hm with hm | hm | hm
    · obtain ⟨a, b, rfl⟩ := List.append_of_mem hm
      refine (hh ⟨a, c[j], H c[j], b ++ (s, H s) :: σ₁, by rw [e]; simp, ?_⟩).elim
      exact h2 _ _ (s, H s) (by simp) _ hn
    · simp only [Prod.mk.injEq] at hm
      rw [hm.1] at hn
      exact (hh ⟨σ₂, s, H s, σ₁, e, h3 _ _ _ hn⟩).elim
    · obtain ⟨a, b, rfl⟩ := List.append_of_mem hm
      rw [back_skip named hn a b, back_chain h1 h2 h3 hh hl hc j c[j] hs0 (σ₂ ++ (s, H s) :: a) b (by rw [e]; simp)]
      · rw [answered_take H hs0]
      · intro p hp hx
        obtain ⟨a1, a2, rfl⟩ := List.append_of_mem hp
        refine hh ⟨σ₂ ++ (s, H s) :: a1, p.1, p.2, a2 ++ (c[j], H c[j]) :: b, by rw [e]; simp, ?_⟩
        rw [hx]
        exact h1 _ _ (c[j], H c[j]) (by simp)

/-- Each challenge comes from at most `B` digests. -/
def Spread {E : Type} [Fintype E] (red : E → F) (B : ℕ) : Prop := ∀ x, (Finset.univ.filter fun e => red e = x).card ≤ B

theorem spread_id [Fintype F] : Spread (id : F → F) 1 := fun x =>
  Finset.card_le_one.mpr fun a ha b hb => by
    simp only [Finset.mem_filter, id] at ha hb
    rw [ha.2, hb.2]

theorem Spread.preimage {E : Type} [Fintype E] {red : E → F} {B : ℕ} (h : Spread red B) (s : Finset F) :
    (Finset.univ.filter fun e => red e ∈ s).card ≤ B * s.card := by
  have := Finset.card_le_mul_card_image_of_maps_to (f := red) (s := Finset.univ.filter fun e => red e ∈ s) (t := s)
    (fun e he => (Finset.mem_filter.mp he).2) B fun x _ => (Finset.card_le_card (by
      intro e he
      simp only [Finset.mem_filter, Finset.mem_univ, true_and] at he ⊢
      exact he.2)).trans (h x)
  exact this

variable {E : Type} [Fintype E] {D : Finset Q}

/-- The answers that would make hashes fork where they did not: those with a challenge in this set. -/
noncomputable def forking {Ω : Type} (Win : Ω → Prop) (path : Ω → List (Q × F)) (K μ : ℕ) (red : E → F) (pre : List (Q × F)) (s : Q) :
    Finset F :=
  if pre.length < μ ∧ ¬ Forks Win path K (μ - pre.length) pre then
    (Finset.univ.image red).filter fun x => Forks Win path K (μ - pre.length - 1) (pre ++ [(s, x)])
  else ∅

theorem forking_card {Ω : Type} (Win : Ω → Prop) (path : Ω → List (Q × F)) (K μ : ℕ) (red : E → F) (pre : List (Q × F)) (s : Q) :
    (forking Win path K μ red pre s).card ≤ K := by
  unfold forking
  split
  · rename_i h
    by_contra hc
    obtain ⟨f, hf, hf'⟩ := pick (∅ : Finset F) (k := K) (lt_of_eq_of_lt (by simp) (not_le.mp hc))
    apply h.2
    rw [show μ - pre.length = μ - pre.length - 1 + 1 by omega]
    exact ⟨s, f, hf, fun i => (Finset.mem_filter.mp (hf' i).1).2⟩
  · simp

/-- A program that asks a hash with values in `E` wins for few hashes unless there are winning hashes whose challenges fork at each of
`μ` linked questions, asked by the program.  A challenge is what `red` makes of a value of the hash; it comes from at most `B` values. -/
theorem fork_of {red : E → F} {B : ℕ} (hred : Spread red B) (H₀ : Q → E) {P : Prog Q E α} {n : ℕ} (hP : P.Within n)
    (Win : (Q → E) → Prop) (chain : (Q → E) → List Q) (K μ : ℕ)
    (hlen : ∀ H, Win H → (chain H).length = μ) (hD : ∀ H, Win H → ∀ s ∈ chain H, s ∈ D)
    (hask : ∀ H, Win H → ∀ s ∈ chain H, s ∈ P.asked H) (hlink : ∀ H, Win H → Linked named (fun s => red (H s)) (chain H))
    (hno : ¬ Forks Win (fun H => answered (fun s => red (H s)) (chain H)) K μ []) :
    Fintype.card E * Fintype.card {H : D → E // Win (over H₀ H)} ≤ n * (B * (K + 2 * n)) * Fintype.card E ^ D.card := by
  let path : (Q → E) → List (Q × F) := fun H => answered (fun s => red (H s)) (chain H)
  let low : List (Q × E) → List (Q × F) := fun σ => σ.map fun p => (p.1, red p.2)
  let Bad : List (Q × F) → Q → Finset F := fun σ s =>
    (σ.map Prod.snd).toFinset ∪ (σ.filterMap fun p => named p.1).toFinset ∪ (named s).toFinset ∪
      forking Win path K μ red (back named σ s) s
  let BadE : List (Q × E) → Q → Finset E := fun σ s => Finset.univ.filter fun e => red e ∈ Bad (low σ) s
  have h1 : ∀ σ s, ∀ p ∈ σ, p.2 ∈ Bad σ s := by
    intro σ s p hp
    simp only [Bad, Finset.mem_union, List.mem_toFinset, List.mem_map]
    exact Or.inl (Or.inl (Or.inl ⟨p, hp, rfl⟩))
  have h2 : ∀ σ s, ∀ p ∈ σ, ∀ x, named p.1 = some x → x ∈ Bad σ s := by
    intro σ s p hp x hx
    simp only [Bad, Finset.mem_union, List.mem_toFinset, List.mem_filterMap]
    exact Or.inl (Or.inl (Or.inr ⟨p, hp, hx⟩))
  have h3 : ∀ σ s x, named s = some x → x ∈ Bad σ s := by
    intro σ s x hx
    simp only [Bad, Finset.mem_union, Option.mem_toFinset]
    exact Or.inl (Or.inr hx)
  have hB : ∀ (τ : List (Q × E)) (s : Q), τ.length < ([] : List (Q × E)).length + n → (BadE τ s).card ≤ B * (K + 2 * n) := by
    intro τ s hτ
    refine (hred.preimage (Bad (low τ) s)).trans (Nat.mul_le_mul_left _ ?_)
    have hτ : (low τ).length < n := by simpa [low] using hτ
    generalize low τ = τ at hτ
    have c1 : (τ.map Prod.snd).toFinset.card ≤ τ.length := (List.toFinset_card_le _).trans (by simp)
    have c2 : (τ.filterMap fun p => named p.1).toFinset.card ≤ τ.length := (List.toFinset_card_le _).trans (List.length_filterMap_le _ _)
    have c3 : (named s).toFinset.card ≤ 1 := by cases named s <;> simp
    have c4 := forking_card Win path K μ red (back named τ s) s
    have := Finset.card_union_le ((τ.map Prod.snd).toFinset ∪ (τ.filterMap fun p => named p.1).toFinset ∪ (named s).toFinset)
      (forking Win path K μ red (back named τ s) s)
    have := Finset.card_union_le ((τ.map Prod.snd).toFinset ∪ (τ.filterMap fun p => named p.1).toFinset) (named s).toFinset
    have := Finset.card_union_le (τ.map Prod.snd).toFinset (τ.filterMap fun p => named p.1).toFinset
    simp only [Bad]
    omega
  have hit := hits (D := D) H₀ BadE (B * (K + 2 * n)) P n [] hP hB (fun ⟨σ₂, s, x, σ₁, e, _⟩ => by simp at e)
  have hall : Fintype.card {H : D → E // Fits H₀ H []} = Fintype.card E ^ D.card := by
    rw [Fintype.card_congr (Equiv.subtypeUnivEquiv fun H => by simp [Fits]), Fintype.card_fun, Fintype.card_coe]
  rw [hall] at hit
  refine le_trans (Nat.mul_le_mul_left _ (Fintype.card_subtype_mono _ _ fun H hw => ⟨by simp [Fits], ?_⟩)) hit
  by_contra hhE
  obtain ⟨m1, m2⟩ := P.trace_mem D (over H₀ H) [] (by simp)
  set h : Q → F := fun s => red (over H₀ H s) with hh'
  have hlow : ∀ p ∈ low (P.trace D (over H₀ H) []), p.2 ∈ Finset.univ.image red := by
    intro p hp
    obtain ⟨q, _, rfl⟩ := List.mem_map.mp hp
    simp
  have hh : ¬ Hit Bad (low (P.trace D (over H₀ H) [])) := by
    rintro ⟨σ₂, s, x, σ₁, e, hb⟩
    obtain ⟨τ₂, τ, e1, e2, e3⟩ := List.map_eq_append_iff.mp e
    obtain ⟨q, τ₁, rfl, e4, e5⟩ := List.map_eq_cons_iff.mp e3
    simp only [Prod.mk.injEq] at e4
    obtain ⟨rfl, rfl⟩ := e4
    refine hhE ⟨τ₂, q.1, q.2, τ₁, e1, Finset.mem_filter.mpr ⟨Finset.mem_univ _, ?_⟩⟩
    rw [← e5] at hb
    exact hb
  have hin : ∀ s ∈ chain (over H₀ H), (s, h s) ∈ low (P.trace D (over H₀ H) []) := fun s hs =>
    List.mem_map.mpr ⟨_, m2 s (hask _ hw s hs) (hD _ hw s hs), rfl⟩
  have hbk := back_chain named h1 h2 h3 hh (hlink _ hw) hin
  have hl := hlen _ hw
  have key : ∀ j, j ≤ μ → ¬ Forks Win path K (μ - j) (answered h ((chain (over H₀ H)).take j)) := by
    intro j
    induction j with
    | zero => exact fun _ => hno
    | succ j ih =>
      intro hj hf
      have hj' : j < (chain (over H₀ H)).length := by omega
      obtain ⟨σ₂, σ₁, e⟩ := List.append_of_mem (hin _ (List.getElem_mem hj'))
      have hs := List.getElem?_eq_getElem hj'
      have hb := hbk j _ hs σ₂ σ₁ e
      refine hh ⟨σ₂, _, _, σ₁, e, ?_⟩
      simp only [Bad, Finset.mem_union]
      right
      rw [hb, forking]
      have hla : (answered h ((chain (over H₀ H)).take j)).length = j := by simp [answered]; omega
      rw [hla, if_pos ⟨by omega, ih (by omega)⟩]
      refine Finset.mem_filter.mpr ⟨Finset.mem_image_of_mem _ (Finset.mem_univ _), ?_⟩
      rw [answered_take _ hs] at hf
      rw [Nat.sub_sub]
      exact hf
  have := key μ le_rfl
  rw [Nat.sub_self, ← hl, List.take_length] at this
  exact this ⟨_, hw, rfl⟩

end
end
end Verif.Ipa
