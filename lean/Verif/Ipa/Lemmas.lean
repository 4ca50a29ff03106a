import Verif.Ipa.Model
import Mathlib.Tactic.Module
import Mathlib.Tactic.Ring
import Mathlib.Tactic.FieldSimp
import Mathlib.Tactic.Abel

/-!
# Lemmas about the inner product argument
-/

set_option autoImplicit false
set_option linter.unusedSectionVars false

namespace Verif.Ipa
open Proof

section
variable {F G : Type} [Field F] [AddCommGroup G] [Module F G]

theorem innerProduct_eq (a b : List F) : innerProduct a b = lin a b := rfl

theorem foldS_eq (c : F) (v : List F) : foldS c v = foldG c v := rfl

@[simp] theorem lin_nil_left (p : List G) : lin ([] : List F) p = 0 := by simp [lin]
@[simp] theorem lin_nil_right (s : List F) : lin s ([] : List G) = 0 := by simp [lin]
@[simp] theorem lin_cons (x : F) (s : List F) (y : G) (p : List G) : lin (x :: s) (y :: p) = x • y + lin s p := by
  simp [lin]

theorem lin_append : ∀ {s s' : List F} {p p' : List G}, s.length = p.length →
    lin (s ++ s') (p ++ p') = lin s p + lin s' p'
  | [], s', [], p', _ => by simp
  | x :: s, s', y :: p, p', h => by
    simp only [List.cons_append, lin_cons]
    rw [lin_append (by simpa using h), add_assoc]

theorem lin_map_mul : ∀ (c : F) (s : List F) (p : List G), lin (s.map (c * ·)) p = c • lin s p
  | c, [], p => by simp
  | c, x :: s, [] => by simp
  | c, x :: s, y :: p => by
    simp only [List.map_cons, lin_cons, smul_add, mul_smul]
    rw [lin_map_mul c s p]

theorem lin_zip_left : ∀ (c : F) {l r : List F} (p : List G), l.length = r.length →
    lin (List.zipWith (fun x y => x + c * y) l r) p = lin l p + c • lin r p
  | c, [], [], p, _ => by simp
  | c, x :: l, y :: r, [], _ => by simp
  | c, x :: l, y :: r, z :: p, h => by
    simp only [List.zipWith_cons_cons, lin_cons]
    rw [lin_zip_left c p (by simpa using h)]
    module

theorem lin_zip_right : ∀ (c : F) (s : List F) {l r : List G}, l.length = r.length →
    lin s (List.zipWith (fun x y => x + c • y) l r) = lin s l + c • lin s r
  | c, [], l, r, _ => by simp
  | c, x :: s, [], [], _ => by simp
  | c, x :: s, y :: l, z :: r, h => by
    simp only [List.zipWith_cons_cons, lin_cons]
    rw [lin_zip_right c s (by simpa using h)]
    module

theorem lin_comm : ∀ (a b : List F), lin a b = lin b a
  | [], b => by simp
  | x :: a, [] => by simp
  | x :: a, y :: b => by simp [lin_comm a b, mul_comm]

theorem lin_halves (s : List F) (p : List G) (h : s.length = p.length) :
    lin s p = lin (s.take (s.length / 2)) (p.take (p.length / 2)) + lin (s.drop (s.length / 2)) (p.drop (p.length / 2)) := by
  rw [← lin_append (by simp [h]), List.take_append_drop, List.take_append_drop]

theorem half_pow (k : ℕ) : 2 ^ (k + 1) / 2 = 2 ^ k := by omega

theorem foldG_length {k : ℕ} (c : F) {v : List G} (h : v.length = 2 ^ (k + 1)) : (foldG c v).length = 2 ^ k := by
  simp only [foldG, List.length_zipWith, List.length_take, List.length_drop, h]
  have := half_pow k
  have : 2 ^ (k + 1) = 2 * 2 ^ k := by ring
  omega

theorem foldAt_ok {k : ℕ} (c : F) {v : List G} (h : v.length = 2 ^ (k + 1)) : foldAt (2 ^ k) c v = .ok (foldG c v) := by
  have h2 := half_pow k
  have h3 : 2 ^ (k + 1) = 2 * 2 ^ k := by ring
  have h4 : (v.take (2 ^ k)).length = 2 ^ k := by rw [List.length_take]; omega
  have h5 : (v.drop (2 ^ k)).length = 2 ^ k := by rw [List.length_drop]; omega
  simp only [foldAt, foldG, h, h2]
  rw [if_neg (by omega), List.take_of_length_le (Nat.le_of_eq h4), List.take_of_length_le (Nat.le_of_eq h5),
    List.drop_eq_nil_of_le (Nat.le_of_eq h4), List.append_nil]

/-- One round of the argument. -/
theorem round_identity {k : ℕ} {a b : List F} {g : List G} (ha : a.length = 2 ^ (k + 1)) (hb : b.length = 2 ^ (k + 1))
    (hg : g.length = 2 ^ (k + 1)) (Q : G) {x : F} (hx : x ≠ 0) :
    lin (foldS x a) (foldG x⁻¹ g) + lin (foldS x a) (foldS x⁻¹ b) • Q =
      lin a g + lin a b • Q +
        x • (lin (a.drop (a.length / 2)) (g.take (g.length / 2)) + lin (a.drop (a.length / 2)) (b.take (b.length / 2)) • Q) +
        x⁻¹ • (lin (a.take (a.length / 2)) (g.drop (g.length / 2)) + lin (a.take (a.length / 2)) (b.drop (b.length / 2)) • Q) := by
  have h2 := half_pow k
  have h3 : 2 ^ (k + 1) = 2 * 2 ^ k := by ring
  rw [lin_halves a g (by omega), lin_halves a b (by omega), foldS_eq]
  have e1 : ∀ p : List G, lin (foldG x a) p = lin (a.take (a.length / 2)) p + x • lin (a.drop (a.length / 2)) p :=
    fun p => lin_zip_left x p (by simp [ha]; omega)
  have e2 : ∀ p : List F, lin (foldG x a) p = lin (a.take (a.length / 2)) p + x • lin (a.drop (a.length / 2)) p :=
    fun p => lin_zip_left x p (by simp [ha]; omega)
  have e3 : ∀ s : List F, lin s (foldG x⁻¹ g) = lin s (g.take (g.length / 2)) + x⁻¹ • lin s (g.drop (g.length / 2)) :=
    fun s => lin_zip_right x⁻¹ s (by simp [hg]; omega)
  have e4 : ∀ s : List F, lin s (foldS x⁻¹ b) = lin s (b.take (b.length / 2)) + x⁻¹ • lin s (b.drop (b.length / 2)) :=
    fun s => lin_zip_right x⁻¹ s (by simp [hb]; omega)
  rw [e1, e2, e3, e3, e4, e4]
  simp only [smul_add, add_smul, smul_smul, mul_inv_cancel₀ hx, smul_eq_mul, mul_add, ← mul_assoc, one_mul]
  module

end

section
variable {F G : Type} [Field F] [AddCommGroup G] [Module F G] [DecidableEq F] [DecidableEq G] (O : Oracle F G)

theorem msm_snoc {s : List F} {p : List G} (x : F) (y : G) (h : s.length = p.length) :
    msm (s ++ [x]) (p ++ [y]) = .ok (lin s p + x • y) := by
  simp only [msm, List.length_append, h]
  rw [lin_append h]
  simp

theorem createGo_ok (Q : G) : ∀ (k : ℕ) {a b : List F} {g : List G} {t t' : Transcript} {π : IpaProof F G},
    a.length = 2 ^ k → b.length = 2 ^ k → g.length = 2 ^ k → createGo O Q k a b g t = .ok (π, t') →
    π.L.length = k ∧ π.R.length = k ∧ ∃ xs g0 b0, genChallenges O π.L π.R t = (xs, t') ∧
      foldAll (batchInv xs) g b = .ok (g0, b0) ∧
      accumulate (lin a g + lin a b • Q) xs π.L π.R = .ok (π.a • g0 + (π.a * b0) • Q)
  | 0, [a0], [b0], [g0], t, t', π, _, _, _, h => by
    simp only [createGo, Except.ok.injEq, Prod.mk.injEq] at h
    obtain ⟨rfl, rfl⟩ := h
    refine ⟨rfl, rfl, [], g0, b0, rfl, rfl, ?_⟩
    simp [accumulate]
  | k + 1, a, b, g, t, t', π, ha, hb, hg, h => by
    have h2 := half_pow k
    have h3 : 2 ^ (k + 1) = 2 * 2 ^ k := by ring
    rw [createGo] at h
    rw [msm_snoc _ _ (by simp only [List.length_take, List.length_drop]; omega),
      msm_snoc _ _ (by simp only [List.length_take, List.length_drop]; omega)] at h
    simp only [bind, Except.bind] at h
    generalize hL : lin (a.drop (a.length / 2)) (g.take (g.length / 2)) +
      innerProduct (a.drop (a.length / 2)) (b.take (b.length / 2)) • Q = L at h
    generalize hR : lin (a.take (a.length / 2)) (g.drop (g.length / 2)) +
      innerProduct (a.take (a.length / 2)) (b.drop (b.length / 2)) • Q = R at h
    generalize hc : challenge O (appendPoint O (appendPoint O t (lbl "L") L) (lbl "R") R) (lbl "x") = c at h
    obtain ⟨x, t1⟩ := c
    simp only at h
    split at h
    · simp at h
    · rename_i hx
      cases hr : createGo O Q k (foldS x a) (foldS x⁻¹ b) (foldG x⁻¹ g) t1 with
      | error e => rw [hr] at h; simp at h
      | ok r =>
        rw [hr] at h
        simp only [Except.ok.injEq, Prod.mk.injEq] at h
        obtain ⟨rfl, rfl⟩ := h
        obtain ⟨i1, i2, xs, g0, b0, i3, i4, i5⟩ := createGo_ok Q k (foldG_length x ha) (foldG_length x⁻¹ hb)
          (foldG_length x⁻¹ hg) (π := r.1) (t' := r.2) hr
        refine ⟨by simp [i1], by simp [i2], x :: xs, g0, b0, ?_, ?_, ?_⟩
        · simp only [genChallenges, hc, i3]
        · simp only [batchInv, List.map_cons, foldAll, hg, h2]
          rw [foldAt_ok _ hg, foldAt_ok _ hb]
          exact i4
        · simp only [accumulate]
          have e := round_identity ha hb hg Q hx
          simp only [foldS_eq] at e
          rw [← i5, e, ← hL, ← hR]
          rfl

theorem createGo_total (Q : G) (hH : ∀ s, O.H s ≠ 0) : ∀ (k : ℕ) {a b : List F} {g : List G} (t : Transcript),
    a.length = 2 ^ k → b.length = 2 ^ k → g.length = 2 ^ k → ∃ r, createGo O Q k a b g t = .ok r
  | 0, [a0], [b0], [g0], t, _, _, _ => ⟨_, rfl⟩
  | k + 1, a, b, g, t, ha, hb, hg => by
    have h2 := half_pow k
    have h3 : 2 ^ (k + 1) = 2 * 2 ^ k := by ring
    rw [createGo]
    rw [msm_snoc _ _ (by simp only [List.length_take, List.length_drop]; omega),
      msm_snoc _ _ (by simp only [List.length_take, List.length_drop]; omega)]
    simp only [bind, Except.bind]
    generalize hc : challenge O _ (lbl "x") = c
    obtain ⟨x, t1⟩ := c
    have hx : x ≠ 0 := by
      have := congrArg Prod.fst hc
      simp only [challenge] at this
      exact this ▸ hH _
    obtain ⟨r, hr⟩ := createGo_total Q hH k (a := foldS x a) (b := foldS x⁻¹ b) (g := foldG x⁻¹ g)
      t1 (foldG_length x ha) (foldG_length x⁻¹ hb) (foldG_length x⁻¹ hg)
    simp only [if_neg hx, hr]
    exact ⟨_, rfl⟩

/-! ### The coefficients of the unrolled verifiers -/

/-- The coefficients of the folded vector: the first challenge belongs to the most significant bit. -/
def coef : List F → List F
  | [] => [1]
  | c :: cs => coef cs ++ (coef cs).map (c * ·)

theorem coef_length : ∀ cs : List F, (coef cs).length = 2 ^ cs.length
  | [] => rfl
  | c :: cs => by
    simp only [coef, List.length_append, List.length_map, coef_length cs, List.length_cons]
    ring

theorem lin_fold {k : ℕ} (c : F) (cs : List F) {v : List G} (hc : cs.length = k) (h : v.length = 2 ^ (k + 1)) :
    lin (coef cs) (foldG c v) = lin (coef (c :: cs)) v := by
  have h2 := half_pow k
  have h3 : 2 ^ (k + 1) = 2 * 2 ^ k := by ring
  have h4 := coef_length cs
  rw [hc] at h4
  rw [foldG, lin_zip_right _ _ (by simp [h]; omega)]
  conv_rhs => rw [← List.take_append_drop (v.length / 2) v, coef]
  rw [lin_append (by simp [h4, h]; omega), lin_map_mul]

theorem foldAll_eq : ∀ (cs : List F) {g : List G} {b : List F}, g.length = 2 ^ cs.length → b.length = 2 ^ cs.length →
    foldAll cs g b = .ok (lin (coef cs) g, lin (coef cs) b)
  | [], [g], [b], _, _ => by simp [foldAll, coef]
  | c :: cs, g, b, hg, hb => by
    simp only [List.length_cons] at hg hb
    simp only [foldAll, hg, half_pow]
    rw [foldAt_ok _ hg, foldAt_ok _ hb]
    simp only [bind, Except.bind]
    rw [foldAll_eq cs (foldG_length _ hg) (foldG_length _ hb), lin_fold c cs rfl hg, lin_fold c cs rfl hb]

theorem toBits_succ (n k : ℕ) : toBits n (k + 1) = (n / 2 ^ k % 2) :: toBits n k := by
  simp only [toBits, List.range_succ, List.map_append, List.reverse_append, List.map_cons, List.map_nil,
    List.reverse_cons, List.reverse_nil, List.nil_append, List.singleton_append, Nat.and_one_is_mod, Nat.shiftRight_eq_div_pow]

theorem toBits_add (k j : ℕ) : toBits (2 ^ k + j) k = toBits j k := by
  simp only [toBits]
  congr 1
  apply List.map_congr_left
  intro i hi
  simp only [List.mem_range] at hi
  simp only [Nat.and_one_is_mod, Nat.shiftRight_eq_div_pow]
  obtain ⟨d, rfl⟩ : ∃ d, k = i + (d + 1) := ⟨k - i - 1, by omega⟩
  rw [show 2 ^ (i + (d + 1)) = 2 ^ i * (2 * 2 ^ d) by ring, Nat.mul_add_div (Nat.two_pow_pos i)]
  omega

theorem foldl_bits (l : List (ℕ × F)) : ∀ init : F,
    l.foldl (fun c bx => if bx.1 = 1 then c * bx.2 else c) init = init * (l.foldl (fun c bx => if bx.1 = 1 then c * bx.2 else c) 1) := by
  induction l with
  | nil => intro init; simp
  | cons a l ih =>
    intro init
    simp only [List.foldl_cons]
    rw [ih, ih (if a.1 = 1 then 1 * a.2 else 1)]
    split <;> ring

theorem range_bits : ∀ (cs : List F) (init : F), (List.range (2 ^ cs.length)).map (fun i =>
      ((toBits i cs.length).zip cs).foldl (fun c bx => if bx.1 = 1 then c * bx.2 else c) init) = (coef cs).map (init * ·)
  | [], init => by simp [toBits, coef]
  | c :: cs, init => by
    rw [List.length_cons, show 2 ^ (cs.length + 1) = 2 ^ cs.length + 2 ^ cs.length by ring, List.range_add, List.map_append,
      coef, List.map_append]
    congr 1
    · rw [← range_bits cs init]
      apply List.map_congr_left
      intro i hi
      simp only [List.mem_range] at hi
      rw [toBits_succ]
      simp [Nat.div_eq_of_lt hi]
    · rw [List.map_map, List.map_map, show ((init * ·) ∘ (c * ·) : F → F) = ((init * c) * ·) from funext fun x => by
        simp [mul_assoc], ← range_bits cs (init * c)]
      apply List.map_congr_left
      intro i hi
      simp only [List.mem_range] at hi
      simp only [Function.comp]
      rw [toBits_succ, toBits_add]
      have : (2 ^ cs.length + i) / 2 ^ cs.length = 1 := by
        rw [Nat.add_div_left _ (Nat.two_pow_pos _), Nat.div_eq_of_lt hi]
      simp [this]

theorem mapM_ok {α β : Type} {f : α → Res β} {g : α → β} : ∀ {l : List α}, (∀ x ∈ l, f x = .ok (g x)) →
    l.mapM f = .ok (l.map g)
  | [], _ => rfl
  | a :: l, h => by
    rw [List.mapM_cons, h a (by simp)]
    simp only [bind, Except.bind]
    rw [mapM_ok (fun x hx => h x (List.mem_cons_of_mem _ hx))]
    rfl

theorem coeffs_eq (init : F) (xinv : List F) :
    coeffs init (2 ^ xinv.length) xinv.length xinv = .ok ((coef xinv).map (init * ·)) := by
  rw [coeffs, ← range_bits]
  exact mapM_ok fun i _ => by simp [coeff]

theorem coeffs_error (init : F) {n k : ℕ} {xinv : List F} (hn : 0 < n) (h : k ≠ xinv.length) :
    coeffs init n k xinv = .error "zip_eq() reached end of one iterator before the other" := by
  obtain ⟨m, rfl⟩ : ∃ m, n = m + 1 := ⟨n - 1, by omega⟩
  rw [coeffs, List.range_succ_eq_map, List.mapM_cons]
  simp [coeff, h, bind, Except.bind]

theorem genChallenges_length : ∀ (L R : List G) (t : Transcript), (genChallenges O L R t).1.length = min L.length R.length
  | [], _, _ => by simp [genChallenges]
  | _ :: _, [], _ => by simp [genChallenges]
  | L :: Ls, R :: Rs, t => by
    simp only [genChallenges, List.length_cons]
    rw [genChallenges_length Ls Rs]
    omega

theorem genChallenges_take : ∀ (L R : List G) (t : Transcript), genChallenges O L R t = genChallenges O L (R.take L.length) t
  | [], _, _ => by simp [genChallenges]
  | _ :: _, [], _ => by simp [genChallenges]
  | L :: Ls, R :: Rs, t => by
    simp only [genChallenges, List.length_cons, List.take_succ_cons]
    rw [genChallenges_take Ls Rs]

theorem accumulate_ok : ∀ (comm : G) {xs : List F} {L R : List G}, xs.length = L.length → L.length = R.length →
    accumulate comm xs L R = .ok (comm + lin xs L + lin (batchInv xs) R)
  | comm, [], [], [], _, _ => by simp [accumulate]
  | comm, x :: xs, L :: Ls, R :: Rs, h1, h2 => by
    rw [accumulate, accumulate_ok _ (by simpa using h1) (by simpa using h2)]
    simp only [batchInv, List.map_cons, lin_cons]
    congr 1
    abel

theorem accumulate_take : ∀ (comm : G) (xs : List F) (L R : List G), L.length ≤ R.length →
    accumulate comm xs L R = accumulate comm xs L (R.take L.length)
  | comm, xs, [], R, _ => by simp [accumulate]
  | comm, [], L :: Ls, R :: Rs, _ => by simp [accumulate]
  | comm, x :: xs, L :: Ls, R :: Rs, h => by
    simp only [accumulate, List.length_cons, List.take_succ_cons]
    exact accumulate_take _ _ _ _ (by simpa using h)

theorem accumulate_error : ∀ (comm : G) (xs : List F) (L R : List G), R.length < L.length →
    accumulate comm xs L R = .error "index out of bounds"
  | comm, [], L :: Ls, R, _ => by simp [accumulate]
  | comm, x :: xs, L :: Ls, [], _ => by simp [accumulate]
  | comm, x :: xs, L :: Ls, R :: Rs, h => by
    simp only [accumulate]
    exact accumulate_error _ _ _ _ (by simpa using h)

end
end Verif.Ipa
