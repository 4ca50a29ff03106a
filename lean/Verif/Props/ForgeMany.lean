import Verif.Props.Absence
import Mathlib.LinearAlgebra.Dual.Lemmas
import Mathlib.Algebra.Polynomial.Roots

/-!
# C87: many forged claims at once

The forgery of `Unchecked.lean` for any list of claims that values are zero.  The challenges for `x`-coordinates `b` and `-b` of the forged point are
independent, and of the two signs that decide over success one is right: a pair of tries fails for little more than a quarter of the hashes.
-/

set_option autoImplicit false
set_option linter.constructorNameAsVariable false

namespace Verif.Props
open Verif Verif.Spec Verif.Trie Verif.Proof Verif.Ipa Verif.Wire Verif.Ffi Verif.Bander
open scoped Classical

/-! ### The commitment `E` is seldom zero -/

theorem sumE_cons (x : BElem × Byte × ZMod r) (qs : List (BElem × Byte × ZMod r)) (ρ t : ZMod r) :
    sumE (x :: qs) ρ t = (t - ((x.2.1.val : ℕ) : ZMod r))⁻¹ • x.1 + ρ • sumE qs ρ t := by
  unfold sumE powersOf batchInv
  have h1 : max (x :: qs).length 1 = qs.length + 1 := by simp
  rw [h1, List.range_succ_eq_map, List.map_cons, List.map_cons, List.map_cons, List.zipWith_cons_cons, List.map_cons, lin_cons, pow_zero, mul_one]
  congr 1
  rw [← lin_map_mul]
  congr 1
  rcases qs with _ | ⟨y, qs⟩
  · simp
  · have h2 : max (y :: qs).length 1 = (y :: qs).length := by simp
    rw [h2, List.map_map, List.zipWith_map_left, List.map_zipWith, List.zipWith_map_left]
    congr 1
    funext i d
    simp only [Function.comp_apply, pow_succ]
    ring

/-- `∏ (X - z')` over the `z' ≠ z`. -/
noncomputable def others (z : Byte) : Polynomial (ZMod r) :=
  ∏ z' ∈ Finset.univ.erase z, (Polynomial.X - Polynomial.C ((z'.val : ℕ) : ZMod r))

/-- The numerator of `E`, seen through a linear form. -/
noncomputable def numer (φ : BElem → ZMod r) (ρ : ZMod r) : List (BElem × Byte × ZMod r) → Polynomial (ZMod r)
  | [] => 0
  | x :: qs => Polynomial.C (φ x.1) * others x.2.1 + Polynomial.C ρ * numer φ ρ qs

/-- Its value at a point `z`, up to a factor, as a polynomial in the challenge `r`. -/
noncomputable def atPoint (φ : BElem → ZMod r) (z : Byte) : List (BElem × Byte × ZMod r) → Polynomial (ZMod r)
  | [] => 0
  | x :: qs => (if x.2.1 = z then Polynomial.C (φ x.1) else 0) + Polynomial.X * atPoint φ z qs

theorem byte_cast_inj {z z' : Byte} (h : ((z.val : ℕ) : ZMod r) = ((z'.val : ℕ) : ZMod r)) : z = z' := by
  have hr : 256 < r := by decide +kernel
  have := congrArg ZMod.val h
  rw [ZMod.val_natCast_of_lt (by have := z.isLt; omega), ZMod.val_natCast_of_lt (by have := z'.isLt; omega)] at this
  exact Fin.ext this

theorem others_natDegree (z : Byte) : (others z).natDegree ≤ 255 := by
  unfold others
  refine (Polynomial.natDegree_prod_le _ _).trans ((Finset.sum_le_card_nsmul _ _ 1 fun z' _ => ?_).trans ?_)
  · exact Polynomial.natDegree_X_sub_C_le _
  · rw [Finset.card_erase_of_mem (Finset.mem_univ _), Finset.card_univ, Fintype.card_fin]
    norm_num

theorem numer_natDegree (φ : BElem → ZMod r) (ρ : ZMod r) : ∀ qs : List (BElem × Byte × ZMod r), (numer φ ρ qs).natDegree ≤ 255
  | [] => by simp [numer]
  | x :: qs => by
    refine (Polynomial.natDegree_add_le _ _).trans (max_le ?_ ?_)
    · exact (Polynomial.natDegree_C_mul_le _ _).trans (others_natDegree _)
    · exact (Polynomial.natDegree_C_mul_le _ _).trans (numer_natDegree φ ρ qs)

theorem atPoint_natDegree (φ : BElem → ZMod r) (z : Byte) : ∀ qs : List (BElem × Byte × ZMod r), (atPoint φ z qs).natDegree ≤ qs.length
  | [] => by simp [atPoint]
  | x :: qs => by
    refine (Polynomial.natDegree_add_le _ _).trans (max_le ?_ ?_)
    · split <;> simp
    · refine Polynomial.natDegree_mul_le.trans ?_
      have := atPoint_natDegree φ z qs
      have := Polynomial.natDegree_X_le (R := ZMod r)
      rw [List.length_cons]
      omega

theorem atPoint_ne_zero (φ : BElem → ZMod r) (z : Byte) : ∀ {qs : List (BElem × Byte × ZMod r)}, (∃ x ∈ qs, x.2.1 = z ∧ φ x.1 ≠ 0) → atPoint φ z qs ≠ 0
  | [], h => by simp at h
  | x :: qs, ⟨y, hy, h1, h2⟩ => by
    intro h
    by_cases hx : x.2.1 = z ∧ φ x.1 ≠ 0
    · have := congrArg (fun p => Polynomial.coeff p 0) h
      simp only [atPoint, if_pos hx.1, Polynomial.coeff_add, Polynomial.coeff_C_zero, Polynomial.coeff_X_mul_zero, add_zero, Polynomial.coeff_zero] at this
      exact hx.2 this
    · have hy' : y ∈ qs := by
        rcases List.mem_cons.1 hy with rfl | hy
        · exact absurd ⟨h1, h2⟩ hx
        · exact hy
      refine atPoint_ne_zero φ z ⟨y, hy', h1, h2⟩ (Polynomial.ext fun n => ?_)
      have := congrArg (fun p => Polynomial.coeff p (n + 1)) h
      simp only [atPoint, Polynomial.coeff_add, Polynomial.coeff_X_mul, Polynomial.coeff_zero] at this
      rw [Polynomial.coeff_zero]
      split at this
      · rwa [Polynomial.coeff_C_succ, zero_add] at this
      · rwa [Polynomial.coeff_zero, zero_add] at this

theorem others_eval_ne (z : Byte) : (others z).eval ((z.val : ℕ) : ZMod r) ≠ 0 := by
  unfold others
  rw [Polynomial.eval_prod, Finset.prod_ne_zero_iff]
  intro z' hz'
  rw [Polynomial.eval_sub, Polynomial.eval_X, Polynomial.eval_C]
  exact sub_ne_zero.2 fun h => (Finset.mem_erase.1 hz').1 (byte_cast_inj h).symm

theorem others_eval_zero {z z' : Byte} (h : z' ≠ z) : (others z').eval ((z.val : ℕ) : ZMod r) = 0 := by
  unfold others
  rw [Polynomial.eval_prod]
  refine Finset.prod_eq_zero (Finset.mem_erase.2 ⟨h.symm, Finset.mem_univ z⟩) ?_
  rw [Polynomial.eval_sub, Polynomial.eval_X, Polynomial.eval_C, sub_self]

theorem numer_eval_point (φ : BElem → ZMod r) (ρ : ZMod r) (z : Byte) : ∀ qs : List (BElem × Byte × ZMod r),
    (numer φ ρ qs).eval ((z.val : ℕ) : ZMod r) = (atPoint φ z qs).eval ρ * (others z).eval ((z.val : ℕ) : ZMod r)
  | [] => by simp [numer, atPoint]
  | x :: qs => by
    rw [numer, atPoint, Polynomial.eval_add, Polynomial.eval_mul, Polynomial.eval_mul, Polynomial.eval_C, Polynomial.eval_C, Polynomial.eval_add,
      Polynomial.eval_mul, Polynomial.eval_X, numer_eval_point φ ρ z qs]
    by_cases h : x.2.1 = z
    · rw [if_pos h, Polynomial.eval_C, h]
      ring
    · rw [if_neg h, others_eval_zero h, Polynomial.eval_zero]
      ring

theorem numer_eval (φ : BElem →ₗ[ZMod r] ZMod r) (ρ : ZMod r) {t : ZMod r} (ht : ∀ z : Byte, t ≠ ((z.val : ℕ) : ZMod r)) :
    ∀ qs : List (BElem × Byte × ZMod r),
    (numer φ ρ qs).eval t = (∏ z : Byte, (t - ((z.val : ℕ) : ZMod r))) * φ (sumE qs ρ t)
  | [] => by simp [numer, sumE]
  | x :: qs => by
    have h1 : (others x.2.1).eval t = (∏ z : Byte, (t - ((z.val : ℕ) : ZMod r))) * (t - ((x.2.1.val : ℕ) : ZMod r))⁻¹ := by
      rw [← Finset.mul_prod_erase _ _ (Finset.mem_univ x.2.1), mul_comm (t - _), mul_assoc, mul_inv_cancel₀ (sub_ne_zero.2 (ht _)), mul_one]
      unfold others
      rw [Polynomial.eval_prod]
      refine Finset.prod_congr rfl fun z _ => ?_
      rw [Polynomial.eval_sub, Polynomial.eval_X, Polynomial.eval_C]
    rw [numer, sumE_cons, Polynomial.eval_add, Polynomial.eval_mul, Polynomial.eval_mul, Polynomial.eval_C, Polynomial.eval_C, numer_eval φ ρ ht qs, h1,
      map_add, map_smul, map_smul, smul_eq_mul, smul_eq_mul]
    ring

/-- But for few challenges `r`, `E` is zero for at most 511 challenges `t`. -/
theorem sumE_zero_few {qs : List (BElem × Byte × ZMod r)} (h : ∃ x ∈ qs, x.1 ≠ 0) :
    ∃ B : Finset (ZMod r), B.card ≤ qs.length ∧ ∀ ρ, ρ ∉ B → (Finset.univ.filter fun t : ZMod r => sumE qs ρ t = 0).card ≤ 511 := by
  obtain ⟨x, hx, hx0⟩ := h
  obtain ⟨φ, hφ⟩ : ∃ φ : BElem →ₗ[ZMod r] ZMod r, φ x.1 ≠ 0 := by
    by_contra hn
    push Not at hn
    exact hx0 ((Module.forall_dual_apply_eq_zero_iff (ZMod r) x.1).1 hn)
  have hS := atPoint_ne_zero φ x.2.1 ⟨x, hx, rfl, hφ⟩
  refine ⟨(atPoint φ x.2.1 qs).roots.toFinset, ?_, fun ρ hρ => ?_⟩
  · exact (Multiset.toFinset_card_le _).trans ((Polynomial.card_roots' _).trans (atPoint_natDegree _ _ _))
  · have hN : numer φ ρ qs ≠ 0 := by
      intro h0
      have h1 := numer_eval_point φ ρ x.2.1 qs
      rw [h0, Polynomial.eval_zero, eq_comm, mul_eq_zero] at h1
      rcases h1 with h1 | h1
      · exact hρ (Multiset.mem_toFinset.2 ((Polynomial.mem_roots hS).2 h1))
      · exact others_eval_ne _ h1
    have hsub : (Finset.univ.filter fun t : ZMod r => sumE qs ρ t = 0) ⊆
        (Finset.univ.image fun z : Byte => ((z.val : ℕ) : ZMod r)) ∪ (numer φ ρ qs).roots.toFinset := by
      intro t ht
      rw [Finset.mem_filter] at ht
      rw [Finset.mem_union, Finset.mem_image, Multiset.mem_toFinset]
      by_cases hz : ∃ z : Byte, t = ((z.val : ℕ) : ZMod r)
      · obtain ⟨z, rfl⟩ := hz
        exact Or.inl ⟨z, Finset.mem_univ _, rfl⟩
      · push Not at hz
        refine Or.inr ((Polynomial.mem_roots hN).2 ?_)
        show (numer φ ρ qs).eval t = 0
        rw [numer_eval φ ρ hz, ht.2, map_zero, mul_zero]
    refine (Finset.card_le_card hsub).trans ((Finset.card_union_le _ _).trans ?_)
    have h1 : (Finset.univ.image fun z : Byte => ((z.val : ℕ) : ZMod r)).card ≤ 256 := Finset.card_image_le.trans (by rw [Finset.card_univ, Fintype.card_fin])
    have h2 := (Multiset.toFinset_card_le (numer φ ρ qs).roots).trans ((Polynomial.card_roots' _).trans (numer_natDegree φ ρ qs))
    omega

/-! ### Pairs of tries -/

/-- The challenges `t` for which the forgery of the claims `qs` with `b` succeeds. -/
def LuckyMany (qs : List (BElem × Byte × ZMod r)) (ρ : ZMod r) (b : ZMod Bander.q) (t : ZMod r) : Prop :=
  sumE qs ρ t ≠ 0 ∧ isPositive (b / (sumE qs ρ t).ratio) = true

theorem lucky_pair (qs : List (BElem × Byte × ZMod r)) (ρ : ZMod r) {b : ZMod Bander.q} (hb : b ≠ 0) (t : ZMod r) :
    ¬ LuckyMany qs ρ b t ∧ ¬ LuckyMany qs ρ (-b) t ↔ sumE qs ρ t = 0 := by
  unfold LuckyMany
  by_cases h0 : sumE qs ρ t = 0
  · simp [h0]
  · have hρ : (sumE qs ρ t).ratio ≠ 0 := fun h => h0 ((ratio_zero_iff _).1 h)
    rw [neg_div, isPositive_neg good (div_ne_zero hb hρ)]
    cases isPositive (b / (sumE qs ρ t).ratio) <;> simp [h0]

theorem digests_le {B : Finset (ZMod r)} (S : Finset Digest) (h : ∀ d ∈ S, digestScalar d ∈ B) : S.card ≤ 9 * B.card := by
  refine Finset.card_le_mul_card_image_of_maps_to h 9 fun x _ => ?_
  refine le_trans (Finset.card_le_card fun d hd => ?_) (C83_spread x)
  have := (Finset.mem_filter.1 hd).2
  simp only [Finset.mem_filter, Finset.mem_univ, true_and]
  exact this

/-- The digests unlucky for `b`. -/
noncomputable def misses (qs : List (BElem × Byte × ZMod r)) (ρ : ZMod r) (b : ZMod Bander.q) : ℕ :=
  (Finset.univ.filter fun d : Digest => ¬ LuckyMany qs ρ b (digestScalar d)).card

theorem misses_pair {qs : List (BElem × Byte × ZMod r)} {ρ : ZMod r} (h : (Finset.univ.filter fun t : ZMod r => sumE qs ρ t = 0).card ≤ 511)
    {b : ZMod Bander.q} (hb : b ≠ 0) : 10 * (misses qs ρ b * misses qs ρ (-b)) ≤ 3 * (Fintype.card Digest * Fintype.card Digest) := by
  have h1 := Finset.card_union_add_card_inter (Finset.univ.filter fun d : Digest => ¬ LuckyMany qs ρ b (digestScalar d))
    (Finset.univ.filter fun d : Digest => ¬ LuckyMany qs ρ (-b) (digestScalar d))
  have h2 : ((Finset.univ.filter fun d : Digest => ¬ LuckyMany qs ρ b (digestScalar d)) ∩
      (Finset.univ.filter fun d : Digest => ¬ LuckyMany qs ρ (-b) (digestScalar d))).card ≤ 9 * 511 := by
    refine (digests_le _ fun d hd => ?_).trans (Nat.mul_le_mul_left 9 h)
    rw [Finset.mem_inter, Finset.mem_filter, Finset.mem_filter] at hd
    rw [Finset.mem_filter]
    exact ⟨Finset.mem_univ _, (lucky_pair qs ρ hb _).1 ⟨hd.1.2, hd.2.2⟩⟩
  have h3 := Finset.card_le_univ ((Finset.univ.filter fun d : Digest => ¬ LuckyMany qs ρ b (digestScalar d)) ∪
    (Finset.univ.filter fun d : Digest => ¬ LuckyMany qs ρ (-b) (digestScalar d)))
  have hbig : 2 ^ 20 ≤ Fintype.card Digest := by rw [card_digest]; norm_num
  unfold misses
  generalize Fintype.card Digest = N at *
  generalize (Finset.univ.filter fun d : Digest => ¬ LuckyMany qs ρ b (digestScalar d)).card = x at *
  generalize (Finset.univ.filter fun d : Digest => ¬ LuckyMany qs ρ (-b) (digestScalar d)).card = y at *
  have h4 : x + y ≤ N + 4599 := by omega
  have h5 : 100 * (x + y) ≤ 101 * N := by omega
  have h6 : 4 * (x * y) ≤ (x + y) * (x + y) := by nlinarith [sq_nonneg ((x : ℤ) - y), sq_nonneg (x - y), mul_self_nonneg ((x : ℤ) - y)]
  have h7 := Nat.mul_le_mul h5 h5
  nlinarith

/-- Try the forgery of the claims with one `b` after the other. -/
noncomputable def tryMany (qs : List (BElem × Byte × ZMod r)) (ρ : ZMod r) : List (ZMod Bander.q) → Prog (List Byte) Digest (List Byte)
  | [] => .ret []
  | b :: l => .ask (stringAfter ρ b) fun d => if LuckyMany qs ρ b (digestScalar d) then
      .ret (forgedProof b (b / (sumE qs ρ (digestScalar d)).ratio)) else tryMany qs ρ l

/-- The forger of claims that values are zero. -/
noncomputable def forgerMany (qs : List (BElem × Byte × ZMod r)) (l : List (ZMod Bander.q)) : Prog (List Byte) Digest (List Byte) :=
  .ask (stringR qs) fun d => tryMany qs (digestScalar d) l

theorem tryMany_within (qs : List (BElem × Byte × ZMod r)) (ρ : ZMod r) : ∀ l : List (ZMod Bander.q), (tryMany qs ρ l).Within l.length
  | [] => trivial
  | b :: l => fun d => by
    dsimp only
    split
    · trivial
    · exact tryMany_within qs ρ l

theorem tryMany_run (qs : List (BElem × Byte × ZMod r)) (ρ : ZMod r) (R : List Byte → Digest) : ∀ l : List (ZMod Bander.q),
    (∀ b ∈ l, ¬ LuckyMany qs ρ b (chal R (stringAfter ρ b))) ∨ ∃ b ∈ l, LuckyMany qs ρ b (chal R (stringAfter ρ b)) ∧
      (tryMany qs ρ l).run R = forgedProof b (b / (sumE qs ρ (chal R (stringAfter ρ b))).ratio)
  | [] => Or.inl fun _ h => by simp at h
  | b :: l => by
    by_cases h : LuckyMany qs ρ b (chal R (stringAfter ρ b))
    · refine Or.inr ⟨b, List.mem_cons_self, h, ?_⟩
      have h' : LuckyMany qs ρ b (digestScalar (R (stringAfter ρ b))) := h
      rw [tryMany, Prog.run, if_pos h', Prog.run]
      rfl
    · have h' : ¬ LuckyMany qs ρ b (digestScalar (R (stringAfter ρ b))) := h
      rw [tryMany, Prog.run, if_neg h']
      rcases tryMany_run qs ρ R l with h1 | ⟨b', h1, h2, h3⟩
      · left
        intro b' hb'
        rcases List.mem_cons.1 hb' with rfl | hb'
        · exact h
        · exact h1 b' hb'
      · exact Or.inr ⟨b', List.mem_cons_of_mem _ h1, h2, h3⟩

/-- The forger fails only if it is unlucky with every `b`. -/
theorem forgerMany_fails {K : Ark} (hK : Formulas K) {ctx : ProofContext} (hctx : ProofContext.new = .ok ctx) {cs : List (List Byte)}
    {qs : List (BElem × Byte × ZMod r)} (hq : List.Forall₂ QueryForm cs qs) (hne : qs ≠ []) (h0 : ∀ x ∈ qs, x.2.2 = 0)
    {l : List (ZMod Bander.q)} (hl : ∀ b ∈ l, b ≠ 0) {R : List Byte → Digest}
    (hf : ¬ cVerifyProofUncompressed K (chal R) ctx ((forgerMany qs l).run R ++ cs.flatten) = .ok true) :
    ∀ b ∈ l, ¬ LuckyMany qs (chal R (stringR qs)) b (chal R (stringAfter (chal R (stringR qs)) b)) := by
  rcases tryMany_run qs (chal R (stringR qs)) R l with h | ⟨b, h1, ⟨h2, h3⟩, h4⟩
  · exact h
  · refine absurd ?_ hf
    have h5 : (forgerMany qs l).run R = (tryMany qs (chal R (stringR qs)) l).run R := rfl
    have h6 := C87_forgery hK (chal R) hctx hq hne h0 (hl b h1) rfl
    rw [(strings_eq (chal R) qs b).2, (strings_eq (chal R) qs b).1] at h6
    rw [h5, h4]
    exact h6 h2 h3

/-- The hashes with the challenge `ρ` for which the forger is unlucky with every `b`. -/
def UnluckyAt {D : Finset (List Byte)} (qs : List (BElem × Byte × ZMod r)) (H₀ : List Byte → Digest) (ρ : ZMod r) (l : List (ZMod Bander.q))
    (H : D → Digest) : Prop :=
  chal (over H₀ H) (stringR qs) = ρ ∧ ∀ b ∈ l, ¬ LuckyMany qs ρ b (chal (over H₀ H) (stringAfter ρ b))

theorem unluckyAt_cons {D : Finset (List Byte)} (hD : ∀ s : List Byte, s.length ≤ 67 → s ∈ D) (qs : List (BElem × Byte × ZMod r))
    (H₀ : List Byte → Digest) (ρ : ZMod r) {b : ZMod Bander.q} {l : List (ZMod Bander.q)} (hn : b ∉ l) :
    Fintype.card Digest * (Finset.univ.filter (UnluckyAt (D := D) qs H₀ ρ (b :: l))).card =
      (Finset.univ.filter (UnluckyAt (D := D) qs H₀ ρ l)).card * misses qs ρ b := by
  let place : D := ⟨stringAfter ρ b, hD _ (stringAfter_length _ _).le⟩
  have key : ∀ (H : D → Digest) d, UnluckyAt qs H₀ ρ (b :: l) (Function.update H place d) ↔
      UnluckyAt qs H₀ ρ l H ∧ ¬ LuckyMany qs ρ b (digestScalar d) := by
    intro H d
    unfold UnluckyAt
    rw [List.forall_mem_cons, and_comm (a := ¬ _), ← and_assoc]
    have hR : chal (over H₀ (Function.update H place d)) (stringR qs) = chal (over H₀ H) (stringR qs) := by
      unfold chal
      rw [over_update, if_neg (fun h => stringAfter_ne_R _ _ _ h.symm)]
    rw [hR]
    refine and_congr (and_congr Iff.rfl (forall₂_congr fun b' hb' => ?_)) ?_
    · have : chal (over H₀ (Function.update H place d)) (stringAfter ρ b') = chal (over H₀ H) (stringAfter ρ b') := by
        unfold chal
        rw [over_update, if_neg]
        intro h
        exact hn (stringAfter_inj _ h ▸ hb')
      rw [this]
    · have : chal (over H₀ (Function.update H place d)) (stringAfter ρ b) = digestScalar d := by
        unfold chal
        rw [over_update]
        exact congrArg _ (if_pos rfl)
      rw [this]
  have hsum := fibre_count (UnluckyAt (D := D) qs H₀ ρ (b :: l)) (fun _ => place) fun _ _ => rfl
  simp only [key] at hsum
  unfold misses
  rw [← hsum, ← Finset.sum_const_nat (fun _ _ => rfl), Finset.sum_filter]
  refine Finset.sum_congr rfl fun H _ => ?_
  split
  next h => simp only [h, true_and]
  next h => simp only [h, false_and, Finset.filter_false, Finset.card_empty]

/-- The `b` and `-b`. -/
def signed (l : List (ZMod Bander.q)) : List (ZMod Bander.q) := l.flatMap fun b => [b, -b]

theorem pair_step {N x y z w m1 m2 n : ℕ} (hpos : 0 < N) (e1 : N * x = y * m1) (e2 : N * y = z * m2) (hm : 10 * (m1 * m2) ≤ 3 * (N * N))
    (ih : 10 ^ n * z ≤ 3 ^ n * w) : 10 ^ (n + 1) * x ≤ 3 ^ (n + 1) * w := by
  rw [pow_succ, pow_succ]
  refine Nat.le_of_mul_le_mul_left ?_ (Nat.mul_pos hpos hpos)
  calc N * N * (10 ^ n * 10 * x) = 10 ^ n * 10 * N * (N * x) := by ring
    _ = 10 ^ n * 10 * m1 * (N * y) := by rw [e1]; ring
    _ = (10 ^ n * z) * (10 * (m1 * m2)) := by rw [e2]; ring
    _ ≤ (3 ^ n * w) * (3 * (N * N)) := Nat.mul_le_mul ih hm
    _ = N * N * (3 ^ n * 3 * w) := by ring

theorem unluckyAt_card {D : Finset (List Byte)} (hD : ∀ s : List Byte, s.length ≤ 67 → s ∈ D) {qs : List (BElem × Byte × ZMod r)}
    (H₀ : List Byte → Digest) {ρ : ZMod r} (h : (Finset.univ.filter fun t : ZMod r => sumE qs ρ t = 0).card ≤ 511) :
    ∀ {l : List (ZMod Bander.q)}, (signed l).Nodup → (∀ b ∈ l, b ≠ 0) →
      10 ^ l.length * (Finset.univ.filter (UnluckyAt (D := D) qs H₀ ρ (signed l))).card ≤
        3 ^ l.length * (Finset.univ.filter (UnluckyAt (D := D) qs H₀ ρ [])).card
  | [], _, _ => by simp [signed]
  | b :: l, hn, hb => by
    have hs : signed (b :: l) = b :: -b :: signed l := by rw [signed, List.flatMap_cons]; simp only [List.cons_append, List.nil_append]; rw [signed]
    rw [hs] at hn ⊢
    obtain ⟨hn1, hn2⟩ := List.nodup_cons.1 hn
    obtain ⟨hn3, hn4⟩ := List.nodup_cons.1 hn2
    have ih := unluckyAt_card hD H₀ h hn4 fun b' h => hb b' (List.mem_cons_of_mem _ h)
    have e1 := unluckyAt_cons hD qs H₀ ρ hn1
    have e2 := unluckyAt_cons hD qs H₀ ρ hn3
    have hm := misses_pair h (hb b List.mem_cons_self)
    rw [List.length_cons]
    exact pair_step (by rw [card_digest]; norm_num) e1 e2 hm ih

theorem stringR_length (qs : List (BElem × Byte × ZMod r)) : (stringR qs).length = 99 * qs.length + 17 := by
  unfold stringR
  have key : ∀ (l : List (BElem × Byte × ZMod r)) (t : Transcript), ((l.map toQuery).foldl (fun t q =>
      appendScalar (⟨codec, fun _ => 0⟩ : Oracle (ZMod r) BElem) (appendScalar (⟨codec, fun _ => 0⟩ : Oracle (ZMod r) BElem)
        (appendPoint (⟨codec, fun _ => 0⟩ : Oracle (ZMod r) BElem) t (lbl "C") q.commitment) (lbl "z") q.point) (lbl "y") q.result) t).length =
      t.length + 99 * l.length := by
    intro l
    induction l with
    | nil => intro t; simp
    | cons x l ih =>
      intro t
      rw [List.map_cons, List.foldl_cons, ih]
      simp only [appendScalar, appendPoint, appendMessage, List.length_append, codec.encS_len, codec.encE_len, List.length_cons]
      have h1 : (lbl "C").length = 1 := rfl
      have h2 : (lbl "z").length = 1 := rfl
      have h3 : (lbl "y").length = 1 := rfl
      omega
  unfold domainSep at key ⊢
  rw [List.length_append, key, List.length_append]
  have h1 : (lbl "r").length = 1 := rfl
  have h2 : (newTranscript (lbl "verkle")).length = 6 := rfl
  have h3 : (lbl "multiproof").length = 10 := rfl
  omega

/-- The hash at `s` gives a challenge in a set. -/
def BadAt {D : Finset (List Byte)} (s : List Byte) (H₀ : List Byte → Digest) (B : Finset (ZMod r)) (H : D → Digest) : Prop :=
  chal (over H₀ H) s ∈ B

theorem bad_card {D : Finset (List Byte)} {s : List Byte} (hs : s ∈ D) (H₀ : List Byte → Digest) (B : Finset (ZMod r)) :
    Fintype.card Digest * (Finset.univ.filter (BadAt (D := D) s H₀ B)).card ≤ 9 * B.card * Fintype.card Digest ^ D.card := by
  have hsum := fibre_count (BadAt (D := D) s H₀ B) (fun _ => ⟨s, hs⟩) fun _ _ => rfl
  have hone : ∀ H : D → Digest, (Finset.univ.filter fun e => BadAt s H₀ B (Function.update H ⟨s, hs⟩ e)).card ≤ 9 * B.card := by
    intro H
    refine digests_le _ fun d hd => ?_
    have h1 : BadAt s H₀ B (Function.update H ⟨s, hs⟩ d) := by
      simp only [Finset.mem_filter, Finset.mem_univ, true_and] at hd
      exact hd
    unfold BadAt chal at h1
    rwa [over_update, if_pos rfl] at h1
  rw [← hsum]
  refine (Finset.sum_le_card_nsmul _ _ (9 * B.card) fun H _ => hone H).trans ?_
  · rw [smul_eq_mul, Finset.card_univ, Fintype.card_fun (β := Digest), Fintype.card_coe, mul_comm]

theorem unlucky_all {D : Finset (List Byte)} (hD : ∀ s : List Byte, s.length ≤ 67 → s ∈ D) {qs : List (BElem × Byte × ZMod r)}
    (H₀ : List Byte → Digest) {B : Finset (ZMod r)} (hB : ∀ ρ, ρ ∉ B → (Finset.univ.filter fun t : ZMod r => sumE qs ρ t = 0).card ≤ 511)
    {l : List (ZMod Bander.q)} (hn : (signed l).Nodup) (hb : ∀ b ∈ l, b ≠ 0) :
    10 ^ l.length * (Finset.univ.filter fun H : D → Digest => chal (over H₀ H) (stringR qs) ∉ B ∧
      UnluckyAt qs H₀ (chal (over H₀ H) (stringR qs)) (signed l) H).card ≤ 3 ^ l.length * Fintype.card Digest ^ D.card := by
  have hsub : (Finset.univ.filter fun H : D → Digest => chal (over H₀ H) (stringR qs) ∉ B ∧
      UnluckyAt qs H₀ (chal (over H₀ H) (stringR qs)) (signed l) H) ⊆
      (Finset.univ.filter fun ρ : ZMod r => ρ ∉ B).biUnion fun ρ => Finset.univ.filter (UnluckyAt (D := D) qs H₀ ρ (signed l)) := by
    intro H hH
    obtain ⟨-, h1, h2⟩ := Finset.mem_filter.1 hH
    rw [Finset.mem_biUnion]
    exact ⟨_, Finset.mem_filter.2 ⟨Finset.mem_univ _, h1⟩, Finset.mem_filter.2 ⟨Finset.mem_univ _, h2⟩⟩
  have hcard : Fintype.card Digest ^ D.card = ∑ ρ : ZMod r, (Finset.univ.filter (UnluckyAt (D := D) qs H₀ ρ [])).card := by
    have h1 := Finset.card_eq_sum_card_fiberwise (s := (Finset.univ : Finset (D → Digest))) (t := (Finset.univ : Finset (ZMod r)))
      (f := fun H => chal (over H₀ H) (stringR qs)) fun _ _ => Finset.mem_coe.2 (Finset.mem_univ _)
    rw [Finset.card_univ, Fintype.card_fun (β := Digest), Fintype.card_coe] at h1
    rw [h1]
    refine Finset.sum_congr rfl fun ρ _ => congrArg Finset.card (Finset.filter_congr fun H _ => ?_)
    unfold UnluckyAt
    simp
  refine (Nat.mul_le_mul_left _ ((Finset.card_le_card hsub).trans Finset.card_biUnion_le)).trans ?_
  rw [Finset.mul_sum, hcard, Finset.mul_sum]
  refine (Finset.sum_le_sum fun ρ hρ => unluckyAt_card hD H₀ (hB ρ (Finset.mem_filter.1 hρ).2) hn hb).trans ?_
  exact Finset.sum_le_sum_of_subset (Finset.subset_univ _)

/-- The numbers from 1 to `k` with both signs. -/
theorem exists_signed {k : ℕ} (hk : k < 2 ^ 251) : ∃ l : List (ZMod Bander.q), l.length = k ∧ (signed l).Nodup ∧ ∀ b ∈ l, b ≠ 0 := by
  have hq : 2 ^ 252 < Bander.q := by decide +kernel
  have hval : ∀ i : ℕ, i < k → ((i + 1 : ℕ) : ZMod Bander.q).val = i + 1 := fun i hi => ZMod.val_natCast_of_lt (by omega)
  have hval' : ∀ i : ℕ, i < k → (-((i + 1 : ℕ) : ZMod Bander.q)).val = Bander.q - (i + 1) := fun i hi => by
    have hne : ((i + 1 : ℕ) : ZMod Bander.q) ≠ 0 := fun h => by
      have := congrArg ZMod.val h
      rw [hval i hi, ZMod.val_zero] at this
      omega
    have : NeZero ((i + 1 : ℕ) : ZMod Bander.q) := ⟨hne⟩
    rw [ZMod.val_neg_of_ne_zero, hval i hi]
  refine ⟨(List.range k).map fun i : ℕ => ((i + 1 : ℕ) : ZMod Bander.q), by rw [List.length_map, List.length_range], ?_, ?_⟩
  · unfold signed
    rw [List.flatMap_map, List.nodup_flatMap]
    constructor
    · intro i hi
      rw [List.nodup_cons, List.mem_singleton]
      refine ⟨fun h => ?_, List.nodup_singleton _⟩
      have := congrArg ZMod.val h
      rw [hval i (List.mem_range.1 hi), hval' i (List.mem_range.1 hi)] at this
      have := List.mem_range.1 hi
      omega
    · refine List.Pairwise.imp_of_mem ?_ (List.nodup_range (n := k))
      intro i j hi hj hij b hb hb'
      have hi := List.mem_range.1 hi
      have hj := List.mem_range.1 hj
      simp only [List.mem_cons, List.not_mem_nil, or_false] at hb hb'
      rcases hb with rfl | rfl <;> rcases hb' with h | h <;> replace h := congrArg ZMod.val h
      · rw [hval i hi, hval j hj] at h; omega
      · rw [hval i hi, hval' j hj] at h; omega
      · rw [hval' i hi, hval j hj] at h; omega
      · rw [hval' i hi, hval' j hj] at h; omega
  · intro b hb h
    obtain ⟨i, hi, rfl⟩ := List.mem_map.1 hb
    have := congrArg ZMod.val h
    rw [hval i (List.mem_range.1 hi), ZMod.val_zero] at this
    omega

theorem signed_mem {l : List (ZMod Bander.q)} (h : ∀ b ∈ l, b ≠ 0) : ∀ b ∈ signed l, b ≠ 0 := by
  intro b hb
  obtain ⟨c, hc, hb⟩ := List.mem_flatMap.1 hb
  simp only [List.mem_cons, List.not_mem_nil, or_false] at hb
  rcases hb with rfl | rfl
  · exact h _ hc
  · exact neg_ne_zero.2 (h _ hc)

theorem signed_length : ∀ l : List (ZMod Bander.q), (signed l).length = 2 * l.length
  | [] => rfl
  | b :: l => by
    have := signed_length l
    unfold signed at this ⊢
    rw [List.flatMap_cons, List.length_append, this, List.length_cons, List.length_cons, List.length_cons, List.length_nil]
    omega

theorem many_step {N x y z b m u a c : ℕ} (hB : b ≤ m) (h1 : N * y ≤ 9 * b * u) (h2 : a * z ≤ c * u) (h3 : x ≤ y + z) :
    N * (a * x) ≤ (N * c + a * (9 * m)) * u := by
  calc N * (a * x) ≤ N * (a * (y + z)) := Nat.mul_le_mul_left _ (Nat.mul_le_mul_left _ h3)
    _ = N * (a * z) + a * (N * y) := by ring
    _ ≤ N * (c * u) + a * (9 * m * u) :=
      Nat.add_le_add (Nat.mul_le_mul_left _ h2) (Nat.mul_le_mul_left _ (h1.trans (Nat.mul_le_mul_right _ (Nat.mul_le_mul_left _ hB))))
    _ = (N * c + a * (9 * m)) * u := by ring

/-- C87 for many claims.  Let `qs` be any claims that values of vectors are zero, not all commitments being the neutral element, in uncompressed
form.  A program that asks the hash `2 k + 1` times forges one proof of all of them, for all hashes but a part of `(3/10)ᵏ + 9 |qs| / 2²⁵⁶`. -/
theorem C87_program_many {K : Ark} (hK : Formulas K) {ctx : ProofContext} (hctx : ProofContext.new = .ok ctx) {cs : List (List Byte)}
    {qs : List (BElem × Byte × ZMod r)} (hq : List.Forall₂ QueryForm cs qs) (hne : ∃ x ∈ qs, x.1 ≠ 0) (h0 : ∀ x ∈ qs, x.2.2 = 0)
    {k : ℕ} (hk : k < 2 ^ 251) :
    ∃ A : Prog (List Byte) Digest (List Byte), A.Within (2 * k + 1) ∧ ∀ (H₀ : List Byte → Digest) (D : Finset (List Byte)),
      (∀ s : List Byte, s.length ≤ 99 * qs.length + 67 → s ∈ D) →
      Fintype.card Digest * (10 ^ k * Fintype.card {H : D → Digest //
          ¬ cVerifyProofUncompressed K (chal (over H₀ H)) ctx (A.run (over H₀ H) ++ cs.flatten) = .ok true}) ≤
        (Fintype.card Digest * 3 ^ k + 10 ^ k * (9 * qs.length)) * Fintype.card Digest ^ D.card := by
  obtain ⟨l, hlen, hnd, hb⟩ := exists_signed hk
  obtain ⟨B, hB, hfew⟩ := sumE_zero_few hne
  have hne' : qs ≠ [] := by
    rintro rfl
    obtain ⟨x, hx, -⟩ := hne
    simp at hx
  refine ⟨forgerMany qs (signed l), fun d => ?_, fun H₀ D hD => ?_⟩
  · have := tryMany_within qs (digestScalar d) (signed l)
    rwa [signed_length, hlen] at this
  · have h1 := bad_card (hD (stringR qs) (by rw [stringR_length]; omega)) H₀ B
    have h2 := unlucky_all (fun s hs => hD s (by omega)) H₀ hfew hnd hb
    rw [hlen] at h2
    have h3 : Fintype.card {H : D → Digest // ¬ cVerifyProofUncompressed K (chal (over H₀ H)) ctx
        ((forgerMany qs (signed l)).run (over H₀ H) ++ cs.flatten) = .ok true} ≤
        (Finset.univ.filter (BadAt (D := D) (stringR qs) H₀ B)).card +
        (Finset.univ.filter fun H : D → Digest => chal (over H₀ H) (stringR qs) ∉ B ∧
          UnluckyAt qs H₀ (chal (over H₀ H) (stringR qs)) (signed l) H).card := by
      rw [Fintype.card_subtype]
      refine le_trans (Finset.card_le_card fun H hH => ?_) (Finset.card_union_le _ _)
      rw [Finset.mem_union]
      by_cases hρ : chal (over H₀ H) (stringR qs) ∈ B
      · exact Or.inl (Finset.mem_filter.2 ⟨Finset.mem_univ _, hρ⟩)
      · exact Or.inr (Finset.mem_filter.2 ⟨Finset.mem_univ _, hρ, rfl,
          forgerMany_fails hK hctx hq hne' h0 (signed_mem hb) (Finset.mem_filter.1 hH).2⟩)
    exact many_step hB h1 h2 h3

/-! ### Absence of many keys -/

section
variable {F G : Type} [Field F] [AddCommGroup G] [Module F G]

/-- The hint that says that nothing is at depth one, for every stem. -/
def nothingHint (keys : List Key) : VerificationHint :=
  ⟨List.replicate (stemsOf keys).length 1, List.replicate (stemsOf keys).length .none, []⟩

/-- The first byte of a key. -/
def firstByte (k : Key) : Byte := k.1.headD 0

theorem nothingHint_get {keys : List Key} {k : Key} (hk : k ∈ keys) :
    BMap.get k.stem (hintByStem (nothingHint keys) (stemsOf keys)) = some (.none, 1) := by
  rw [get_hintByStem]
  have hs : k.stem ∈ stemsOf keys := mem_stemsOf.2 ⟨k, hk, rfl⟩
  unfold nothingHint
  generalize stemsOf keys = l at hs
  show ((k.stem, 1), ExtPresent.none) ∈ (List.zip l (List.replicate l.length 1)).zip (List.replicate l.length ExtPresent.none)
  induction l with
  | nil => simp at hs
  | cons a l ih =>
    rw [List.length_cons, List.replicate_succ, List.replicate_succ, List.zip_cons_cons, List.zip_cons_cons, List.mem_cons]
    rcases List.mem_cons.1 hs with h | h
    · left
      rw [h]
    · exact Or.inr (ih h)

/-- What the verifier has collected after the keys `ks`. -/
structure Nothing (ks : List Key) (st : VState F) : Prop where
  used : st.otherStemsUsed = []
  paths : ks ≠ [] → st.allPaths = [[]]
  paths0 : st.allPaths = [] ∨ st.allPaths = [[]]
  asc : Ascending st.allPathsZs
  zs : ∀ x, x ∈ st.allPathsZs ↔ x.1 = [] ∧ ∃ k ∈ ks, firstByte k = x.2
  sorted : BMap.Sorted st.leafVals
  leaf : ∀ x ∈ st.allPathsZs, BMap.get x st.leafVals = some 0

theorem nothing_step {keys ks : List Key} {st : VState F} (h : Nothing ks st) {k : Key} (hk : k ∈ keys) :
    ∃ st', keyStep (nothingHint keys) (hintByStem (nothingHint keys) (stemsOf keys)) (stemsWithExtension (nothingHint keys) (stemsOf keys)) k none st =
      .ok (some st') ∧ Nothing (ks ++ [k]) st' := by
  have hget := nothingHint_get hk
  obtain ⟨k, hl⟩ := k
  obtain ⟨z, k', rfl⟩ : ∃ z k', k = z :: k' := by
    cases k with
    | nil => exact absurd hl (by simp)
    | cons z k' => exact ⟨z, k', rfl⟩
  have hstem : (Key.stem ⟨z :: k', hl⟩).1 = z :: k'.take 30 := rfl
  have hfirst : firstByte ⟨z :: k', hl⟩ = z := rfl
  refine ⟨⟨st.otherStemsUsed, BSet.insert [] st.allPaths, BSet.insert ([], z) st.allPathsZs, BMap.insert ([], z) 0 st.leafVals, st.otherStems⟩, ?_, ?_⟩
  · unfold keyStep
    simp only [hget]
    simp [unwrap, bind, Except.bind, branchLoop, noneStep, hstem]
  · constructor
    · exact h.used
    · intro _
      rcases h.paths0 with e | e <;> simp [e, BSet.insert, BOrd.ltSelf]
    · right
      rcases h.paths0 with e | e <;> simp [e, BSet.insert, BOrd.ltSelf]
    · exact BSet.asc_insert _ h.asc
    · intro x
      rw [BSet.mem_insert, h.zs]
      constructor
      · rintro (rfl | ⟨h1, k0, h2, h3⟩)
        · exact ⟨rfl, _, List.mem_append_right _ (List.mem_singleton.2 rfl), hfirst⟩
        · exact ⟨h1, k0, List.mem_append_left _ h2, h3⟩
      · rintro ⟨h1, k0, h2, h3⟩
        rcases List.mem_append.1 h2 with h2 | h2
        · exact Or.inr ⟨h1, k0, h2, h3⟩
        · left
          rw [List.mem_singleton.1 h2, hfirst] at h3
          exact Prod.ext h1 h3.symm
    · exact BMap.sorted_insert _ _ h.sorted
    · intro x hx
      dsimp only
      rw [BMap.get_insert _ _ _ h.sorted]
      split
      · rfl
      next hne =>
        rcases (BSet.mem_insert _ _ _).1 hx with e | e
        · exact absurd e hne
        · exact h.leaf x e

theorem nothing_loop {keys : List Key} : ∀ (ks done : List Key) {st : VState F}, Nothing done st → (∀ k ∈ ks, k ∈ keys) →
    ∃ st', keyLoop (nothingHint keys) (hintByStem (nothingHint keys) (stemsOf keys)) (stemsWithExtension (nothingHint keys) (stemsOf keys))
      (ks.zip (ks.map fun _ => none)) st = .ok (some st') ∧ Nothing (done ++ ks) st'
  | [], done, st, h, _ => ⟨st, rfl, by rwa [List.append_nil]⟩
  | k :: ks, done, st, h, hk => by
    obtain ⟨st1, h1, h2⟩ := nothing_step h (hk k List.mem_cons_self)
    obtain ⟨st2, h3, h4⟩ := nothing_loop ks (done ++ [k]) h2 fun k' h => hk k' (List.mem_cons_of_mem _ h)
    refine ⟨st2, ?_, by rwa [List.append_assoc, List.singleton_append] at h4⟩
    rw [List.map_cons, List.zip_cons_cons, keyLoop]
    simp only [bind, Except.bind, h1]
    exact h3

theorem mapM_const {α β : Type} {f : α → Res β} {g : α → β} : ∀ {l : List α}, (∀ x ∈ l, f x = .ok (g x)) → l.mapM f = .ok (l.map g)
  | [], _ => rfl
  | x :: l, h => by
    rw [List.mapM_cons, h x List.mem_cons_self, mapM_const fun y hy => h y (List.mem_cons_of_mem _ hy)]
    rfl

/-- For keys without values and the hint that says that nothing is at depth one, the verifier of the trie asks, once for every first byte of a key,
whether the root is zero there. -/
theorem absence_queries_many (C : Crypto F G) (root : G) {keys : List Key} (hne : keys ≠ []) :
    ∃ (zs : List Byte) (uh : UpdateHint G), zs ≠ [] ∧ zs.Nodup ∧ (∀ z, z ∈ zs ↔ ∃ k ∈ keys, k.1.head? = some z) ∧
      createVerifierQueries C (nothingHint keys) [] keys (keys.map fun _ => none) root =
        .ok (some (zs.map fun z => ⟨root, ((z.val : ℕ) : F), 0⟩, uh)) := by
  have hinit : Nothing (F := F) [] ⟨[], [], [], [], []⟩ :=
    ⟨rfl, fun h => absurd rfl h, Or.inl rfl, List.Pairwise.nil, fun x => by simp, List.Pairwise.nil, fun x hx => by simp at hx⟩
  obtain ⟨st, h1, h2⟩ := nothing_loop (keys := keys) keys [] hinit fun _ h => h
  rw [List.nil_append] at h2
  have hfirst : ∀ (k : Key) z, k.1.head? = some z ↔ firstByte k = z := by
    intro k z
    obtain ⟨k, hk⟩ := k
    cases k with
    | nil => exact absurd hk (by simp)
    | cons a k => simp [firstByte]
  have hpaths := h2.paths hne
  refine ⟨st.allPathsZs.map Prod.snd, ⟨hintByStem (nothingHint keys) (stemsOf keys), [([], root)], st.otherStems⟩, ?_, ?_, ?_, ?_⟩
  · obtain ⟨k, hk⟩ := List.exists_mem_of_ne_nil _ hne
    have := (h2.zs ([], firstByte k)).2 ⟨rfl, k, hk, rfl⟩
    intro h
    rw [List.map_eq_nil_iff] at h
    rw [h] at this
    simp at this
  · refine List.Nodup.map_on ?_ h2.asc.nodup
    intro x hx y hy h
    exact Prod.ext (((h2.zs x).1 hx).1.trans ((h2.zs y).1 hy).1.symm) h
  · intro z
    rw [List.mem_map]
    constructor
    · rintro ⟨x, hx, rfl⟩
      obtain ⟨-, k, hk, e⟩ := (h2.zs x).1 hx
      exact ⟨k, hk, (hfirst k _).2 e⟩
    · rintro ⟨k, hk, e⟩
      exact ⟨([], z), (h2.zs _).2 ⟨rfl, k, hk, (hfirst k z).1 e⟩, rfl⟩
  · unfold createVerifierQueries
    have h1' := h1
    unfold stemsOf at h1'
    simp only [bind, Except.bind, h1']
    have hm : st.allPathsZs.mapM (fun pz => (unwrap "no commitment for the path" (BMap.get pz.1 [(([] : Path), root)])).bind fun c =>
        (.ok (⟨c, ((pz.2.val : ℕ) : F), claimedValue C st.leafVals [(([] : Path), root)] pz.1 pz.2⟩ : VerifierQuery F G) : Res _)) =
        .ok (st.allPathsZs.map fun pz => (⟨root, ((pz.2.val : ℕ) : F), 0⟩ : VerifierQuery F G)) := by
      refine mapM_const fun x hx => ?_
      have e1 := ((h2.zs x).1 hx).1
      have e2 := h2.leaf x hx
      obtain ⟨p, z⟩ := x
      obtain rfl : p = [] := e1
      simp [BMap.get, BOrd.ltSelf, unwrap, Except.bind, claimedValue, e2]
    unfold assemble
    rw [h2.used, hpaths]
    simp only [nothingHint, ne_eq, not_true_eq_false, if_false, List.length_cons, List.length_nil, List.zip_cons_cons, bind,
      List.zip_nil_right]
    rw [hm]
    simp [Except.bind, List.map_map, Function.comp_def, stemsOf]

end

/-- **C87** (absence of many keys).  For every root of a trie other than the neutral element, and all keys, in the trie or not: the hint that says that nothing is at depth one makes the
verifier ask at most 256 questions about the root, and a program that asks the hash `2 k + 1` times makes one proof of the answers which
`verify_proof_uncompressed` accepts, for all hashes but a part of `(3/10)ᵏ + 9 · 256 / 2²⁵⁶`. -/
theorem C87_absence_many {root : BElem} (h0 : root ≠ 0) {keys : List Key} (hne : keys ≠ []) :
    ∃ (zs : List Byte) (uh : UpdateHint BElem) (cs : List (List Byte)), (∀ z, z ∈ zs ↔ ∃ k ∈ keys, k.1.head? = some z) ∧
      createVerifierQueries crypto (nothingHint keys) [] keys (keys.map fun _ => none) root =
        .ok (some (zs.map fun z => toQuery (root, z, (0 : ZMod r)), uh)) ∧
      List.Forall₂ QueryForm cs (zs.map fun z => (root, z, 0)) ∧
      ∀ (K : Ark) (ctx : ProofContext), Formulas K → ProofContext.new = .ok ctx → ∀ k : ℕ, k < 2 ^ 251 →
      ∃ A : Prog (List Byte) Digest (List Byte), A.Within (2 * k + 1) ∧ ∀ (H₀ : List Byte → Digest) (D : Finset (List Byte)),
        (∀ s : List Byte, s.length ≤ 99 * 256 + 67 → s ∈ D) →
        Fintype.card Digest * (10 ^ k * Fintype.card {H : D → Digest //
            ¬ cVerifyProofUncompressed K (chal (over H₀ H)) ctx (A.run (over H₀ H) ++ cs.flatten) = .ok true}) ≤
          (Fintype.card Digest * 3 ^ k + 10 ^ k * (9 * 256)) * Fintype.card Digest ^ D.card := by
  obtain ⟨zs, uh, hz, hnd, hmem, hq⟩ := absence_queries_many crypto root hne
  have hlen : zs.length ≤ 256 := by
    have := hnd.length_le_card
    rwa [Fintype.card_fin] at this
  have hcs : ∀ l : List Byte, ∃ cs : List (List Byte), List.Forall₂ QueryForm cs (l.map fun z => (root, z, (0 : ZMod r))) := by
    intro l
    induction l with
    | nil => exact ⟨[], .nil⟩
    | cons z l ih =>
      obtain ⟨cs, hcs⟩ := ih
      obtain ⟨b, hb⟩ := exists_denotes root
      exact ⟨_ :: cs, .cons ⟨b, hb, rfl⟩ hcs⟩
  obtain ⟨cs, hcs⟩ := hcs zs
  refine ⟨zs, uh, cs, hmem, hq, hcs, fun K ctx hK hctx k hk => ?_⟩
  obtain ⟨z, hz⟩ := List.exists_mem_of_ne_nil _ hz
  obtain ⟨A, hA, h⟩ := C87_program_many hK hctx hcs ⟨(root, z, 0), List.mem_map.2 ⟨z, hz, rfl⟩, h0⟩ (fun x hx => by
    obtain ⟨z, -, rfl⟩ := List.mem_map.1 hx
    rfl) hk
  refine ⟨A, hA, fun H₀ D hD => (h H₀ D fun s hs => hD s ?_).trans ?_⟩
  · rw [List.length_map] at hs
    omega
  · rw [List.length_map]
    exact Nat.mul_le_mul_right _ (Nat.add_le_add_left (Nat.mul_le_mul_left _ (Nat.mul_le_mul_left _ hlen)) _)

/-- Two claims about a commitment that is not zero meet the hypotheses: it is said to be zero at three and at five. -/
example : ∃ cs : List (List Byte), List.Forall₂ QueryForm cs [(crypto.g 3, 3, (0 : ZMod r)), (crypto.g 3, 5, 0)] ∧
    (∃ x ∈ [(crypto.g 3, (3 : Byte), (0 : ZMod r)), (crypto.g 3, 5, 0)], x.1 ≠ 0) ∧
    (∀ x ∈ [(crypto.g 3, (3 : Byte), (0 : ZMod r)), (crypto.g 3, 5, 0)], x.2.2 = 0) := by
  obtain ⟨b, hb⟩ := exists_denotes (crypto.g 3)
  exact ⟨_, .cons ⟨b, hb, rfl⟩ (.cons ⟨b, hb, rfl⟩ .nil), ⟨_, List.mem_cons_self, g3_ne⟩, by simp⟩

end Verif.Props
