import Verif.Ipa.Lagrange
import Verif.Props.Concrete

/-!
# The tables of weights, evaluated

The weights are factorials up to sign, which the kernel evaluates faster than the products of differences.
-/

set_option autoImplicit false

namespace Verif.Vectors
open Proof Bander Ipa Wire

/-- The factorial, by the recursor. -/
def fac (n : ℕ) : ℕ := Nat.rec 1 (fun k m => (k + 1) * m) n

/-- `(-1) ^ (n - 1 - j) j! (n - 1 - j)!`. -/
def facWeight (n j : ℕ) : ZMod r := (if (n - 1 - j) % 2 = 1 then -1 else 1) * ((fac j * fac (n - 1 - j) : ℕ) : ZMod r)

theorem fac_prod (m : ℕ) : ((fac m : ℕ) : ZMod r) = ∏ i ∈ Finset.range m, ((i + 1 : ℕ) : ZMod r) := by
  induction m with
  | zero => simp [fac]
  | succ m ih =>
    have : fac (m + 1) = (m + 1) * fac m := rfl
    rw [this, Nat.cast_mul, ih, Finset.prod_range_succ, mul_comm]

theorem below (j : ℕ) : ∏ e ∈ Finset.range j, ((j : ZMod r) - (e : ZMod r)) = (fac j : ZMod r) := by
  rw [fac_prod, ← Finset.prod_range_reflect (fun e : ℕ => ((j : ℕ) : ZMod r) - (e : ZMod r)) j]
  apply Finset.prod_congr rfl
  intro i hi
  rw [Finset.mem_range] at hi
  rw [← Nat.cast_sub (by omega)]
  congr 1
  omega

theorem above (j m : ℕ) : ∏ e ∈ Finset.range m, ((j : ZMod r) - ((j + 1 + e : ℕ) : ZMod r)) = (-1) ^ m * (fac m : ZMod r) := by
  induction m with
  | zero => simp [fac]
  | succ m ih =>
    have : fac (m + 1) = (m + 1) * fac m := rfl
    rw [Finset.prod_range_succ, ih, this, pow_succ]
    push_cast
    ring

theorem baryWeight_fac {n j : ℕ} (hj : j < n) : baryWeight (ZMod r) j n = facWeight n j := by
  obtain ⟨m, rfl⟩ : ∃ m, n = j + 1 + m := ⟨n - j - 1, by omega⟩
  rw [baryWeight_eq]
  have e : (Finset.range (j + 1 + m)).erase j = Finset.range j ∪ (Finset.range m).map (addLeftEmbedding (j + 1)) := by
    ext i
    simp only [Finset.mem_erase, Finset.mem_range, Finset.mem_union, Finset.mem_map, addLeftEmbedding_apply]
    constructor
    · rintro ⟨h1, h2⟩
      rcases Nat.lt_or_ge i j with h | h
      · exact .inl h
      · exact .inr ⟨i - (j + 1), by omega, by omega⟩
    · rintro (h | ⟨k, h1, h2⟩) <;> constructor <;> omega
  rw [e, Finset.prod_union, Finset.prod_map, below]
  · have h2 := above j m
    simp only [addLeftEmbedding_apply]
    rw [h2, facWeight]
    have hm : j + 1 + m - 1 - j = m := by omega
    rw [hm, Nat.cast_mul]
    have hp : (-1 : ZMod r) ^ m = if m % 2 = 1 then -1 else 1 := by
      split
      next h => exact Odd.neg_one_pow (Nat.odd_iff.2 h)
      next h => exact Even.neg_one_pow (Nat.even_iff.2 (by omega))
    rw [hp]
    ring
  · rw [Finset.disjoint_left]
    intro i hi h
    simp only [Finset.mem_range, Finset.mem_map, addLeftEmbedding_apply] at hi h
    obtain ⟨k, -, h⟩ := h
    omega

/-- The tables. -/
def tables : Weights (ZMod r) :=
  let ws := (List.range 256).map (facWeight 256)
  let ks := (List.range 255).map fun i => ((i + 1 : ℕ) : ZMod r)⁻¹
  ⟨ws ++ ws.map (·⁻¹), ks ++ ks.map (-·)⟩

theorem weights_eq : Weights.new (ZMod r) 256 = .ok tables := by
  have hF : Distinct (ZMod r) 256 := Props.C52_scalar_field.2.1
  have h0 : ((List.range 256).map fun i => baryWeight (ZMod r) i 256) = (List.range 256).map (facWeight 256) :=
    List.map_congr_left fun i hi => baryWeight_fac (List.mem_range.1 hi)
  have h1 : ((List.range 256).map fun i => baryWeight (ZMod r) i 256).mapM invUnwrap =
      .ok (((List.range 256).map fun i => baryWeight (ZMod r) i 256).map (·⁻¹)) := by
    apply Ipa.mapM_ok
    intro x hx
    simp only [List.mem_map, List.mem_range] at hx
    obtain ⟨i, hi, rfl⟩ := hx
    rw [invUnwrap, if_neg (baryWeight_ne_zero hF hi)]
  have h2 : ((List.range (256 - 1)).mapM fun i => invUnwrap ((i + 1 : ℕ) : ZMod r)) =
      .ok ((List.range (256 - 1)).map fun i => ((i + 1 : ℕ) : ZMod r)⁻¹) := by
    apply Ipa.mapM_ok
    intro i hi
    simp only [List.mem_range] at hi
    rw [invUnwrap, if_neg]
    intro h
    have := hF (i + 1) 0 (by omega) (by omega) (by rw [h]; simp)
    omega
  rw [h0] at h1
  unfold Weights.new
  simp only [h0, h1, h2, bind, Except.bind, if_neg (show (256 : ℕ) ≠ 0 by omega)]
  rfl

end Verif.Vectors
