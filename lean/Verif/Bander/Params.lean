import Verif.Bander.Curve
import Mathlib.NumberTheory.LucasPrimality
import Mathlib.NumberTheory.LegendreSymbol.Basic
import Mathlib.Tactic.NormNum.Prime

/-!
# The parameters of Bandersnatch

The source takes them from `ark_ed_on_bls12_381_bandersnatch` (`element.rs:2`), which is not in the repository; they are the
constants of that crate (`Fq` = scalar field of BLS12-381, `COEFF_A = -5`, `COEFF_D`).  The properties used by the theorems about
group elements are proved here: `q` is prime, `a` and `d` are not squares, `-1` is a square.
-/

set_option autoImplicit false

namespace Verif.Bander

/-- `b ^ e mod m`, by squaring. -/
def powMod (m : ℕ) : ℕ → ℕ → ℕ → ℕ
  | 0, _, _ => 1
  | n + 1, b, e => if e % 2 = 1 then b * powMod m n (b * b % m) (e / 2) % m else powMod m n (b * b % m) (e / 2)

theorem powMod_eq (m : ℕ) : ∀ (n b e : ℕ), e < 2 ^ n → (powMod m n b e : ZMod m) = (b : ZMod m) ^ e
  | 0, b, e, h => by
    have : e = 0 := by simpa using h
    simp [powMod, this]
  | n + 1, b, e, h => by
    have ih := powMod_eq m n (b * b % m) (e / 2) (by rw [pow_succ] at h; omega)
    have hb : ((b * b % m : ℕ) : ZMod m) = (b : ZMod m) ^ 2 := by simp [pow_two]
    rw [hb, ← pow_mul] at ih
    unfold powMod
    split
    · next h1 =>
      rw [ZMod.natCast_mod, Nat.cast_mul, ih, ← pow_succ']
      congr 1
      omega
    · next h1 =>
      rw [ih]
      congr 1
      omega

/-- The base field modulus. -/
def q : ℕ := 0x73eda753299d7d483339d80809a1d80553bda402fffe5bfeffffffff00000001

/-- Lucas' test, with powers computed by `powMod`. -/
theorem prime_of_powMod (p g : ℕ) (hp : 1 < p) (hb : p < 2 ^ 256) (h1 : powMod p 256 g (p - 1) = 1)
    (h : ∀ f, f.Prime → f ∣ p - 1 → powMod p 256 g ((p - 1) / f) % p ≠ 1) : p.Prime := by
  have : NeZero p := ⟨by omega⟩
  refine lucas_primality p (g : ZMod p) ?_ ?_
  · rw [← powMod_eq p 256 g _ (by omega), h1, Nat.cast_one]
  · intro f hf hd he
    rw [← powMod_eq p 256 g _ (lt_of_le_of_lt (Nat.div_le_self _ _) (by omega))] at he
    apply h f hf hd
    have := congrArg ZMod.val he
    rw [ZMod.val_natCast] at this
    rw [this]
    have : Fact (1 < p) := ⟨hp⟩
    exact ZMod.val_one p

/-- A certificate of primality: a generator and the factors of `p - 1`. -/
theorem prime_of_cert (p g : ℕ) (l : List ℕ) (hl : ∀ f ∈ l, f.Prime)
    (h : (1 < p ∧ p < 2 ^ 256 ∧ p - 1 = l.prod ∧ powMod p 256 g (p - 1) = 1) ∧ ∀ f ∈ l, powMod p 256 g ((p - 1) / f) % p ≠ 1) :
    p.Prime := by
  obtain ⟨⟨h1, h2, h3, h4⟩, h5⟩ := h
  refine prime_of_powMod p g h1 h2 h4 fun f hf hd => h5 f ?_
  rw [h3] at hd
  exact mem_list_primes_of_dvd_prod hf.prime (fun x hx => (hl x hx).prime) hd

theorem q_prime : q.Prime := by
  refine prime_of_cert q 7 (List.replicate 32 2 ++ [3, 11, 19, 10177, 125527, 859267, 906349, 906349, 2508409, 2529403, 52437899, 254760293,
    254760293]) ?_ (by decide +kernel)
  simp only [List.mem_append, List.mem_replicate, List.mem_cons, List.not_mem_nil, or_false]
  rintro f (⟨-, rfl⟩ | rfl | rfl | rfl | rfl | rfl | rfl | rfl | rfl | rfl | rfl | rfl | rfl | rfl) <;> norm_num

/-- The order of the scalar field. -/
def r : ℕ := 0x1cfb69d4ca675f520cce760202687600ff8f87007419047174fd06b52876e7e1

theorem r_prime : r.Prime := by
  have p1 : Nat.Prime 66913960865519628631 := by
    refine prime_of_cert _ 15 [2, 3, 3, 5, 7, 11, 17, 21762199, 26099477] ?_ (by decide +kernel)
    simp only [List.mem_cons, List.not_mem_nil, or_false]
    rintro f (rfl | rfl | rfl | rfl | rfl | rfl | rfl | rfl | rfl) <;> norm_num
  have p2 : Nat.Prime 45317215763 := by
    refine prime_of_cert _ 2 [2, 7, 7, 13, 2861, 12433] ?_ (by decide +kernel)
    simp only [List.mem_cons, List.not_mem_nil, or_false]
    rintro f (rfl | rfl | rfl | rfl | rfl | rfl) <;> norm_num
  have p3 : Nat.Prime 55352597255927763854484663053009063 := by
    refine prime_of_cert _ 5 [2, 9127, 45317215763, 66913960865519628631] ?_ (by decide +kernel)
    simp only [List.mem_cons, List.not_mem_nil, or_false]
    rintro f (rfl | rfl | rfl | rfl)
    · norm_num
    · norm_num
    · exact p2
    · exact p1
  have p4 : Nat.Prime 55538253751298627 := by
    refine prime_of_cert _ 5 [2, 7, 11, 19, 175543, 108127057] ?_ (by decide +kernel)
    simp only [List.mem_cons, List.not_mem_nil, or_false]
    rintro f (rfl | rfl | rfl | rfl | rfl | rfl) <;> norm_num
  have p5 : Nat.Prime 2038476065687664805409 := by
    refine prime_of_cert _ 3 [2, 2, 2, 2, 2, 31, 37, 55538253751298627] ?_ (by decide +kernel)
    simp only [List.mem_cons, List.not_mem_nil, or_false]
    rintro f (rfl | rfl | rfl | rfl | rfl | rfl | rfl | rfl)
    iterate 7 norm_num
    exact p4
  have p6 : Nat.Prime 5188382954213 := by
    refine prime_of_cert _ 2 [2, 2, 53, 28771, 850631] ?_ (by decide +kernel)
    simp only [List.mem_cons, List.not_mem_nil, or_false]
    rintro f (rfl | rfl | rfl | rfl | rfl) <;> norm_num
  have p7 : Nat.Prime 48407612962807291 := by
    refine prime_of_cert _ 2 [2, 3, 5, 311, 5188382954213] ?_ (by decide +kernel)
    simp only [List.mem_cons, List.not_mem_nil, or_false]
    rintro f (rfl | rfl | rfl | rfl | rfl)
    iterate 4 norm_num
    exact p6
  refine prime_of_cert r 7 [2, 2, 2, 2, 2, 3, 5, 5, 48407612962807291, 2038476065687664805409, 55352597255927763854484663053009063] ?_
    (by decide +kernel)
  simp only [List.mem_cons, List.not_mem_nil, or_false]
  rintro f (rfl | rfl | rfl | rfl | rfl | rfl | rfl | rfl | rfl | rfl | rfl)
  iterate 8 norm_num
  · exact p7
  · exact p5
  · exact p3

instance : Fact r.Prime := ⟨r_prime⟩

instance : Fact q.Prime := ⟨q_prime⟩

/-- `BandersnatchConfig::COEFF_A`. -/
def coeffA : ZMod q := -5

/-- `BandersnatchConfig::COEFF_D`. -/
def coeffD : ZMod q := (45022363124591815672509500913686876175488063829319466900776701791074614335719 : ℕ)

/-- Over a prime field with `q % 4 = 1`, nonsquares `a`, `d` suffice. -/
theorem good_of {p : ℕ} [Fact p.Prime] (hp : p % 4 = 1) {a d : ZMod p} (ha : a ^ (p / 2) = -1) (hd : d ^ (p / 2) = -1) : Good a d := by
  have : Fact (2 < p) := ⟨by
    have := (Fact.out : p.Prime).two_le
    omega⟩
  have h11 : (-1 : ZMod p) ≠ 1 := ZMod.neg_one_ne_one
  have h0 : p / 2 ≠ 0 := by
    have := (Fact.out : 2 < p)
    omega
  have non : ∀ {a : ZMod p}, a ≠ 0 → (IsSquare a ↔ a ^ (p / 2) = 1) := fun h => ZMod.euler_criterion p h
  have ne : ∀ {a : ZMod p}, a ^ (p / 2) = -1 → a ≠ 0 := by
    rintro _ h rfl
    rw [zero_pow h0] at h
    exact one_ne_zero (by rw [← neg_neg (1 : ZMod p), ← h, neg_zero])
  refine ⟨?_, ?_, ?_, ?_, ?_⟩
  · intro h
    apply h11
    rw [← sub_eq_zero]
    linear_combination -h
  · rw [non (ne ha), ha]; exact h11
  · rw [non (ne hd), hd]; exact h11
  · exact ZMod.exists_sq_eq_neg_one_iff.2 (by omega)
  · intro u v hu hv
    have hu0 : u ≠ 0 := by rintro rfl; exact hu ⟨0, by simp⟩
    have hv0 : v ≠ 0 := by rintro rfl; exact hv ⟨0, by simp⟩
    rw [non hu0] at hu
    rw [non hv0] at hv
    rw [non (mul_ne_zero hu0 hv0), mul_pow, (ZMod.pow_div_two_eq_neg_one_or_one p hu0).resolve_left hu,
      (ZMod.pow_div_two_eq_neg_one_or_one p hv0).resolve_left hv]
    ring

theorem pow_of_powMod {n v e : ℕ} (he : e < 2 ^ 256) (h : powMod q 256 n e % q = v % q) : (n : ZMod q) ^ e = (v : ZMod q) := by
  rw [← powMod_eq q 256 n e he]
  exact (ZMod.natCast_eq_natCast_iff' _ _ _).2 h

theorem good : Good coeffA coeffD := by
  have e1 : coeffA = ((q - 5 : ℕ) : ZMod q) := by
    rw [Nat.cast_sub (by decide +kernel)]
    simp [coeffA]
  have e2 : (-1 : ZMod q) = ((q - 1 : ℕ) : ZMod q) := by
    rw [Nat.cast_sub (by decide +kernel)]
    simp
  refine good_of (by decide +kernel) ?_ ?_
  · rw [e1, e2]
    exact pow_of_powMod (by decide +kernel) (by decide +kernel)
  · rw [e2]
    exact pow_of_powMod (by decide +kernel) (by decide +kernel)

attribute [irreducible] q r

end Verif.Bander
