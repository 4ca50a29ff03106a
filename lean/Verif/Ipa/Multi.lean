import Verif.Ipa.Lagrange

/-!
# Lemmas about the multipoint argument
-/

set_option autoImplicit false
set_option linter.unusedSectionVars false

namespace Verif.Ipa
open Proof Polynomial

section
variable {F G : Type} [Field F] [AddCommGroup G] [Module F G]

/-! ### Sums over groups -/

theorem sum_indicator {M : Type} [AddCommMonoid M] (a : ℕ) (x : M) : ∀ (order : List ℕ), order.Nodup → a ∈ order →
    (order.map fun p => if a = p then x else 0).sum = x
  | p :: order, hnd, h => by
    rw [List.nodup_cons] at hnd
    rw [List.map_cons, List.sum_cons]
    by_cases e : a = p
    · subst e
      have : (order.map fun p => if a = p then x else 0).sum = 0 := by
        apply List.sum_eq_zero
        intro y hy
        simp only [List.mem_map] at hy
        obtain ⟨p, hp, rfl⟩ := hy
        rw [if_neg]
        rintro rfl
        exact hnd.1 hp
      rw [this]
      simp
    · rw [if_neg e, zero_add]
      exact sum_indicator a x order hnd.2 (by simpa [e] using h)

theorem sum_groups {M α : Type} [AddCommMonoid M] (pt : α → ℕ) (φ : α → M) {order : List ℕ} (hnd : order.Nodup) :
    ∀ l : List α, (∀ x ∈ l, pt x ∈ order) →
      (order.map fun p => ((l.filter fun x => decide (pt x = p)).map φ).sum).sum = (l.map φ).sum
  | [], _ => by
    simp
  | x :: l, h => by
    have ih := sum_groups pt φ hnd l fun y hy => h y (List.mem_cons_of_mem _ hy)
    rw [List.map_cons, List.sum_cons, ← ih, ← sum_indicator (pt x) (φ x) order hnd (h x (by simp)), ← List.sum_map_add]
    congr 1
    apply List.map_congr_left
    intro p _
    rw [List.filter_cons]
    by_cases e : pt x = p <;> simp [e]

/-! ### Linear functionals on evaluation vectors -/

theorem lin_addPoly {n : ℕ} : ∀ {p q : List F} (v : List G), p.length = n → q.length = n →
    lin (List.zipWith (· + ·) p q) v = lin p v + lin q v := by
  intro p q v hp hq
  have := lin_zip_left (1 : F) v (l := p) (r := q) (by omega)
  simpa using this

theorem lin_subPoly {p q : List F} (v : List G) (h : p.length = q.length) : lin (subPoly p q) v = lin p v - lin q v := by
  have := lin_zip_left (-1 : F) v (l := p) (r := q) h
  simp only [neg_mul, one_mul, ← sub_eq_add_neg, neg_smul, one_smul] at this
  exact this

theorem lin_scale : ∀ (c : F) (s : List F) (p : List G), lin (s.map (· * c)) p = c • lin s p := by
  intro c s p
  rw [← lin_map_mul]
  congr 2
  funext x
  ring

theorem addPoly_eq {n : ℕ} {p q : List F} (hp : p.length = n) (hq : q.length = n) :
    addPoly p q = List.zipWith (· + ·) p q := by
  unfold addPoly
  by_cases h : n = 0
  · subst h
    rw [List.length_eq_zero_iff] at hp hq
    simp [hp, hq]
  · rw [if_neg (by omega), if_neg (by omega), List.drop_eq_nil_of_le (by omega), List.append_nil]

theorem sumPoly_go {n : ℕ} : ∀ (ls : List (List F)) (acc : List F), acc.length = n → (∀ l ∈ ls, l.length = n) →
    (ls.foldl addPoly acc).length = n ∧ ∀ {M : Type} [AddCommGroup M] [Module F M] (v : List M), lin (ls.foldl addPoly acc) v = lin acc v + (ls.map (lin · v)).sum
  | [], acc, h, _ => by simp [h]
  | l :: ls, acc, h, hl => by
    rw [List.foldl_cons, addPoly_eq h (hl l (by simp))]
    have hlen : (List.zipWith (· + ·) acc l).length = n := by simp [h, hl l (by simp)]
    obtain ⟨i1, i2⟩ := sumPoly_go ls _ hlen fun x hx => hl x (List.mem_cons_of_mem _ hx)
    refine ⟨i1, fun v => ?_⟩
    rw [i2 v, lin_addPoly v h (hl l (by simp)), List.map_cons, List.sum_cons, add_assoc]

/-- Adding up vectors of one length, starting from the empty vector. -/
theorem sumPoly {n : ℕ} {ls : List (List F)} (hne : ls ≠ []) (hl : ∀ l ∈ ls, l.length = n) :
    (ls.foldl addPoly []).length = n ∧
      ∀ {M : Type} [AddCommGroup M] [Module F M] (v : List M), lin (ls.foldl addPoly []) v = (ls.map (lin · v)).sum := by
  cases ls with
  | nil => simp at hne
  | cons l ls =>
    rw [List.foldl_cons, show addPoly [] l = l by simp [addPoly]]
    obtain ⟨i1, i2⟩ := sumPoly_go ls l (hl l (by simp)) fun x hx => hl x (List.mem_cons_of_mem _ hx)
    exact ⟨i1, fun v => by rw [i2 v]; simp⟩

theorem lin_pad : ∀ (c : F) (agg poly : List F) (v : List G), poly.length ≤ agg.length →
    lin (List.zipWith (· + ·) agg (poly.map (· * c)) ++ agg.drop poly.length) v = lin agg v + c • lin poly v
  | c, agg, [], v, _ => by simp
  | c, a :: agg, p :: poly, [], _ => by simp
  | c, a :: agg, p :: poly, y :: v, h => by
    have ih := lin_pad c agg poly v (by simpa using h)
    simp only [List.map_cons, List.zipWith_cons_cons, List.length_cons, List.drop_succ_cons, List.cons_append, lin_cons, ih]
    module

theorem lin_replicate_zero : ∀ (n : ℕ) (v : List G), lin (List.replicate n (0 : F)) v = 0
  | 0, v => by simp
  | n + 1, [] => by simp
  | n + 1, y :: v => by rw [List.replicate_succ, lin_cons, lin_replicate_zero n v]; simp

theorem aggregate_go {n : ℕ} : ∀ (g : List (ProverQuery F G × F)) (acc : List F), acc.length = n →
    (∀ x ∈ g, x.1.poly.length ≤ n) → ∀ r, r = g.foldl (fun agg x =>
      List.zipWith (· + ·) agg (x.1.poly.map (· * x.2)) ++ agg.drop x.1.poly.length) acc →
    r.length = n ∧ ∀ {M : Type} [AddCommGroup M] [Module F M] (v : List M),
      lin r v = lin acc v + (g.map fun x => x.2 • lin x.1.poly v).sum
  | [], acc, h, _, r, hr => by simp [hr, h]
  | x :: g, acc, h, hl, r, hr => by
    rw [List.foldl_cons] at hr
    have hx := hl x (by simp)
    have hlen : (List.zipWith (· + ·) acc (x.1.poly.map (· * x.2)) ++ acc.drop x.1.poly.length).length = n := by
      simp [h]; omega
    obtain ⟨i1, i2⟩ := aggregate_go g _ hlen (fun y hy => hl y (List.mem_cons_of_mem _ hy)) r hr
    refine ⟨i1, fun v => ?_⟩
    rw [i2 v, lin_pad _ _ _ _ (by omega), List.map_cons, List.sum_cons, add_assoc]

theorem aggregate_length {n : ℕ} {g : List (ProverQuery F G × F)} (h : ∀ x ∈ g, x.1.poly.length ≤ n) :
    (aggregate n g).length = n := (aggregate_go g _ (List.length_replicate ..) h _ rfl).1

theorem aggregate_lin {M : Type} [AddCommGroup M] [Module F M] {n : ℕ} {g : List (ProverQuery F G × F)}
    (h : ∀ x ∈ g, x.1.poly.length ≤ n) (v : List M) :
    lin (aggregate n g) v = (g.map fun x => x.2 • lin x.1.poly v).sum := by
  have := (aggregate_go g (List.replicate n 0) (List.length_replicate ..) h (aggregate n g) rfl).2 v
  rw [this, lin_replicate_zero, zero_add]

/-- Reading an entry is a linear functional. -/
theorem lin_unit : ∀ (p : ℕ) (l : List F), lin l (List.replicate p 0 ++ [(1 : F)]) = l.getD p 0
  | _, [] => by simp
  | 0, x :: l => by simp
  | p + 1, x :: l => by
    rw [List.replicate_succ, List.cons_append, lin_cons, lin_unit p l]
    simp

end

section
variable {F G : Type} [Field F] [DecidableEq F] [AddCommGroup G] [DecidableEq G] [Module F G] (O : Oracle F G)

/-- A true opening: the commitment is to the polynomial (given by at most `n` evaluations, the others being zero), the point
is in the domain and the result is the evaluation there. -/
structure TrueOpening (crs : CRS G) (q : ProverQuery F G) : Prop where
  len : q.poly.length ≤ crs.n
  point : q.point < crs.n
  comm : q.commitment = (List.zipWith (· • ·) q.poly crs.gens).sum
  result : q.result = q.poly.getD q.point 0

theorem powersOf_length (x : F) {n : ℕ} (hn : n ≠ 0) : (powersOf x n).length = n := by
  simp only [powersOf, List.length_map, List.length_range]
  omega

theorem zip_map_sum {α β M : Type} [AddCommMonoid M] (f : α → β → M) : ∀ (l : List α) (r : List β),
    (List.zipWith f l r).sum = ((l.zip r).map fun x => f x.1 x.2).sum
  | [], _ => by simp
  | _ :: _, [] => by simp
  | a :: l, b :: r => by simp [zip_map_sum f l r]

theorem mem_group {qs : List (ProverQuery F G)} {rs : List F} {p : ℕ} {x : ProverQuery F G × F}
    (h : x ∈ group qs rs p) : x.1 ∈ qs ∧ x.1.point = p := by
  simp only [group, List.mem_filter, decide_eq_true_eq] at h
  exact ⟨(List.of_mem_zip h.1).1, h.2⟩

/-- `order` lists each point queried once. -/
def IsOrder (qs : List (ProverQuery F G)) (order : List ℕ) : Prop :=
  order.Nodup ∧ ∀ p, p ∈ order ↔ ∃ q ∈ qs, q.point = p

theorem multi_core {W : Weights F} {crs : CRS G} (hF : Distinct F crs.n) (hW : Good W crs.n) (h31 : crs.n ≤ 2 ^ 31)
    {qs : List (ProverQuery F G)} (hne : qs ≠ []) (ht : ∀ q ∈ qs, TrueOpening crs q) {order : List ℕ} (ho : IsOrder qs order)
    (rs : List F) :
    ∃ quots gx, (order.map fun p => (p, aggregate crs.n (group qs rs p))).mapM (fun x => divide W x.2 x.1) = .ok quots ∧
      quots.foldl addPoly [] = gx ∧ gx.length = crs.n ∧
      ∀ tt : F, ∃ g1, ((order.map fun p => (p, aggregate crs.n (group qs rs p))).map fun x =>
          x.2.map ((tt - (x.1 : F))⁻¹ * ·)).foldl addPoly [] = g1 ∧ g1.length = crs.n ∧
        lin g1 crs.gens = ((qs.zip rs).map fun x => ((tt - (x.1.point : F))⁻¹ * x.2) • x.1.commitment).sum ∧
        ((∀ i, i < crs.n → tt ≠ (i : F)) → ∃ b, lagrangeCoeffs W crs.n tt = .ok b ∧ b.length = crs.n ∧
          lin (subPoly g1 gx) b = ((qs.zip rs).map fun x => (tt - (x.1.point : F))⁻¹ * x.2 * x.1.result).sum) := by
  have hone : order ≠ [] := by
    cases qs with
    | nil => exact absurd rfl hne
    | cons q qs =>
      intro h
      have := (ho.2 q.point).mpr ⟨q, by simp, rfl⟩
      rw [h] at this
      simp at this
  have hlt : ∀ p ∈ order, p < crs.n := by
    intro p hp
    obtain ⟨q, hq, rfl⟩ := (ho.2 p).mp hp
    exact (ht q hq).point
  have hpl : ∀ p, ∀ x ∈ group qs rs p, x.1.poly.length ≤ crs.n := fun p x hx => (ht _ (mem_group hx).1).len
  have hal : ∀ p, (aggregate crs.n (group qs rs p)).length = crs.n := fun p => aggregate_length (hpl p)
  have hdiv : ∀ p : ℕ, ∃ (q : List F) (Q : F[X]), p ∈ order → divide W (aggregate crs.n (group qs rs p)) p = .ok q ∧ q.length = crs.n ∧
      interp (aggregate crs.n (group qs rs p)) - C ((aggregate crs.n (group qs rs p)).getD p 0) = (X - C (p : F)) * Q ∧
      Q.degree < ((crs.n - 1 : ℕ) : WithBot ℕ) ∧ ∀ j, j < crs.n → q.getD j 0 = Q.eval (j : F) := by
    intro p
    by_cases hp : p ∈ order
    · obtain ⟨q, Q, h⟩ := divide_spec hF hW h31 (hal p) (hlt p hp)
      exact ⟨q, Q, fun _ => h⟩
    · exact ⟨[], 0, fun h => absurd h hp⟩
  choose qf Qf hq using hdiv
  have hm : (order.map fun p => (p, aggregate crs.n (group qs rs p))).mapM (fun x => divide W x.2 x.1) = .ok (order.map qf) := by
    rw [mapM_ok (g := fun x => qf x.1)]
    · simp [Function.comp_def]
    · intro x hx
      simp only [List.mem_map] at hx
      obtain ⟨p, hp, rfl⟩ := hx
      exact (hq p hp).1
  have hql : ∀ l ∈ order.map qf, l.length = crs.n := by
    intro l hl
    simp only [List.mem_map] at hl
    obtain ⟨p, hp, rfl⟩ := hl
    exact (hq p hp).2.1
  obtain ⟨hx1, hx2⟩ := sumPoly (by simpa using hone) hql
  refine ⟨_, _, hm, rfl, hx1, fun tt => ?_⟩
  have hgl : ∀ l ∈ (order.map fun p => (p, aggregate crs.n (group qs rs p))).map (fun x => x.2.map ((tt - (x.1 : F))⁻¹ * ·)),
      l.length = crs.n := by
    intro l hl
    simp only [List.map_map, List.mem_map, Function.comp] at hl
    obtain ⟨p, _, rfl⟩ := hl
    rw [List.length_map, hal]
  obtain ⟨hy1, hy2⟩ := sumPoly (by simpa using hone) hgl
  refine ⟨_, rfl, hy1, ?_, fun htt => ?_⟩
  · rw [hy2 crs.gens, List.map_map, List.map_map]
    rw [← sum_groups (fun x : ProverQuery F G × F => x.1.point) _ ho.1 (qs.zip rs)
      (fun x hx => (ho.2 _).mpr ⟨x.1, (List.of_mem_zip hx).1, rfl⟩)]
    congr 1
    apply List.map_congr_left
    intro p hp
    simp only [Function.comp]
    rw [lin_map_mul, aggregate_lin (hpl p), List.smul_sum, List.map_map]
    congr 1
    apply List.map_congr_left
    intro x hx
    have hx' := mem_group hx
    simp only [Function.comp]
    rw [(ht _ hx'.1).comm, hx'.2, mul_smul]
    rfl
  · obtain ⟨b, hb1, hb2, hb3⟩ := lagrange_eval hF hW htt
    refine ⟨b, hb1, hb2, ?_⟩
    rw [lin_subPoly _ (by rw [hy1, hx1]), hx2 b, hy2 b, List.map_map, List.map_map, List.map_map]
    rw [← sum_groups (fun x : ProverQuery F G × F => x.1.point) _ ho.1 (qs.zip rs)
      (fun x hx => (ho.2 _).mpr ⟨x.1, (List.of_mem_zip hx).1, rfl⟩), sub_eq_iff_eq_add, ← List.sum_map_add]
    congr 1
    apply List.map_congr_left
    intro p hp
    obtain ⟨_, q2, q3, q4, q5⟩ := hq p hp
    simp only [Function.comp]
    have eQ : Qf p = interp (qf p) := by
      apply interp_unique
      · rw [q2]; exact hF
      · rw [q2]
        exact lt_of_lt_of_le q4 (by exact_mod_cast Nat.sub_le _ _)
      · intro i hi
        rw [q5 i (by omega)]
    rw [lin_map_mul, hb3 _ (hal p), hb3 _ q2, ← eQ]
    have e := congrArg (eval tt) q3
    simp only [eval_sub, eval_C, eval_mul, eval_X] at e
    have hnz : tt - (p : F) ≠ 0 := sub_ne_zero.mpr (htt p (hlt p hp))
    have e' : eval tt (interp (aggregate crs.n (group qs rs p))) =
        (aggregate crs.n (group qs rs p)).getD p 0 + (tt - (p : F)) * eval tt (Qf p) := by rw [← e]; ring
    have ev : (aggregate crs.n (group qs rs p)).getD p 0 = ((group qs rs p).map fun x => x.2 * x.1.result).sum := by
      rw [← lin_unit, aggregate_lin (hpl p)]
      congr 1
      apply List.map_congr_left
      intro x hx
      have hx' := mem_group hx
      rw [lin_unit, (ht _ hx'.1).result, hx'.2]
      rfl
    rw [e', ev, smul_eq_mul, mul_add, inv_mul_cancel_left₀ hnz, ← List.sum_map_mul_left]
    congr 2
    apply List.map_congr_left
    intro x hx
    rw [(mem_group hx).2, mul_assoc]

end
end Verif.Ipa
