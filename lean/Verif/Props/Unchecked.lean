import Verif.Props.Digest

/-!
# C87: proofs in the uncompressed format

`verify_proof_uncompressed` (`/repo/bindings/c/src/lib.rs:256-309`) does not check that the coordinates it reads are those of a point of the
curve, and the transcript absorbs the compressed form of a point, which is the `x`-coordinate up to a sign.  So the `y`-coordinate of a
point off the curve can be chosen when the challenges are known already.  Equality of elements compares `x / y`, and so the zero test
at the end of the verifier is passed by every point `(0, y)` with `y ≠ 0`.

What arkworks computes off the curve is not part of the contract `Ark`; what is used here is the contract `Formulas`.
-/

set_option autoImplicit false
set_option linter.unusedSectionVars false
set_option linter.constructorNameAsVariable false

namespace Verif.Props
open Verif Verif.Spec Verif.Proof Verif.Ipa Verif.Wire Verif.Ffi Verif.Bander
open scoped Classical

/-- Points `(0, y)` with `y ≠ 0`; only `(0, 1)` and `(0, -1)` are on the curve. -/
def OnAxis (p : Point) : Prop := p.x = 0 ∧ p.y ≠ 0 ∧ p.t = 0 ∧ p.z ≠ 0

/-- What arkworks computes off the curve.  Subtraction is the addition formula for extended coordinates applied to the negated
point.  In a multi-scalar multiplication, entries with scalar zero and multiples of the point `(0, 1)` only contribute points `(0, y)`,
and the sum of such points and of one point `(0, y)` taken once is one. -/
structure Formulas (K : Ark) : Prop where
  sub : ∀ p p' : Point, K.sub p p' = hwcdAdd p (negPoint p')
  msm : ∀ (s₁ s₂ : List (ZMod r)) (p₁ p₂ : List Point) (p : Point), s₁.length = p₁.length → s₂.length = p₂.length → OnAxis p →
    (∀ x ∈ s₁.zip p₁ ++ s₂.zip p₂, x.1 = 0 ∨ x.2 = zeroPoint) → OnAxis (K.msm (s₁ ++ 1 :: s₂) (p₁ ++ p :: p₂))

theorem onAxis_zero : OnAxis zeroPoint := ⟨rfl, one_ne_zero, rfl, one_ne_zero⟩

theorem OnAxis.add {p p' : Point} (h : OnAxis p) (h' : OnAxis p') : OnAxis (hwcdAdd p p') := by
  obtain ⟨h1, h2, h3, h4⟩ := h
  obtain ⟨h1', h2', h3', h4'⟩ := h'
  unfold OnAxis hwcdAdd
  simp only [h1, h1', h3, h3', zero_add, mul_zero, sub_zero, add_zero, sub_self, zero_mul, ne_eq, mul_eq_zero, not_or, true_and]
  exact ⟨⟨⟨h4, h4'⟩, h2, h2'⟩, ⟨h4, h4'⟩, h4, h4'⟩

theorem OnAxis.mulNat {p : Point} (h : OnAxis p) : ∀ n : ℕ, OnAxis (mulNat p n)
  | 0 => onAxis_zero
  | n + 1 => (OnAxis.mulNat h n).add h

/-- There are operations which meet both contracts. -/
theorem exists_formulas : ∃ K : Ark, Formulas K := by
  have hz : ∀ (s : List (ZMod r)) (ps : List Point) (e : Point), OnAxis e → (∀ x ∈ s.zip ps, x.1 = 0 ∨ OnAxis x.2) →
      OnAxis ((List.zipWith (fun c p => mulNat p c.val) s ps).foldr hwcdAdd e) := by
    intro s
    induction s with
    | nil => intro ps e he _; exact he
    | cons c s ih =>
      intro ps e he h
      cases ps with
      | nil => exact he
      | cons p ps =>
        rw [List.zipWith_cons_cons, List.foldr_cons]
        refine OnAxis.add ?_ (ih ps e he fun x hx => h x (List.mem_cons_of_mem _ hx))
        rcases h (c, p) List.mem_cons_self with h | h
        · rw [show c = 0 from h, ZMod.val_zero]
          exact onAxis_zero
        · exact h.mulNat _
  refine ⟨⟨⟨hwcdAdd, hwcd_spec⟩, fun p p' => hwcdAdd p (negPoint p'), fun c p => mulNat p c.val,
    fun s ps => (List.zipWith (fun c p => mulNat p c.val) s ps).foldr hwcdAdd zeroPoint, ?_, ?_, ?_⟩, fun _ _ => rfl, ?_⟩
  · intro p p' e e' h h'
    rw [sub_eq_add_neg]
    exact hwcd_rep h (negPoint_rep h')
  · intro c p e h
    exact smul_rep c h
  · intro s ps es hl h
    clear hl
    unfold lin
    induction h generalizing s with
    | nil => rw [List.zipWith_nil_right, List.zipWith_nil_right]; exact Represents.zero
    | cons hd _ ih =>
      cases s with
      | nil => exact Represents.zero
      | cons c s =>
        rw [List.zipWith_cons_cons, List.zipWith_cons_cons, List.foldr_cons, List.sum_cons]
        exact hwcd_rep (smul_rep c hd) (ih s)
  · intro s₁ s₂ p₁ p₂ p h1 h2 hp h
    refine hz _ _ _ onAxis_zero fun x hx => ?_
    rw [List.zip_append h1, List.zip_cons_cons, List.mem_append, List.mem_cons] at hx
    rcases hx with hx | rfl | hx
    · exact (h x (List.mem_append_left _ hx)).imp_right fun (e : x.2 = zeroPoint) => by rw [e]; exact onAxis_zero
    · exact Or.inr hp
    · exact (h x (List.mem_append_right _ hx)).imp_right fun (e : x.2 = zeroPoint) => by rw [e]; exact onAxis_zero

/-! ### The ratio of an element -/

theorem ratio_of_rep {p : Point} {e : BElem} (h : Rep p e) : p.y ≠ 0 ∧ p.x = e.ratio * p.y := by
  have hy := h.1.y_ne good
  have := h.ratio
  rw [Proj.mapToField, Bander.divide, if_neg hy] at this
  injection this with this
  exact ⟨hy, by rw [← this, div_mul_cancel₀ _ hy]⟩

theorem ratio_zero_iff (e : BElem) : e.ratio = 0 ↔ e = 0 := by
  obtain ⟨p, h⟩ := exists_rep e
  obtain ⟨hy, hx⟩ := ratio_of_rep h
  rw [← h.eq_iff Represents.zero, Proj.eq, if_neg (fun h => hy h.2), if_neg (fun h => one_ne_zero h.2), decide_eq_true_iff]
  simp only [mul_one, zero_mul, hx, mul_eq_zero, hy, or_false]

theorem ratio_neg (e : BElem) : (-e).ratio = -e.ratio := by
  obtain ⟨p, h⟩ := exists_rep e
  obtain ⟨hy, hx⟩ := ratio_of_rep h
  obtain ⟨-, hx'⟩ := ratio_of_rep (negPoint_rep h)
  have h2 : -p.x = (-e).ratio * p.y := hx'
  apply mul_right_cancel₀ hy
  rw [← h2, hx, neg_mul]

/-- The difference of a point for `e` and the point `(b, b / ratio e)` is on the axis. -/
theorem onAxis_sub {p : Point} {e : BElem} (h : Rep p e) (he : e ≠ 0) {b : ZMod Bander.q} (hb : b ≠ 0) :
    OnAxis (hwcdAdd p (negPoint ⟨b, b / e.ratio, b * (b / e.ratio), 1⟩)) := by
  obtain ⟨hy, hx⟩ := ratio_of_rep h
  have hρ : e.ratio ≠ 0 := fun h0 => he ((ratio_zero_iff e).1 h0)
  have hz := h.1.z
  have ht := h.1.t
  obtain ⟨i, hi⟩ := good.hm
  have hx0 : p.x ≠ 0 := hx ▸ mul_ne_zero hρ hy
  have hEq : b / e.ratio = b * p.y / p.x := by
    rw [hx]
    field_simp
  have hT : p.t = p.x * p.y / p.z := by rw [eq_div_iff hz, ht]
  have hF : ∀ s : ZMod Bander.q, IsSquare s → p.z + s * (coeffD * p.t * (b * (b / e.ratio))) ≠ 0 := by
    rintro s ⟨k, rfl⟩ h0
    rw [hEq, hT] at h0
    have h1 : p.z ^ 2 + coeffD * (k * b * p.y) ^ 2 = 0 := by
      field_simp at h0
      linear_combination h0
    have hk : k * b * p.y ≠ 0 := by
      intro hk
      rw [hk] at h1
      exact hz (pow_eq_zero_iff (two_ne_zero)|>.1 (by simpa using h1))
    exact good.hd (isSquare_of_mul_sq (s := k * b * p.y) (x := i * p.z) (by linear_combination h1 + p.z ^ 2 * hi) hk)
  have hG := hF (-1) good.hm
  have hF := hF 1 ⟨1, (one_mul 1).symm⟩
  have hH : p.y * (b / e.ratio) + coeffA * (p.x * b) ≠ 0 := by
    rw [hEq]
    intro h0
    have h1 : p.y ^ 2 + coeffA * p.x ^ 2 = 0 := by
      field_simp at h0
      rw [mul_zero] at h0
      rcases mul_eq_zero.1 h0 with h0 | h0
      · exact absurd h0 hb
      · linear_combination h0
    exact good.ha (isSquare_of_mul_sq (s := p.x) (x := i * p.y) (by linear_combination h1 + p.y ^ 2 * hi) hx0)
  have hE : (p.x + p.y) * (-b + b / e.ratio) - p.x * -b - p.y * (b / e.ratio) = 0 := by
    rw [hEq]
    field_simp
    ring
  unfold OnAxis hwcdAdd negPoint
  simp only [hE, zero_mul, true_and, mul_one]
  have e1 : p.z - coeffD * p.t * -(b * (b / e.ratio)) = p.z + 1 * (coeffD * p.t * (b * (b / e.ratio))) := by ring
  have e2 : p.z + coeffD * p.t * -(b * (b / e.ratio)) = p.z + -1 * (coeffD * p.t * (b * (b / e.ratio))) := by ring
  have e3 : p.y * (b / e.ratio) - coeffA * (p.x * -b) = p.y * (b / e.ratio) + coeffA * (p.x * b) := by ring
  rw [e1, e2, e3]
  exact ⟨mul_ne_zero hG hH, mul_ne_zero hF hG⟩

theorem OnAxis.toBytes {p : Point} (h : OnAxis p) : ∃ bs, p.toBytes = .ok bs := by
  obtain ⟨h1, h2, h3, h4⟩ := h
  unfold Proj.toBytes Proj.toAffine Bander.divide
  rw [if_neg h4, if_neg h4]
  split <;> exact ⟨_, rfl⟩

theorem OnAxis.isZero {p : Point} (h : OnAxis p) : p.eq zeroPoint = true := by
  obtain ⟨h1, h2, h3, h4⟩ := h
  rw [Proj.eq, if_neg (fun h => h2 h.2), if_neg (fun h => one_ne_zero h.2), decide_eq_true_iff, h1]
  show (0 : ZMod Bander.q) * 1 = 0 * p.y
  ring

/-! ### The forged proof -/

/-- The bytes of a proof: `D = (b, y)`, all `L` and `R` are `(0, 1)`, and `a = 0`. -/
noncomputable def forgedProof (b y : ZMod Bander.q) : List Byte :=
  (serFq b ++ serFq y) ++ ((List.replicate 8 (serFq (0 : ZMod Bander.q) ++ serFq (1 : ZMod Bander.q))).flatten ++
    (List.replicate 8 (serFq (0 : ZMod Bander.q) ++ serFq (1 : ZMod Bander.q))).flatten ++ codec.encS (0 : ZMod r))

theorem coordinates_ser (x y : ZMod Bander.q) : Coordinates (serFq x ++ serFq y) ⟨x, y, x * y, 1⟩ := by
  have h3 := deFq_serFq q_lt x []
  have h4 := deFq_serFq q_lt y []
  rw [List.append_nil] at h3 h4
  refine ⟨by rw [List.length_append, serFq_length, serFq_length], ?_⟩
  unfold fromBytesUnchecked
  rw [List.take_left' (serFq_length _), List.drop_left' (serFq_length _), h3, h4]

theorem forgedProof_read (b y : ZMod Bander.q) : (forgedProof b y).length = 1120 ∧ multiFromBytesUncompressed (forgedProof b y) 256 =
    .ok (some ⟨⟨List.replicate 8 zeroPoint, List.replicate 8 zeroPoint, 0⟩, ⟨b, y, b * y, 1⟩⟩) := by
  have hz : Coordinates (serFq (0 : ZMod Bander.q) ++ serFq (1 : ZMod Bander.q)) zeroPoint := by
    have := coordinates_ser 0 1
    rw [zero_mul] at this
    exact this
  have hall : ∀ n : ℕ, List.Forall₂ Coordinates (List.replicate n (serFq (0 : ZMod Bander.q) ++ serFq (1 : ZMod Bander.q)))
      (List.replicate n zeroPoint) := by
    intro n
    induction n with
    | zero => exact .nil
    | succ n ih => exact .cons hz ih
  refine ⟨?_, multiFromBytesUncompressed_append (coordinates_ser b y) (hall 8) (hall 8) (by simp) (by simp) 0⟩
  unfold forgedProof
  simp only [List.length_append, List.length_flatten, List.map_replicate, List.sum_replicate, serFq_length, codec.encS_len]
  rfl

/-- The challenge `r` and the transcript after it. -/
noncomputable def openedR (H : List Byte → ZMod r) (qs : List (BElem × Byte × ZMod r)) : ZMod r × Transcript :=
  absorbQueries (⟨codec, H⟩ : Oracle (ZMod r) BElem) (newTranscript (lbl "verkle")) (qs.map toQuery)

/-- What is hashed for the challenge `t`, for a point `D` with bytes `(serFq b).reverse`. -/
noncomputable def stringT (H : List Byte → ZMod r) (qs : List (BElem × Byte × ZMod r)) (b : ZMod Bander.q) : List Byte :=
  domainSep (appendMessage (openedR H qs).2 (lbl "D") (serFq b).reverse) (lbl "t")

/-- The commitment `E = Σ rⁱ / (t - zᵢ) Cᵢ` which the verifier computes. -/
noncomputable def sumE (qs : List (BElem × Byte × ZMod r)) (ρ t : ZMod r) : BElem :=
  lin (List.zipWith (fun r d => d * r) (powersOf ρ qs.length) (batchInv (qs.map fun x => t - ((x.2.1.val : ℕ) : ZMod r)))) (qs.map fun x => x.1)

theorem pAppendPoint_axis (K : Ark) (H : List Byte → ZMod r) (t : Transcript) (l : List Byte) {p : Point} (h : OnAxis p) :
    ∃ t', pAppendPoint (K.ops H) t l p = .ok t' := by
  obtain ⟨bs, hb⟩ := h.toBytes
  refine ⟨appendMessage t l bs, ?_⟩
  unfold pAppendPoint
  show (p.toBytes).bind _ = _
  rw [hb]
  rfl

theorem pGenChallenges_zero (K : Ark) (H : List Byte → ZMod r) : ∀ (n : ℕ) (t : Transcript),
    ∃ xs t', pGenChallenges (K.ops H) (List.replicate n zeroPoint) (List.replicate n zeroPoint) t = .ok (xs, t') ∧ xs.length = n
  | 0, t => ⟨[], t, rfl, rfl⟩
  | n + 1, t => by
    obtain ⟨t1, h1⟩ := pAppendPoint_axis K H t (lbl "L") onAxis_zero
    obtain ⟨t2, h2⟩ := pAppendPoint_axis K H t1 (lbl "R") onAxis_zero
    obtain ⟨xs, t3, h3, h4⟩ := pGenChallenges_zero K H n (pChallenge (K.ops H) t2 (lbl "x")).2
    refine ⟨(pChallenge (K.ops H) t2 (lbl "x")).1 :: xs, t3, ?_, by rw [List.length_cons, h4]⟩
    rw [List.replicate_succ, pGenChallenges]
    simp only [bind, Except.bind, h1, h2, h3]

/-- With `a = 0`, all `L`, `R` equal to `(0, 1)` and the result zero, every commitment `(0, y)` passes the inner product argument. -/
theorem verifyMultiexp_axis {K : Ark} (hK : Formulas K) (H : List Byte → ZMod r) (t : Transcript) {crs : CRS Point} (hn : crs.n = 256)
    (hg : crs.gens.length = 256) (b : List (ZMod r)) {c : Point} (hc : OnAxis c) (z : ZMod r) :
    ∃ t', pVerifyMultiexp (K.ops H) ⟨List.replicate 8 zeroPoint, List.replicate 8 zeroPoint, 0⟩ t crs b c z 0 = .ok (true, t') := by
  obtain ⟨t1, h1⟩ := pAppendPoint_axis K H (domainSep t (lbl "ipa")) (lbl "C") hc
  obtain ⟨xs, t3, h3, h4⟩ := pGenChallenges_zero K H 8 (pChallenge (K.ops H)
    (pAppendScalar (K.ops H) (pAppendScalar (K.ops H) t1 (lbl "input point") z) (lbl "output point") 0) (lbl "w")).2
  have h5 : coeffs (-1 : ZMod r) 256 8 (batchInv xs) = .ok ((coef (batchInv xs)).map (-1 * ·)) := by
    have := coeffs_eq (-1 : ZMod r) (batchInv xs)
    rw [show (batchInv xs).length = 8 by rw [batchInv, List.length_map, h4]] at this
    exact this
  set bi := (coef (batchInv xs)).map ((-1 : ZMod r) * ·) with hbi
  have h6 : bi.length = 256 := by
    rw [hbi, List.length_map, coef_length, batchInv, List.length_map, h4]
    norm_num
  have h7 : (batchInv xs).length = 8 := by rw [batchInv, List.length_map, h4]
  have h8 := hK.msm (xs ++ batchInv xs) (0 :: bi.map (0 * ·)) (List.replicate 8 zeroPoint ++ List.replicate 8 zeroPoint) (crs.Q :: crs.gens) c
    (by rw [List.length_append, List.length_append, List.length_replicate, h4, h7])
    (by rw [List.length_cons, List.length_cons, List.length_map, h6, hg]) hc (by
      intro x hx
      rcases List.mem_append.1 hx with hx | hx
      · right
        have := (List.of_mem_zip (a := x.1) (b := x.2) hx).2
        rcases List.mem_append.1 this with h | h <;> exact List.eq_of_mem_replicate h
      · left
        have := (List.of_mem_zip (a := x.1) (b := x.2) hx).1
        rcases List.mem_cons.1 this with h | h
        · exact h
        · obtain ⟨y, -, h⟩ := List.mem_map.1 h
          rw [← h, zero_mul])
  refine ⟨t3, ?_⟩
  unfold pVerifyMultiexp
  rw [List.length_replicate, if_neg (by norm_num), hn, if_neg (by norm_num)]
  unfold pAbsorb
  simp only [bind, Except.bind, h1, h3, h5]
  unfold pMsm
  have hl : (xs ++ batchInv xs ++ [1] ++ [(pChallenge (K.ops H) (pAppendScalar (K.ops H) (pAppendScalar (K.ops H) t1 (lbl "input point") z)
      (lbl "output point") 0) (lbl "w")).1 * (0 + 0 * innerProduct b bi)] ++ bi.map (0 * ·)).length =
      (List.replicate 8 zeroPoint ++ List.replicate 8 zeroPoint ++ [c] ++ [crs.Q] ++ crs.gens).length := by
    simp only [List.length_append, List.length_replicate, List.length_cons, List.length_nil, List.length_map, h4, h7, h6, hg]
  rw [if_pos hl]
  dsimp only
  have e0 : ∀ w : ZMod r, w * (0 + 0 * innerProduct b bi) = 0 := fun w => by ring
  rw [e0]
  have e1 : xs ++ batchInv xs ++ [1] ++ [0] ++ bi.map (0 * ·) = (xs ++ batchInv xs) ++ 1 :: 0 :: bi.map (0 * ·) := by simp
  have e2 : List.replicate 8 zeroPoint ++ List.replicate 8 zeroPoint ++ [c] ++ [crs.Q] ++ crs.gens =
      (List.replicate 8 zeroPoint ++ List.replicate 8 zeroPoint) ++ c :: crs.Q :: crs.gens := by simp
  rw [e1, e2]
  have h9 : (K.ops H).isZero ((K.ops H).msm (xs ++ batchInv xs ++ 1 :: 0 :: bi.map (0 * ·))
    (List.replicate 8 zeroPoint ++ List.replicate 8 zeroPoint ++ c :: crs.Q :: crs.gens)) = true := h8.isZero
  rw [h9]

/-- C87: the forgery.  Whatever the commitments and the points, claims that all values are zero are accepted, for every hash: with
any `b ≠ 0` as `x`-coordinate of `D`, if `E` is not zero and the sign of `b / ratio E` is positive. -/
theorem C87_forgery {K : Ark} (hK : Formulas K) (H : List Byte → ZMod r) {ctx : ProofContext} (hctx : ProofContext.new = .ok ctx)
    {cs : List (List Byte)} {qs : List (BElem × Byte × ZMod r)} (hq : List.Forall₂ QueryForm cs qs) (hne : qs ≠ [])
    (h0 : ∀ x ∈ qs, x.2.2 = 0) {b : ZMod Bander.q} (hb : b ≠ 0) {e : BElem}
    (he : e = sumE qs (openedR H qs).1 (H (stringT H qs b))) (he0 : e ≠ 0) (hpos : isPositive (b / e.ratio) = true) :
    cVerifyProofUncompressed K H ctx (forgedProof b (b / e.ratio) ++ cs.flatten) = .ok true := by
  obtain ⟨hc, hW⟩ := context_rel hctx
  obtain ⟨h1, h2⟩ := forgedProof_read b (b / e.ratio)
  obtain ⟨h3, h4, ps, h5, h6⟩ := queryForms_read hq
  have S := ark_sound K H
  have hgood : Ipa.Good ctx.W 256 := by
    obtain ⟨W, hW', hgood⟩ := new_good (F := ZMod r) C52_scalar_field.2.1 (n := 256) (by norm_num)
    exact Except.ok.inj (hW'.symm.trans hW) ▸ hgood
  have hn : ctx.crs.n = 256 := hc.1.trans (by simp [crsOf])
  have hg : ctx.crs.gens.length = 256 := by rw [hc.2.1.length_eq]; simp [crsOf]
  have e1 : ∀ tt : ZMod r, ps.map (fun q => tt - q.point) = (qs.map toQuery).map fun q => tt - q.point := by
    intro tt
    clear h5
    generalize qs.map toQuery = qs' at h6 ⊢
    induction h6 with
    | nil => rfl
    | cons hd _ ih => rw [List.map_cons, List.map_cons, ih, hd.2.1]
  have e2 : ∀ hs : List (ZMod r), (List.zipWith (fun h (q : VerifierQuery (ZMod r) Point) => h * q.result) hs ps).sum = 0 := by
    have hz : ∀ q ∈ ps, q.result = 0 := by
      intro q hm
      obtain ⟨i, hi, rfl⟩ := List.getElem_of_mem hm
      have := (h6.get hi (h6.length_eq ▸ hi)).2.2
      rw [List.get_eq_getElem] at this
      rw [this, List.get_eq_getElem, List.getElem_map]
      exact h0 _ (List.getElem_mem _)
    clear h5 h6 e1
    induction ps with
    | nil => intro hs; rw [List.zipWith_nil_right]; rfl
    | cons q ps ih =>
      intro hs
      cases hs with
      | nil => rfl
      | cons x hs =>
        rw [List.zipWith_cons_cons, List.sum_cons, hz q List.mem_cons_self, mul_zero, zero_add]
        exact ih (fun q hm => hz q (List.mem_cons_of_mem _ hm)) hs
  have e3 : List.Forall₂ Rep (ps.map VerifierQuery.commitment) ((qs.map toQuery).map VerifierQuery.commitment) := by
    rw [List.forall₂_map_left_iff, List.forall₂_map_right_iff]
    exact h6.imp fun _ _ hq => hq.1
  have hl : 0 < qs.length := List.length_pos_iff.2 hne
  have hD : ∀ t, pAppendPoint (K.ops H) t (lbl "D") ⟨b, b / e.ratio, b * (b / e.ratio), 1⟩ = .ok (appendMessage t (lbl "D") (serFq b).reverse) := by
    intro t
    have : (⟨b, b / e.ratio, b * (b / e.ratio), 1⟩ : Point).toBytes = .ok (serFq b).reverse := by
      unfold Proj.toBytes Proj.toAffine Bander.divide
      rw [if_neg (fun h => hb h.1), if_neg one_ne_zero, if_neg one_ne_zero]
      simp only [bind, Except.bind, div_one, hpos, if_true]
    unfold pAppendPoint
    show ((⟨b, b / e.ratio, b * (b / e.ratio), 1⟩ : Point).toBytes).bind _ = _
    rw [this]
    rfl
  have hT : (pChallenge (K.ops H) (appendMessage (openedR H qs).2 (lbl "D") (serFq b).reverse) (lbl "t")).1 = H (stringT H qs b) := rfl
  unfold cVerifyProofUncompressed
  rw [split_append h1]
  simp only [bind, Except.bind, h4, h3, h5, h2, unwrap, ne_eq, not_true_eq_false, if_false]
  have habs := S.absorbQueries_rel (newTranscript (lbl "verkle")) h6
  have hms := S.msmRel (List.zipWith (fun r d => d * r) (powersOf (openedR H qs).1 ps.length)
    (batchInv (ps.map fun q => H (stringT H qs b) - q.point))) e3
  unfold pCheckMulti
  rw [habs]
  simp only [bind, Except.bind, hD]
  unfold openedR at hT hms
  rw [hT, hn, lagrangeCoeffs_ok hgood]
  simp only [e2]
  have hmsm : Ipa.msm (List.zipWith (fun r d => d * r) (powersOf (openedR H qs).1 ps.length)
      (batchInv (ps.map fun q => H (stringT H qs b) - q.point))) ((qs.map toQuery).map VerifierQuery.commitment) = .ok e := by
    have hmax : max qs.length 1 = qs.length := max_eq_left hl
    unfold Ipa.msm
    rw [h6.length_eq, e1, List.length_map, if_pos (by
      rw [List.length_zipWith, powersOf, batchInv, List.length_map, List.length_range, List.length_map, List.length_map, List.length_map,
        List.length_map, List.length_map, hmax, min_self]), he]
    unfold sumE
    rw [List.map_map, List.map_map]
    rfl
  unfold openedR at hmsm
  rw [hmsm] at hms
  generalize pMsm (K.ops H) _ (ps.map VerifierQuery.commitment) = R1 at hms ⊢
  rcases R1 with m | E
  · exact hms.elim
  have hE : Rep E e := hms
  simp only [S.appendPoint_rel _ _ hE]
  have hax : OnAxis ((K.ops H).sub E ⟨b, b / e.ratio, b * (b / e.ratio), 1⟩) := by
    show OnAxis (K.sub E _)
    rw [hK.sub]
    exact onAxis_sub hE he0 hb
  obtain ⟨t', ht'⟩ := verifyMultiexp_axis hK H (appendPoint (⟨codec, H⟩ : Oracle (ZMod r) BElem) (pChallenge (K.ops H)
    (appendMessage (absorbQueries (⟨codec, H⟩ : Oracle (ZMod r) BElem) (newTranscript (lbl "verkle")) (qs.map toQuery)).2 (lbl "D")
      (serFq b).reverse) (lbl "t")).2 (lbl "E") e) hn hg ((List.range 256).map fun i : ℕ =>
        (baryWeight (ZMod r) i 256 * (H (stringT H qs b) - (i : ZMod r)))⁻¹ * ∏ k ∈ Finset.range 256, (H (stringT H qs b) - (k : ZMod r)))
    hax (H (stringT H qs b))
  rw [ht']

/-! ### For nearly all hashes -/

/-- What is hashed for the challenge `r`. -/
noncomputable def stringR (qs : List (BElem × Byte × ZMod r)) : List Byte :=
  domainSep ((qs.map toQuery).foldl (fun t q =>
    appendScalar (⟨codec, fun _ => 0⟩ : Oracle (ZMod r) BElem) (appendScalar (⟨codec, fun _ => 0⟩ : Oracle (ZMod r) BElem)
      (appendPoint (⟨codec, fun _ => 0⟩ : Oracle (ZMod r) BElem) t (lbl "C") q.commitment) (lbl "z") q.point) (lbl "y") q.result)
    (domainSep (newTranscript (lbl "verkle")) (lbl "multiproof"))) (lbl "r")

/-- What is hashed for the challenge `t`, after the challenge `ρ`. -/
noncomputable def stringAfter (ρ : ZMod r) (b : ZMod Bander.q) : List Byte :=
  lbl "r" ++ codec.encS ρ ++ lbl "D" ++ (serFq b).reverse ++ lbl "t"

theorem strings_eq (H : List Byte → ZMod r) (qs : List (BElem × Byte × ZMod r)) (b : ZMod Bander.q) :
    (openedR H qs).1 = H (stringR qs) ∧ stringT H qs b = stringAfter (H (stringR qs)) b := ⟨rfl, rfl⟩

theorem stringAfter_length (ρ : ZMod r) (b : ZMod Bander.q) : (stringAfter ρ b).length = 67 := by
  unfold stringAfter
  simp only [List.length_append, codec.encS_len, List.length_reverse, serFq_length]
  rfl

theorem stringAfter_ne_R (ρ : ZMod r) (b : ZMod Bander.q) (qs : List (BElem × Byte × ZMod r)) : stringAfter ρ b ≠ stringR qs := by
  intro h
  have h1 := (List.append_inj' (s₁ := lbl "r" ++ codec.encS ρ ++ lbl "D" ++ (serFq b).reverse) (t₁ := lbl "t") h rfl).2
  revert h1
  decide

theorem stringAfter_inj (ρ : ZMod r) {b b' : ZMod Bander.q} (h : stringAfter ρ b = stringAfter ρ b') : b = b' := by
  have h1 := List.append_cancel_left (List.append_cancel_right h)
  have h2 := List.reverse_injective h1
  have h3 := deFq_serFq q_lt b []
  have h4 := deFq_serFq q_lt b' []
  rw [h2, h4] at h3
  exact (Option.some.inj h3).symm

/-- The challenges `t` for which the forgery with `b` succeeds. -/
def Lucky (e : BElem) (z : ZMod r) (b : ZMod Bander.q) (t : ZMod r) : Prop :=
  t ≠ z ∧ isPositive (b / ((t - z)⁻¹ • e).ratio) = true

theorem lucky_half {e : BElem} (he : e ≠ 0) (z : ZMod r) {b : ZMod Bander.q} (hb : b ≠ 0) {t : ZMod r} (ht : t ≠ z) :
    Lucky e z b t ∨ Lucky e z b (2 * z - t) := by
  have hne : (t - z)⁻¹ • e ≠ 0 := smul_ne_zero (inv_ne_zero (sub_ne_zero.2 ht)) he
  have hρ : ((t - z)⁻¹ • e).ratio ≠ 0 := fun h => hne ((ratio_zero_iff _).1 h)
  have e1 : (2 * z - t - z)⁻¹ • e = -((t - z)⁻¹ • e) := by
    rw [show 2 * z - t - z = -(t - z) by ring, inv_neg, neg_smul]
  unfold Lucky
  rw [e1, ratio_neg, div_neg, isPositive_neg good (div_ne_zero hb hρ)]
  have h2 : 2 * z - t ≠ z := fun h => ht (by linear_combination -h)
  cases isPositive (b / ((t - z)⁻¹ • e).ratio) <;> simp [ht, h2]

theorem lucky_card {e : BElem} (he : e ≠ 0) (z : ZMod r) {b : ZMod Bander.q} (hb : b ≠ 0) :
    r - 1 ≤ 2 * (Finset.univ.filter (Lucky e z b)).card := by
  have h1 : (Finset.univ.erase z).card ≤ ((Finset.univ.filter (Lucky e z b)) ∪ (Finset.univ.filter (Lucky e z b)).image fun t => 2 * z - t).card := by
    refine Finset.card_le_card fun t ht => ?_
    rw [Finset.mem_union, Finset.mem_filter, Finset.mem_image]
    rcases lucky_half he z hb (Finset.mem_erase.1 ht).1 with h | h
    · exact Or.inl ⟨Finset.mem_univ _, h⟩
    · exact Or.inr ⟨2 * z - t, Finset.mem_filter.2 ⟨Finset.mem_univ _, h⟩, by ring⟩
  rw [Finset.card_erase_of_mem (Finset.mem_univ _), Finset.card_univ, ZMod.card] at h1
  have h2 := Finset.card_union_le (Finset.univ.filter (Lucky e z b)) ((Finset.univ.filter (Lucky e z b)).image fun t => 2 * z - t)
  have h3 := Finset.card_image_le (s := Finset.univ.filter (Lucky e z b)) (f := fun t : ZMod r => 2 * z - t)
  omega

theorem exists_digest {n : ℕ} (h : n < 2 ^ 256) : ∃ d : Digest, leNat (List.ofFn d) = n := by
  have hl : (leBytes 32 n).length = 32 := leBytes_length _ _
  refine ⟨fun i => (leBytes 32 n).get (i.cast hl.symm), ?_⟩
  have : List.ofFn (fun i : Fin 32 => (leBytes 32 n).get (i.cast hl.symm)) = leBytes 32 n := by
    apply List.ext_getElem
    · rw [List.length_ofFn, hl]
    · intro i h1 h2
      rw [List.getElem_ofFn]
      rfl
  rw [this, leNat_leBytes]
  exact Nat.mod_eq_of_lt h

/-- Each challenge comes from at least 8 digests. -/
theorem eight_digests (T : Finset (ZMod r)) : 8 * T.card ≤ (Finset.univ.filter fun d : Digest => digestScalar d ∈ T).card := by
  have h8 : 8 * r ≤ 2 ^ 256 := by decide +kernel
  have hb : ∀ (k : Fin 8) (t : ZMod r), k * r + t.val < 2 ^ 256 := by
    intro k t
    have h1 := ZMod.val_lt t
    have h2 : (k : ℕ) * r + r ≤ 8 * r := by
      have := Nat.mul_le_mul_right r (show (k : ℕ) + 1 ≤ 8 from k.isLt)
      rwa [Nat.add_mul, one_mul] at this
    omega
  choose d hd using fun (x : Fin 8 × ZMod r) => exists_digest (hb x.1 x.2)
  have h1 : (Finset.univ (α := Fin 8) ×ˢ T).card = 8 * T.card := by rw [Finset.card_product, Finset.card_univ, Fintype.card_fin]
  have hval : ∀ x : Fin 8 × ZMod r, digestScalar (d x) = x.2 := by
    intro x
    unfold digestScalar frLe
    rw [hd, Nat.cast_add, Nat.cast_mul, ZMod.natCast_self, mul_zero, zero_add, ZMod.natCast_zmod_val]
  rw [← h1]
  refine Finset.card_le_card_of_injOn d (fun x hx => ?_) ?_
  · have hm : digestScalar (d x) ∈ T := by
      rw [hval]
      exact (Finset.mem_product.1 (Finset.mem_coe.1 hx)).2
    simp only [Finset.coe_filter, Finset.mem_univ, true_and, Set.mem_setOf_eq]
    exact hm
  · intro x _ x' _ h
    have h2 : x.2 = x'.2 := by rw [← hval x, ← hval x', h]
    have h3 := hd x
    rw [h, hd x', h2] at h3
    have h4 : (x'.1 : ℕ) * r = x.1 * r := Nat.add_right_cancel h3
    have hr : 0 < r := by decide +kernel
    have h5 : (x'.1 : ℕ) = x.1 := Nat.eq_of_mul_eq_mul_right hr h4
    exact Prod.ext (Fin.ext h5.symm) h2

/-- At most three fifths of the digests are unlucky. -/
theorem unlucky_digests {e : BElem} (he : e ≠ 0) (z : ZMod r) {b : ZMod Bander.q} (hb : b ≠ 0) :
    5 * (Finset.univ.filter fun d : Digest => ¬ Lucky e z b (digestScalar d)).card ≤ 3 * Fintype.card Digest := by
  have h1 := lucky_card he z hb
  have h2 := eight_digests (Finset.univ.filter (Lucky e z b))
  have h3 := Finset.card_filter_add_card_filter_not (s := (Finset.univ : Finset Digest)) fun d => Lucky e z b (digestScalar d)
  simp only [Finset.mem_filter, Finset.mem_univ, true_and] at h2
  rw [Finset.card_univ, card_digest] at h3
  rw [card_digest]
  have h4 : 2 * 2 ^ 256 ≤ 20 * (r - 1) := by decide +kernel
  have hr : 1 ≤ r := by decide +kernel
  generalize (Finset.univ.filter fun d : Digest => ¬ Lucky e z b (digestScalar d)).card = x at *
  generalize (Finset.univ.filter fun d : Digest => Lucky e z b (digestScalar d)).card = y at *
  generalize (Finset.univ.filter (Lucky e z b)).card = w at *
  generalize r - 1 = r' at *
  omega

/-- Hashes counted by the answer at a place which may depend on the other answers. -/
theorem fibre_count {D E : Type} [Fintype D] [DecidableEq D] [Fintype E] (P : (D → E) → Prop) (s : (D → E) → D)
    (hs : ∀ H e, s (Function.update H (s H) e) = s H) :
    ∑ H : D → E, (Finset.univ.filter fun e => P (Function.update H (s H) e)).card = Fintype.card E * (Finset.univ.filter P).card := by
  rw [← Finset.card_sigma, ← Finset.card_univ, ← Finset.card_product]
  refine Finset.card_bij' (fun x _ => (x.1 (s x.1), Function.update x.1 (s x.1) x.2)) (fun x _ => ⟨Function.update x.2 (s x.2) x.1, x.2 (s x.2)⟩) ?_ ?_ ?_ ?_
  · rintro ⟨H, e⟩ h
    rw [Finset.mem_sigma, Finset.mem_filter] at h
    rw [Finset.mem_product, Finset.mem_filter]
    exact ⟨Finset.mem_univ _, Finset.mem_univ _, h.2.2⟩
  · rintro ⟨e, H⟩ h
    rw [Finset.mem_product, Finset.mem_filter] at h
    rw [Finset.mem_sigma, Finset.mem_filter]
    refine ⟨Finset.mem_univ _, Finset.mem_univ _, ?_⟩
    dsimp only
    rw [hs, Function.update_idem, Function.update_eq_self]
    exact h.2.2
  · rintro ⟨H, e⟩ _
    dsimp only
    rw [hs, Function.update_idem, Function.update_eq_self, Function.update_self]
  · rintro ⟨e, H⟩ _
    dsimp only
    rw [hs, Function.update_idem, Function.update_eq_self, Function.update_self]

/-- Try the forgery with one `b` after the other. -/
noncomputable def tryForge (e : BElem) (z : ZMod r) (ρ : ZMod r) : List (ZMod Bander.q) → Prog (List Byte) Digest (List Byte)
  | [] => .ret []
  | b :: l => .ask (stringAfter ρ b) fun d => if Lucky e z b (digestScalar d) then
      .ret (forgedProof b (b / ((digestScalar d - z)⁻¹ • e).ratio)) else tryForge e z ρ l

/-- The forger of the claim that the vector committed to by `e` is zero at `z`. -/
noncomputable def forger (e : BElem) (z : Byte) (l : List (ZMod Bander.q)) : Prog (List Byte) Digest (List Byte) :=
  .ask (stringR [(e, z, 0)]) fun d => tryForge e ((z.val : ℕ) : ZMod r) (digestScalar d) l

theorem tryForge_within (e : BElem) (z ρ : ZMod r) : ∀ l : List (ZMod Bander.q), (tryForge e z ρ l).Within l.length
  | [] => trivial
  | b :: l => fun d => by
    dsimp only
    split
    · trivial
    · exact tryForge_within e z ρ l

theorem tryForge_run (e : BElem) (z ρ : ZMod r) (R : List Byte → Digest) : ∀ l : List (ZMod Bander.q),
    (∀ b ∈ l, ¬ Lucky e z b (chal R (stringAfter ρ b))) ∨ ∃ b ∈ l, Lucky e z b (chal R (stringAfter ρ b)) ∧
      (tryForge e z ρ l).run R = forgedProof b (b / ((chal R (stringAfter ρ b) - z)⁻¹ • e).ratio)
  | [] => Or.inl fun _ h => by simp at h
  | b :: l => by
    by_cases h : Lucky e z b (chal R (stringAfter ρ b))
    · refine Or.inr ⟨b, List.mem_cons_self, h, ?_⟩
      have h' : Lucky e z b (digestScalar (R (stringAfter ρ b))) := h
      rw [tryForge, Prog.run, if_pos h', Prog.run]
      rfl
    · have h' : ¬ Lucky e z b (digestScalar (R (stringAfter ρ b))) := h
      rw [tryForge, Prog.run, if_neg h']
      rcases tryForge_run e z ρ R l with h1 | ⟨b', h1, h2, h3⟩
      · left
        intro b' hb'
        rcases List.mem_cons.1 hb' with rfl | hb'
        · exact h
        · exact h1 b' hb'
      · exact Or.inr ⟨b', List.mem_cons_of_mem _ h1, h2, h3⟩

theorem sumE_single (e : BElem) (z : Byte) (v ρ t : ZMod r) : sumE [(e, z, v)] ρ t = (t - ((z.val : ℕ) : ZMod r))⁻¹ • e := by
  unfold sumE powersOf batchInv lin
  simp

/-- The forger fails only if it is unlucky with every `b`. -/
theorem forger_fails {K : Ark} (hK : Formulas K) {ctx : ProofContext} (hctx : ProofContext.new = .ok ctx) {e : BElem} (he : e ≠ 0) {z : Byte}
    {c : List Byte} (hc : QueryForm c (e, z, 0)) {l : List (ZMod Bander.q)} (hl : ∀ b ∈ l, b ≠ 0) {R : List Byte → Digest}
    (hf : ¬ cVerifyProofUncompressed K (chal R) ctx ((forger e z l).run R ++ c) = .ok true) :
    ∀ b ∈ l, ¬ Lucky e ((z.val : ℕ) : ZMod r) b (chal R (stringAfter (chal R (stringR [(e, z, 0)])) b)) := by
  rcases tryForge_run e ((z.val : ℕ) : ZMod r) (chal R (stringR [(e, z, 0)])) R l with h | ⟨b, h1, ⟨h2, h3⟩, h4⟩
  · exact h
  · refine absurd ?_ hf
    have h5 : (forger e z l).run R = (tryForge e ((z.val : ℕ) : ZMod r) (chal R (stringR [(e, z, 0)])) l).run R := rfl
    have h6 := C87_forgery hK (chal R) hctx (cs := [c]) (qs := [(e, z, 0)]) (.cons hc .nil) (List.cons_ne_nil _ _)
      (fun x hx => by rw [List.mem_singleton.1 hx]) (hl b h1) rfl
    rw [(strings_eq (chal R) [(e, z, 0)] b).2, sumE_single, List.flatten_cons, List.flatten_nil, List.append_nil] at h6
    rw [h5, h4]
    exact h6 (smul_ne_zero (inv_ne_zero (sub_ne_zero.2 h2)) he) h3

theorem over_update {D : Finset (List Byte)} (H₀ : List Byte → Digest) (H : D → Digest) (s : D) (d : Digest) (x : List Byte) :
    over H₀ (Function.update H s d) x = if x = s.1 then d else over H₀ H x := by
  unfold over
  by_cases h : x = s.1
  · subst h
    rw [dif_pos s.2, if_pos rfl, Function.update_self]
  · rw [if_neg h]
    split
    · rw [Function.update_of_ne (fun e => h (by rw [← e]))]
    · rfl

/-- The hashes for which the forger is unlucky with every `b`. -/
def Unlucky {D : Finset (List Byte)} (e : BElem) (z : Byte) (H₀ : List Byte → Digest) (l : List (ZMod Bander.q)) (H : D → Digest) : Prop :=
  ∀ b ∈ l, ¬ Lucky e ((z.val : ℕ) : ZMod r) b (chal (over H₀ H) (stringAfter (chal (over H₀ H) (stringR [(e, z, 0)])) b))

theorem unlucky_card {D : Finset (List Byte)} (hD : ∀ s : List Byte, s.length ≤ 67 → s ∈ D) {e : BElem} (he : e ≠ 0) (z : Byte)
    (H₀ : List Byte → Digest) : ∀ {l : List (ZMod Bander.q)}, l.Nodup → (∀ b ∈ l, b ≠ 0) →
      5 ^ l.length * (Finset.univ.filter (Unlucky (D := D) e z H₀ l)).card ≤ 3 ^ l.length * Fintype.card Digest ^ D.card
  | [], _, _ => by
    have h1 := Finset.card_filter_le (Finset.univ : Finset (D → Digest)) (Unlucky e z H₀ [])
    rw [Finset.card_univ, Fintype.card_fun (β := Digest), Fintype.card_coe] at h1
    simpa using h1
  | b :: l, hn, hb => by
    have ih := unlucky_card hD he z H₀ (List.nodup_cons.1 hn).2 fun b' h => hb b' (List.mem_cons_of_mem _ h)
    have h5 := unlucky_digests he ((z.val : ℕ) : ZMod r) (hb b List.mem_cons_self)
    let place : (D → Digest) → D := fun H => ⟨stringAfter (chal (over H₀ H) (stringR [(e, z, 0)])) b, hD _ (stringAfter_length _ _).le⟩
    have hR : ∀ (H : D → Digest) d, chal (over H₀ (Function.update H (place H) d)) (stringR [(e, z, 0)]) =
        chal (over H₀ H) (stringR [(e, z, 0)]) := by
      intro H d
      unfold chal
      rw [over_update, if_neg (fun h => stringAfter_ne_R _ _ _ h.symm)]
    have hs : ∀ H d, place (Function.update H (place H) d) = place H := fun H d =>
      Subtype.ext (by show stringAfter _ b = stringAfter _ b; rw [hR])
    have key : ∀ H d, Unlucky e z H₀ (b :: l) (Function.update H (place H) d) ↔
        Unlucky e z H₀ l H ∧ ¬ Lucky e ((z.val : ℕ) : ZMod r) b (digestScalar d) := by
      intro H d
      unfold Unlucky
      rw [List.forall_mem_cons, and_comm]
      refine and_congr (forall₂_congr fun b' hb' => ?_) ?_
      · rw [hR]
        have : chal (over H₀ (Function.update H (place H) d)) (stringAfter (chal (over H₀ H) (stringR [(e, z, 0)])) b') =
            chal (over H₀ H) (stringAfter (chal (over H₀ H) (stringR [(e, z, 0)])) b') := by
          unfold chal
          rw [over_update, if_neg]
          intro h
          exact (List.nodup_cons.1 hn).1 (stringAfter_inj _ h ▸ hb')
        rw [this]
      · rw [hR]
        have : chal (over H₀ (Function.update H (place H) d)) (stringAfter (chal (over H₀ H) (stringR [(e, z, 0)])) b) = digestScalar d := by
          unfold chal
          rw [over_update]
          exact congrArg _ (if_pos rfl)
        rw [this]
    have hsum := fibre_count (Unlucky (D := D) e z H₀ (b :: l)) place hs
    simp only [key] at hsum
    have hle : Fintype.card Digest * (Finset.univ.filter (Unlucky (D := D) e z H₀ (b :: l))).card =
        (Finset.univ.filter (Unlucky (D := D) e z H₀ l)).card *
          (Finset.univ.filter fun d : Digest => ¬ Lucky e ((z.val : ℕ) : ZMod r) b (digestScalar d)).card := by
      rw [← hsum, ← Finset.sum_const_nat (fun _ _ => rfl), Finset.sum_filter]
      refine Finset.sum_congr rfl fun H _ => ?_
      split
      next h => simp only [h, true_and]
      next h => simp only [h, false_and, Finset.filter_false, Finset.card_empty]
    rw [List.length_cons, pow_succ, pow_succ]
    have hpos : 0 < Fintype.card Digest := by rw [card_digest]; norm_num
    refine Nat.le_of_mul_le_mul_left ?_ hpos
    generalize Fintype.card Digest = N at *
    generalize (Finset.univ.filter (Unlucky (D := D) e z H₀ (b :: l))).card = x at *
    generalize (Finset.univ.filter (Unlucky (D := D) e z H₀ l)).card = y at *
    generalize (Finset.univ.filter fun d : Digest => ¬ Lucky e ((z.val : ℕ) : ZMod r) b (digestScalar d)).card = w at *
    calc N * (5 ^ l.length * 5 * x) = 5 ^ l.length * 5 * (N * x) := by ring
      _ = (5 ^ l.length * y) * (5 * w) := by rw [hle]; ring
      _ ≤ (3 ^ l.length * N ^ D.card) * (3 * N) := Nat.mul_le_mul ih h5
      _ = N * (3 ^ l.length * 3 * N ^ D.card) := by ring

/-- C87: a program that asks the hash `k + 1` times forges, for all hashes but a part of `(3/5)ᵏ`, an uncompressed proof of the claim that the vector
committed to is zero at `z`, whatever the commitment `e ≠ 0` and whatever `z`. -/
theorem C87_program {K : Ark} (hK : Formulas K) {ctx : ProofContext} (hctx : ProofContext.new = .ok ctx) {e : BElem} (he : e ≠ 0) (z : Byte)
    {c : List Byte} (hc : QueryForm c (e, z, 0)) {k : ℕ} (hk : k < 2 ^ 252) :
    ∃ A : Prog (List Byte) Digest (List Byte), A.Within (k + 1) ∧ ∀ (H₀ : List Byte → Digest) (D : Finset (List Byte)),
      (∀ s : List Byte, s.length ≤ 67 → s ∈ D) →
      5 ^ k * Fintype.card {H : D → Digest // ¬ cVerifyProofUncompressed K (chal (over H₀ H)) ctx (A.run (over H₀ H) ++ c) = .ok true} ≤
        3 ^ k * Fintype.card Digest ^ D.card := by
  set l : List (ZMod Bander.q) := (List.range k).map fun i : ℕ => ((i + 1 : ℕ) : ZMod Bander.q) with hl
  have hq : 2 ^ 252 < Bander.q := by decide +kernel
  have hlen : l.length = k := by rw [hl, List.length_map, List.length_range]
  have hval : ∀ i : ℕ, i < k → ((i + 1 : ℕ) : ZMod Bander.q).val = i + 1 := fun i hi => ZMod.val_natCast_of_lt (by omega)
  have hnd : l.Nodup := by
    refine List.Nodup.map_on ?_ List.nodup_range
    intro i hi j hj h
    have := congrArg ZMod.val h
    rw [hval i (List.mem_range.1 hi), hval j (List.mem_range.1 hj)] at this
    omega
  have hb : ∀ b ∈ l, b ≠ 0 := by
    intro b hb h
    obtain ⟨i, hi, rfl⟩ := List.mem_map.1 hb
    have := congrArg ZMod.val h
    rw [hval i (List.mem_range.1 hi), ZMod.val_zero] at this
    omega
  refine ⟨forger e z l, fun d => hlen ▸ tryForge_within _ _ _ l, fun H₀ D hD => ?_⟩
  have h1 := unlucky_card hD he z H₀ hnd hb
  rw [hlen] at h1
  refine le_trans (Nat.mul_le_mul_left _ ?_) h1
  rw [Fintype.card_subtype]
  refine Finset.card_le_card fun H hH => ?_
  rw [Finset.mem_filter] at hH ⊢
  exact ⟨hH.1, forger_fails hK hctx he hc hb hH.2⟩

theorem g3_ne : crypto.g 3 ≠ (0 : BElem) := by
  obtain ⟨crs, -, -, h3, h4, -, h5, -⟩ := C53_default
  have hl : crsElems.length = 257 := by rw [← h4.length_eq, List.length_append, h3]; rfl
  intro h
  apply h5
  have h6 : crypto.g 3 = crsElems.dropLast.getD 3 0 := rfl
  rw [← h, h6, List.getD_eq_getElem _ _ (by rw [List.length_dropLast, hl]; norm_num)]
  exact List.dropLast_subset _ (List.getElem_mem _)

/-- C87 as stated is false.  The vector which is 1 at 3 and 0 elsewhere is not zero at 3.  Still there is a program that, without looking at a
proof, makes `verify_proof_uncompressed` accept that it is, for all hashes but a part of `(3/5)ᵏ` with `k + 1` questions. -/
theorem C87_full_claim_false : ∃ (v : Byte → ZMod r) (z : Byte), v z ≠ 0 ∧ ∃ c, QueryForm c (Spec.commit crypto v, z, 0) ∧
    ∀ (K : Ark) (ctx : ProofContext), Formulas K → ProofContext.new = .ok ctx → ∀ k : ℕ, k < 2 ^ 252 →
    ∃ A : Prog (List Byte) Digest (List Byte), A.Within (k + 1) ∧ ∀ (H₀ : List Byte → Digest) (D : Finset (List Byte)),
      (∀ s : List Byte, s.length ≤ 67 → s ∈ D) →
      5 ^ k * Fintype.card {H : D → Digest // ¬ cVerifyProofUncompressed K (chal (over H₀ H)) ctx (A.run (over H₀ H) ++ c) = .ok true} ≤
        3 ^ k * Fintype.card Digest ^ D.card := by
  have hv : Spec.commit crypto (fun i : Byte => if i = 3 then (1 : ZMod r) else 0) = crypto.g 3 := by
    unfold Spec.commit
    simp
  have hne := g3_ne
  obtain ⟨b, hb⟩ := exists_denotes (crypto.g 3)
  refine ⟨fun i => if i = 3 then 1 else 0, 3, by simp, _, ⟨b, hv ▸ hb, rfl⟩, fun K ctx hK hctx k hk => ?_⟩
  exact C87_program hK hctx (hv ▸ hne) 3 ⟨b, hv ▸ hb, rfl⟩ hk

/-! ### With points of the group only -/

/-- The bytes are made of uncompressed forms of a proof and of at least one and at most `qmax` queries. -/
def Forms (qmax : ℕ) (out : List Byte) (x : MultiProof (ZMod r) BElem × List (BElem × Byte × ZMod r)) : Prop :=
  ∃ pb cs, out = pb ++ List.flatten cs ∧ x.1.openProof.L.length = 8 ∧ x.1.openProof.R.length = 8 ∧ ProofForm pb x.1 ∧ List.Forall₂ QueryForm cs x.2 ∧
    x.2 ≠ [] ∧ x.2.length ≤ qmax

/-- The output of a program is accepted by `verify_proof_uncompressed`, and each point in it is a point of the group. -/
def ForgesU (K : Ark) (ctx : ProofContext) (qmax : ℕ) (A : Prog (List Byte) (ZMod r) (List Byte)) (H : List Byte → ZMod r) : Prop :=
  (∃ x, Forms qmax (A.run H) x) ∧ cVerifyProofUncompressed K H ctx (A.run H) = .ok true

/-- The compressed form. -/
noncomputable def compress (qmax : ℕ) (out : List Byte) : List Byte :=
  if h : ∃ x, Forms qmax out x then multiToBytes codec h.choose.1 ++ h.choose.2.flatMap (queryBytes codec) else []

theorem compress_forges {K : Ark} {ctx : ProofContext} (hctx : ProofContext.new = .ok ctx) (S : Sqrt (ZMod Bander.q)) {qmax : ℕ} {out : List Byte}
    {H : List Byte → ZMod r} : (ForgesU K ctx qmax (.ret out) H ↔ ForgesC K ctx S qmax (.ret (compress qmax out)) H) ∧
      (ForgesU K ctx qmax (.ret out) H → ∃ x, Forms qmax out x ∧ compress qmax out = multiToBytes codec x.1 ++ x.2.flatMap (queryBytes codec)) := by
  unfold ForgesU ForgesC
  simp only [Prog.run]
  have key : ∀ h : ∃ x, Forms qmax out x, (∃ x, Forms qmax out x ∧ compress qmax out = multiToBytes codec x.1 ++ x.2.flatMap (queryBytes codec)) ∧
      576 < (compress qmax out).length ∧ (compress qmax out).length ≤ 576 + 65 * qmax ∧
      cVerifyProofUncompressed K H ctx out = cVerifyProof K H ctx S (compress qmax out) := by
    intro h
    have hc : compress qmax out = multiToBytes codec h.choose.1 ++ h.choose.2.flatMap (queryBytes codec) := dif_pos h
    obtain ⟨pb, cs, h1, hL, hR, h2, h3, h4, h5⟩ := h.choose_spec
    have hlen : (compress qmax out).length = 576 + 65 * h.choose.2.length := by
      have h65 : ∀ q : BElem × Byte × ZMod r, (queryBytes codec q).length = 65 := fun q => verifierQueryBytes_length codec (codec.encE_len _) _ _
      rw [hc, List.length_append, multiToBytes_length, hL, hR, List.length_flatMap, List.map_congr_left (g := fun _ => 65) (fun q _ => h65 q),
        List.map_const', List.sum_replicate, smul_eq_mul]
      omega
    have hpos := List.length_pos_iff.2 h4
    refine ⟨⟨_, h.choose_spec, hc⟩, by omega, by omega, ?_⟩
    rw [hc, ← C59_verify_uncompressed K H hctx S hL hR h2 h3, ← h1]
  refine ⟨⟨?_, ?_⟩, fun h => (key h.1).1⟩
  · rintro ⟨h1, h2⟩
    obtain ⟨-, h4, h5, h6⟩ := key h1
    exact ⟨h4, h5, h6 ▸ h2⟩
  · rintro ⟨h1, -, h2⟩
    by_cases h : ∃ x, Forms qmax out x
    · exact ⟨h, (key h).2.2.2.trans h2⟩
    · have hc : compress qmax out = [] := dif_neg h
      rw [hc] at h1
      exact absurd h1 (by simp)

/-- C87 (partial: with points of the group only).  A program that asks SHA-256 at most `N` times and makes `verify_proof_uncompressed` say yes to a
proof and queries whose points are all in the group, for more than the part `9 (N + 11) (513 + q + 2 (N + 11)) / 2²⁵⁶` of the hashes, has runs from
which a non-trivial relation between the generators and `Q`, or vectors that open the commitments sent, are computed. -/
theorem C87_sound_partial {N qmax : ℕ} (K : Ark) {ctx : ProofContext} (hctx : ProofContext.new = .ok ctx)
    (A : Prog (List Byte) Digest (List Byte)) (hA : A.Within N) (H₀ : List Byte → Digest)
    (D : Finset (List Byte)) (hD : ∀ s : List Byte, s.length ≤ 99 * qmax + 196 → s ∈ D)
    (h : (N + 11) * (9 * (513 + qmax + 2 * (N + 11))) * Fintype.card Digest ^ D.card <
      Fintype.card Digest * Fintype.card {H : D → Digest // ForgesU K ctx qmax (.ret (A.run (over H₀ H))) (chal (over H₀ H))}) :
    ∃ (xs : List (BElem × Byte × ZMod r)) (qs : List (VerifierQuery (ZMod r) BElem))
      (X : MultiTree (ZMod r) BElem qs.length (256 + qs.length - 1) 8),
      xs ≠ [] ∧ qs = xs.map toQuery ∧ X.Distinct 256 ∧
      (∀ i j u, ∀ p ∈ (X.ipa i j u).leaves, ∃ (H : D → Digest) (x : MultiProof (ZMod r) BElem × List (BElem × Byte × ZMod r)),
        Forms qmax (A.run (over H₀ H)) x ∧
        multiToBytes codec x.1 ++ x.2.flatMap (queryBytes codec) = multiToBytes codec ⟨p.2, X.D i⟩ ++ xs.flatMap (queryBytes codec) ∧
        drawn ⟨codec, chal (over H₀ H)⟩ (newTranscript (lbl "verkle")) ⟨p.2, X.D i⟩ qs = (X.r i, X.t i j, X.w i j u, p.1)) ∧
      ((∃ ρ ∈ X.rels qs.get 256, ρ ≠ 0 ∧ ∑ i : Fin 256, ρ.1 i • crypto.g i + ρ.2 • genPt = 0) ∨
      ∀ x ∈ xs, ∑ i : Byte, vecOf qs X x.1 i • crypto.g i.val = x.1 ∧ vecOf qs X x.1 x.2.1 = x.2.2) := by
  have hrun : ∀ R, (A.bind fun out => .ret (compress qmax out)).run R = compress qmax (A.run R) := fun R => Prog.run_bind R _ A
  have e : ∀ H : D → Digest, ForgesU K ctx qmax (.ret (A.run (over H₀ H))) (chal (over H₀ H)) ↔
      ForgesC K ctx (someSqrt _) qmax (.ret ((A.bind fun out => .ret (compress qmax out)).run (over H₀ H))) (chal (over H₀ H)) := by
    intro H
    rw [hrun]
    exact (compress_forges hctx (someSqrt _)).1
  have h' : (N + 11) * (9 * (513 + qmax + 2 * (N + 11))) * Fintype.card Digest ^ D.card < Fintype.card Digest * Fintype.card {H : D → Digest //
      ForgesC K ctx (someSqrt _) qmax (.ret ((A.bind fun out => .ret (compress qmax out)).run (over H₀ H))) (chal (over H₀ H))} := by
    refine lt_of_lt_of_le h (Nat.mul_le_mul_left _ (Fintype.card_subtype_mono _ _ fun H hH => (e H).1 hH))
  obtain ⟨xs, qs, X, h1, h2, h3, h4, h5⟩ := C83_c K hctx (someSqrt _) (A.bind fun out => .ret (compress qmax out))
    (Prog.Within.bind (n := 0) (f := fun out => .ret (compress qmax out)) (fun _ => trivial) hA) H₀ D hD h'
  refine ⟨xs, qs, X, h1, h2, h3, fun i j u p hp => ?_, h5⟩
  obtain ⟨H, h6, h7, h8⟩ := h4 i j u p hp
  obtain ⟨x, h9, h10⟩ := (compress_forges hctx (someSqrt _)).2 ((e H).2 h6)
  refine ⟨H, x, h9, ?_, h8⟩
  rw [← h10, ← h7, hrun]

/-- The hypotheses of `C87_forgery`, `C87_program` can be met: there are operations with these formulas, contexts, and forms. -/
example : ∃ (K : Ark) (ctx : ProofContext) (e : BElem) (c : List Byte), Formulas K ∧ ProofContext.new = .ok ctx ∧ e ≠ 0 ∧ QueryForm c (e, 200, 0) ∧
    ∀ b : ZMod Bander.q, b ≠ 0 → ∃ t, Lucky e 200 b t := by
  obtain ⟨K, hK⟩ := exists_formulas
  obtain ⟨ctx, hctx, -⟩ := C59_context
  have he := g3_ne
  obtain ⟨b, hb⟩ := exists_denotes (crypto.g 3)
  refine ⟨K, ctx, crypto.g 3, _, hK, hctx, he, ⟨b, hb, rfl⟩, fun b hb => ?_⟩
  have h := lucky_half he 200 hb (t := 201) (by decide +kernel)
  exact h.elim (fun h => ⟨_, h⟩) fun h => ⟨_, h⟩

theorem forms_exist (es : List BElem) : ∃ l, List.Forall₂ Denotes l es := by
  induction es with
  | nil => exact ⟨[], .nil⟩
  | cons e es ih =>
    obtain ⟨l, h⟩ := ih
    obtain ⟨b, hb⟩ := exists_denotes e
    exact ⟨_ :: l, .cons hb h⟩

theorem queryForms_exist (qs : List (BElem × Byte × ZMod r)) : ∃ l, List.Forall₂ QueryForm l qs := by
  induction qs with
  | nil => exact ⟨[], .nil⟩
  | cons q qs ih =>
    obtain ⟨l, h⟩ := ih
    obtain ⟨b, hb⟩ := exists_denotes q.1
    exact ⟨_ :: l, .cons ⟨b, hb, rfl⟩ h⟩

/-- An uncompressed form. -/
noncomputable def uncompress (qmax : ℕ) (out : List Byte) : List Byte :=
  if h : ∃ u x, Forms qmax u x ∧ out = multiToBytes codec x.1 ++ x.2.flatMap (queryBytes codec) then h.choose else []

theorem uncompress_forges {K : Ark} {ctx : ProofContext} (hctx : ProofContext.new = .ok ctx) {qmax : ℕ} {out : List Byte}
    {H : List Byte → ZMod r} (h : ForgesBytes codec crypto genPt qmax (.ret out) H) : ForgesU K ctx qmax (.ret (uncompress qmax out)) H := by
  obtain ⟨hc, hW⟩ := context_rel hctx
  obtain ⟨p, qs, -, h1, h2, h3, h4, h5, -⟩ := forgesBytes_view hW (fun _ _ _ h => (C52_canonical.1 _ _).1 h)
    (fun _ _ _ h => (C52_canonical.2 _ _).1 h) h
  obtain ⟨g, hg⟩ := exists_denotes p.gx
  obtain ⟨l, hl⟩ := forms_exist p.openProof.L
  obtain ⟨m, hm⟩ := forms_exist p.openProof.R
  obtain ⟨cs, hcs⟩ := queryForms_exist qs
  have hex : ∃ u x, Forms qmax u x ∧ out = multiToBytes codec x.1 ++ x.2.flatMap (queryBytes codec) :=
    ⟨_, (p, qs), ⟨_, cs, rfl, h3, h4, ⟨g, l, m, hg, hl, hm, rfl⟩, hcs, h1, h2⟩, h5⟩
  have hu : uncompress qmax out = hex.choose := dif_pos hex
  obtain ⟨x, hx, hout⟩ := hex.choose_spec
  unfold ForgesU
  simp only [Prog.run]
  rw [hu]
  refine ⟨⟨x, hx⟩, ?_⟩
  obtain ⟨pb, cs, h6, hL, hR, h7, h8, -, -⟩ := hx
  rw [h6, C59_verify_uncompressed K H hctx (someSqrt _) hL hR h7 h8, ← hout]
  exact (C59_verify K H hctx (someSqrt _) out true).2 h.2.2

/-- The hypotheses of `C87_sound_partial` are met by the honest prover for the openings of two vectors. -/
example (H₀ : List Byte → Digest) : ∃ (K : Ark) (ctx : ProofContext) (A : Prog (List Byte) Digest (List Byte)) (D : Finset (List Byte)),
    ProofContext.new = .ok ctx ∧ A.Within 11 ∧ (∀ s : List Byte, s.length ≤ 99 * 2 + 196 → s ∈ D) ∧
      (11 + 11) * (9 * (513 + 2 + 2 * (11 + 11))) * Fintype.card Digest ^ D.card <
        Fintype.card Digest * Fintype.card {H : D → Digest // ForgesU K ctx 2 (.ret (A.run (over H₀ H))) (chal (over H₀ H))} := by
  obtain ⟨K, -⟩ := exists_ark
  obtain ⟨ctx, hctx, -⟩ := C59_context
  obtain ⟨A, hA, hw⟩ := forgesBytes_honest_of C83_spread (qmax := 2) C52_scalar_field.1 codec crypto genPt (qs := sampleQueries)
    (List.cons_ne_nil _ _) (le_of_eq rfl) sampleQueries_ok.2
  refine ⟨K, ctx, (A.lift digestScalar).bind fun out => .ret (uncompress 2 out), shortStrings (99 * 2 + 196), hctx,
    Prog.Within.bind (n := 0) (f := fun out => .ret (uncompress 2 out)) (fun _ => trivial) (hA.lift _), fun s h => mem_shortStrings h, ?_⟩
  refine win_of_lose (le_trans (Nat.mul_le_mul_left _ (Fintype.card_subtype_mono _ _ fun H hH hf => hH ?_))
    (hw H₀ _ fun s h => mem_shortStrings h)) (by rw [card_digest]; norm_num)
  have hrun : ∀ R, ((A.lift digestScalar).bind fun out => .ret (uncompress 2 out)).run R = uncompress 2 ((A.lift digestScalar).run R) :=
    fun R => Prog.run_bind R _ _
  rw [hrun]
  apply uncompress_forges hctx
  unfold ForgesBytes at hf ⊢
  rw [Prog.lift_run]
  exact hf

end Verif.Props
