import Verif.Ipa.Lemmas
import Verif.Props.Wire

/-!
# C28, C29, C34: the inner product argument and its transcript
-/

set_option autoImplicit false
set_option linter.unusedSectionVars false

namespace Verif.Props
open Ipa Proof

section
variable {F G : Type} [Field F] [AddCommGroup G] [Module F G] [DecidableEq F] [DecidableEq G] (O : Oracle F G)

/-- C28.  Completeness, for every size `2 ^ k`, vectors, generators, transcript state and hash: whenever the prover returns a
proof for the vector committed to, the verifier accepts it for the inner product of the two vectors, and both end with the
same transcript. -/
theorem C28_completeness {k : ℕ} (hk : k < 64) {crs : CRS G} (hn : crs.n = 2 ^ k) (hg : crs.gens.length = 2 ^ k)
    {t t' : Transcript} {a b : List F} {z : F} {π : IpaProof F G}
    (h : create O t crs a (List.zipWith (· • ·) a crs.gens).sum b z = .ok (π, t')) :
    verify O π t crs b (List.zipWith (· • ·) a crs.gens).sum z (List.zipWith (· * ·) a b).sum = .ok (true, t') := by
  change create O t crs a (lin a crs.gens) b z = _ at h
  change verify O π t crs b (lin a crs.gens) z (lin a b) = _
  unfold create at h
  simp only at h
  split at h
  · simp at h
  rename_i ha
  split at h
  · simp at h
  rename_i hb
  split at h
  · simp at h
  simp only [ne_eq, not_not, hg] at ha hb
  rw [hg, Nat.clog_pow 2 k (by norm_num)] at h
  rw [innerProduct_eq] at h
  obtain ⟨h1, h2, xs, g0, b0, h3, h4, h5⟩ := createGo_ok O _ k ha hb hg h
  unfold verify
  rw [if_neg (by omega), if_neg (by simp [h1, hn])]
  simp only [h3, bind, Except.bind]
  rw [h5, h4]
  simp

/-- C28.  The prover returns a proof for all vectors of the right length unless the hash gives a zero challenge. -/
theorem C28_creation_total {k : ℕ} {crs : CRS G} (hg : crs.gens.length = 2 ^ k) (hH : ∀ s, O.H s ≠ 0)
    (t : Transcript) {a b : List F} (ha : a.length = 2 ^ k) (hb : b.length = 2 ^ k) (comm : G) (z : F) :
    ∃ r, create O t crs a comm b z = .ok r := by
  unfold create
  rw [if_neg (by simp [ha, hg]), if_neg (by simp [hb, hg]), if_neg (by simp [hg, Nat.log2_two_pow])]
  simp only [hg, Nat.clog_pow 2 k (by norm_num)]
  exact createGo_total O _ hH k _ ha hb hg

/-- C29 (partial).  The three verifiers return the same verdict and the same transcript on every proof with as many `L` as
`R` points, honest or not, for every commitment, point, result, generators and hash (including zero challenges).
Missing: proofs with more `R` than `L` points, where the claim is false (`C29_full_claim_false`). -/
theorem C29_verifiers_agree_partial {crs : CRS G} (hg : crs.gens.length = crs.n) (π : IpaProof F G)
    (hLR : π.L.length = π.R.length) (t : Transcript) {b : List F} (hb : b.length = crs.n) (comm : G) (z y : F) :
    verifyMultiexp O π t crs b comm z y = verify O π t crs b comm z y ∧
    verifySemi O π t crs b comm z y = verify O π t crs b comm z y := by
  unfold verify verifyMultiexp verifySemi
  by_cases h64 : 64 ≤ π.L.length
  · simp [h64]
  rw [if_neg h64, if_neg h64, if_neg h64]
  by_cases hn : crs.n ≠ 2 ^ π.L.length
  · simp [hn]
  rw [if_neg hn, if_neg hn, if_neg hn]
  rw [not_not] at hn
  generalize absorb O t comm z y = wt
  obtain ⟨w, t1⟩ := wt
  simp only
  have hlen := genChallenges_length O π.L π.R t1
  rw [hLR, min_self] at hlen
  generalize genChallenges O π.L π.R t1 = xt at hlen
  obtain ⟨xs, t2⟩ := xt
  simp only at hlen ⊢
  have hi : (batchInv xs).length = π.L.length := by simp [batchInv, hlen, hLR]
  have hgl : crs.gens.length = 2 ^ (batchInv xs).length := by rw [hg, hn, hi]
  have hbl : b.length = 2 ^ (batchInv xs).length := by rw [hb, hn, hi]
  have hcl := coef_length (batchInv xs)
  rw [hn, ← hi, coeffs_eq, coeffs_eq]
  rw [accumulate_ok _ (by omega) hLR, foldAll_eq _ hgl hbl]
  simp only [bind, Except.bind, innerProduct_eq, one_mul, List.map_id']
  have m1 : msm (coef (batchInv xs)) crs.gens = .ok (lin (coef (batchInv xs)) crs.gens) := by
    rw [msm, if_pos (by rw [hcl, hgl])]
  have m2 : ∀ c : G, msm (xs ++ batchInv xs ++ [1]) (π.L ++ π.R ++ [c]) = .ok (lin xs π.L + lin (batchInv xs) π.R + c) := by
    intro c
    rw [msm, if_pos (by simp [batchInv, hlen, hLR]), lin_append (by simp [batchInv, hlen, hLR]),
      lin_append (by rw [hlen, hLR])]
    simp
  have m3 : ∀ (c : G) (q : F) (s : List F), s.length = crs.gens.length →
      msm (xs ++ batchInv xs ++ [1] ++ [q] ++ s) (π.L ++ π.R ++ [c] ++ [crs.Q] ++ crs.gens) =
      .ok (lin xs π.L + lin (batchInv xs) π.R + c + q • crs.Q + lin s crs.gens) := by
    intro c q s hs
    rw [msm, if_pos (by simp [batchInv, hlen, hLR, hs]), lin_append (by simp [batchInv, hlen, hLR]),
      lin_append (by simp [batchInv, hlen, hLR]), lin_append (by simp [batchInv, hlen, hLR]),
      lin_append (by rw [hlen, hLR])]
    simp
  rw [m2, m3 _ _ _ (by simp [hcl, hgl]), m1]
  simp only
  rw [lin_comm b (coef _), lin_comm b (List.map _ _), lin_map_mul, lin_map_mul, lin_map_mul]
  generalize lin (coef (batchInv xs)) crs.gens = g0
  generalize lin (coef (batchInv xs)) b = b0
  generalize lin xs π.L = l
  generalize lin (batchInv xs) π.R = r
  constructor
  · congr 2
    apply decide_eq_decide.mpr
    rw [← sub_eq_zero (b := comm + y • w • crs.Q + l + r), ← neg_eq_zero]
    have : -(l + r + comm + (w * (y + π.a * (-1 • b0))) • crs.Q + π.a • -1 • g0) =
        π.a • g0 + (π.a * b0) • w • crs.Q - (comm + y • w • crs.Q + l + r) := by
      module
    rw [← this]
    simp
  · congr 2
    apply decide_eq_decide.mpr
    rw [show l + r + (comm + y • w • crs.Q) = comm + y • w • crs.Q + l + r by abel]

/-- C29.  Proofs with fewer `R` than `L` points (and the right number of `L` points) make all three verifiers panic. -/
theorem C29_short_R_panics {crs : CRS G} (π : IpaProof F G) (hRL : π.R.length < π.L.length) (h64 : π.L.length < 64)
    (hn : crs.n = 2 ^ π.L.length) (t : Transcript) (b : List F) (comm : G) (z y : F) :
    (∃ e, verify O π t crs b comm z y = .error e) ∧ (∃ e, verifyMultiexp O π t crs b comm z y = .error e) ∧
    ∃ e, verifySemi O π t crs b comm z y = .error e := by
  unfold verify verifyMultiexp verifySemi
  have h64' : ¬ 64 ≤ π.L.length := by omega
  rw [if_neg h64', if_neg h64', if_neg h64', if_neg (not_not.mpr hn), if_neg (not_not.mpr hn), if_neg (not_not.mpr hn)]
  generalize absorb O t comm z y = wt
  obtain ⟨w, t1⟩ := wt
  simp only
  have hlen := genChallenges_length O π.L π.R t1
  generalize genChallenges O π.L π.R t1 = xt at hlen
  obtain ⟨xs, t2⟩ := xt
  simp only at hlen ⊢
  rw [accumulate_error _ _ _ _ hRL, coeffs_error _ (by rw [hn]; exact Nat.two_pow_pos _) (by simp [batchInv]; omega)]
  refine ⟨⟨_, rfl⟩, ⟨_, rfl⟩, ⟨"number of bases should equal number of scalars", ?_⟩⟩
  rw [msm, if_neg (by simp [batchInv]; omega)]
  rfl

/-- C29.  On proofs with more `R` than `L` points the plain verifier ignores the extra points, the two others panic. -/
theorem C29_long_R {crs : CRS G} (hg : crs.gens.length = crs.n) (π : IpaProof F G) (hRL : π.L.length < π.R.length) (h64 : π.L.length < 64)
    (hn : crs.n = 2 ^ π.L.length) (t : Transcript) (b : List F) (comm : G) (z y : F) :
    verify O π t crs b comm z y = verify O { π with R := π.R.take π.L.length } t crs b comm z y ∧
    (∃ e, verifyMultiexp O π t crs b comm z y = .error e) ∧ ∃ e, verifySemi O π t crs b comm z y = .error e := by
  unfold verify verifyMultiexp verifySemi
  have h64' : ¬ 64 ≤ π.L.length := by omega
  simp only [if_neg h64', if_neg (not_not.mpr hn)]
  generalize absorb O t comm z y = wt
  obtain ⟨w, t1⟩ := wt
  simp only
  rw [← genChallenges_take]
  have hlen := genChallenges_length O π.L π.R t1
  generalize genChallenges O π.L π.R t1 = xt at hlen
  obtain ⟨xs, t2⟩ := xt
  simp only at hlen ⊢
  rw [← accumulate_take _ _ _ _ (by omega)]
  have hx : xs.length = π.L.length := by omega
  have hi : (batchInv xs).length = π.L.length := by simp [batchInv, hx]
  refine ⟨rfl, ?_, ?_⟩
  · rw [hn, ← hi, coeffs_eq]
    simp only [bind, Except.bind]
    rw [msm, if_neg (by simp [batchInv, coef_length, hg, hx, hn]; omega)]
    exact ⟨_, rfl⟩
  · rw [msm, if_neg (by simp [batchInv]; omega)]
    exact ⟨_, rfl⟩

/-- C29.  The full claim is false: an honest proof with a point appended to `R` is accepted by the plain verifier and makes
the other two panic. -/
theorem C29_full_claim_false {k : ℕ} (hk : k < 64) {crs : CRS G} (hn : crs.n = 2 ^ k) (hg : crs.gens.length = 2 ^ k)
    {t t' : Transcript} {a b : List F} {z : F} {π : IpaProof F G} {comm : G} {y : F}
    (hc : comm = (List.zipWith (· • ·) a crs.gens).sum) (hy : y = (List.zipWith (· * ·) a b).sum)
    (h : create O t crs a comm b z = .ok (π, t')) (x : G) :
    verify O { π with R := π.R ++ [x] } t crs b comm z y = .ok (true, t') ∧
    (∃ e, verifyMultiexp O { π with R := π.R ++ [x] } t crs b comm z y = .error e) ∧
    ∃ e, verifySemi O { π with R := π.R ++ [x] } t crs b comm z y = .error e := by
  subst hc hy
  have hv := C28_completeness O hk hn hg h
  have hl : π.L.length = k ∧ π.R.length = k := by
    unfold create at h
    simp only at h
    split at h
    · simp at h
    rename_i ha
    split at h
    · simp at h
    rename_i hb
    split at h
    · simp at h
    simp only [ne_eq, not_not, hg] at ha hb
    rw [hg, Nat.clog_pow 2 k (by norm_num)] at h
    obtain ⟨h1, h2, _⟩ := createGo_ok O _ k ha hb hg h
    exact ⟨h1, h2⟩
  have := C29_long_R O (by rw [hg, hn]) { π with R := π.R ++ [x] } (by simp [hl.1, hl.2]) (by simp [hl.1, hk])
    (by simp [hl.1, hn]) t b (List.zipWith (· • ·) a crs.gens).sum z (List.zipWith (· * ·) a b).sum
  refine ⟨?_, this.2⟩
  rw [this.1]
  have e : (π.R ++ [x]).take π.L.length = π.R := by simp [hl.1, hl.2]
  simp only [e]
  exact hv

/-! ### Transcript -/

/-- What is absorbed between challenges. -/
inductive Absorb (F G : Type) where
  | point (label : List Byte) (p : G)
  | scalar (label : List Byte) (x : F)
  | message (label : List Byte) (msg : List Byte)
  | number (label : List Byte) (n : Fin (2 ^ 64))
  | sep (label : List Byte)
  | challenge (label : List Byte)

/-- Absorb one item. -/
def Absorb.run (t : Transcript) : Absorb F G → Transcript
  | .point l p => appendPoint O t l p
  | .scalar l x => appendScalar O t l x
  | .message l m => appendMessage t l m
  | .number l n => appendU64 t l n
  | .sep l => domainSep t l
  | .challenge l => (Ipa.challenge O t l).2

/-- Same label and kind of message; byte strings of the same length, because `append_message` writes no length. -/
def Absorb.Same : Absorb F G → Absorb F G → Prop
  | .point l _, .point l' _ => l = l'
  | .scalar l _, .scalar l' _ => l = l'
  | .message l m, .message l' m' => l = l' ∧ m.length = m'.length
  | .number l _, .number l' _ => l = l'
  | .sep l, .sep l' => l = l'
  | .challenge l, .challenge l' => l = l'
  | _, _ => False

/-- The byte strings hashed by the challenges drawn. -/
def hashed (t : Transcript) : List (Absorb F G) → List (List Byte)
  | [] => []
  | .challenge l :: ops => domainSep t l :: hashed ((Absorb.challenge l).run O t) ops
  | op :: ops => hashed (op.run O t) ops

/-- No challenge is drawn. -/
def NoChallenge (ops : List (Absorb F G)) : Prop := ∀ op ∈ ops, ∀ l, op ≠ .challenge l

theorem encE_inj {x y : G} (h : O.K.encE x = O.K.encE y) : x = y := by
  have := O.K.dec_encE x
  rw [h, O.K.dec_encE] at this
  exact (Option.some.inj this).symm

theorem encS_inj {x y : F} (h : O.K.encS x = O.K.encS y) : x = y := by
  have := O.K.dec_encS x
  rw [h, O.K.dec_encS] at this
  exact (Option.some.inj this).symm

theorem beBytes_inj {n n' : Fin (2 ^ 64)} (h : (Wire.leBytes 8 n).reverse = (Wire.leBytes 8 n').reverse) : n = n' := by
  have e := congrArg leNat (List.reverse_injective h)
  rw [Wire.leNat_leBytes, Wire.leNat_leBytes, Nat.mod_eq_of_lt (by have := n.2; omega), Nat.mod_eq_of_lt (by have := n'.2; omega)] at e
  exact Fin.ext e

theorem append_eq {l : List Byte} {t t' a a' : List Byte} (h : a.length = a'.length) :
    t ++ l ++ a = t' ++ l ++ a' ↔ t = t' ∧ a = a' := by
  constructor
  · intro e
    obtain ⟨e1, e2⟩ := List.append_inj' e h
    exact ⟨List.append_cancel_right e1, e2⟩
  · rintro ⟨rfl, rfl⟩
    rfl

/-- C34.  Two transcripts which absorb, since the last challenge, items with the same labels and kinds, reach the same
pre-hash state exactly when they started from the same state and absorbed the same messages.  Hence they differ as soon as one
message differs. -/
theorem C34_prehash_injective : ∀ (ops ops' : List (Absorb F G)), List.Forall₂ Absorb.Same ops ops' → NoChallenge ops →
    ∀ (t t' : Transcript) (label : List Byte), t.length = t'.length →
      (domainSep (ops.foldl (Absorb.run O) t) label = domainSep (ops'.foldl (Absorb.run O) t') label ↔ t = t' ∧ ops = ops')
  | [], [], _, _, t, t', label, _ => by
    simp only [List.foldl_nil, domainSep, and_true]
    exact ⟨List.append_cancel_right, fun h => by rw [h]⟩
  | op :: ops, op' :: ops', h, hc, t, t', label, hl => by
    rw [List.forall₂_cons] at h
    have hlen : (op.run O t).length = (op'.run O t').length ∧ (op.run O t = op'.run O t' ↔ t = t' ∧ op = op') := by
      have h1 := h.1
      cases op with
      | point l p =>
        cases op' <;> simp only [Absorb.Same] at h1
        subst h1
        rename_i p'
        simp only [Absorb.run, appendPoint, appendMessage, List.length_append, O.K.encE_len, hl, true_and]
        rw [append_eq (by rw [O.K.encE_len, O.K.encE_len])]
        exact ⟨fun e => ⟨e.1, by rw [encE_inj O e.2]⟩, fun e => ⟨e.1, by cases e.2; rfl⟩⟩
      | scalar l x =>
        cases op' <;> simp only [Absorb.Same] at h1
        subst h1
        simp only [Absorb.run, appendScalar, appendMessage, List.length_append, O.K.encS_len, hl, true_and]
        rw [append_eq (by rw [O.K.encS_len, O.K.encS_len])]
        exact ⟨fun e => ⟨e.1, by rw [encS_inj O e.2]⟩, fun e => ⟨e.1, by cases e.2; rfl⟩⟩
      | message l m =>
        cases op' <;> simp only [Absorb.Same] at h1
        obtain ⟨rfl, hm⟩ := h1
        simp only [Absorb.run, appendMessage, List.length_append, hm, hl, true_and]
        rw [append_eq hm]
        exact ⟨fun e => ⟨e.1, by rw [e.2]⟩, fun e => ⟨e.1, by cases e.2; rfl⟩⟩
      | number l n =>
        cases op' <;> simp only [Absorb.Same] at h1
        subst h1
        simp only [Absorb.run, appendU64, appendMessage, List.length_append, List.length_reverse, Wire.leBytes_length, hl, true_and]
        rw [append_eq (by simp [Wire.leBytes_length])]
        exact ⟨fun e => ⟨e.1, by rw [beBytes_inj e.2]⟩, fun e => ⟨e.1, by cases e.2; rfl⟩⟩
      | sep l =>
        cases op' <;> simp only [Absorb.Same] at h1
        subst h1
        simp only [Absorb.run, domainSep, List.length_append, hl, true_and, and_true]
        exact ⟨List.append_cancel_right, fun e => by rw [e]⟩
      | challenge l => exact absurd rfl (hc _ (by simp) l)
    simp only [List.foldl_cons]
    rw [C34_prehash_injective ops ops' h.2 (fun o ho => hc o (List.mem_cons_of_mem _ ho)) _ _ label hlen.1, hlen.2]
    simp only [List.cons.injEq, and_assoc]

/-- C34.  Over a whole protocol run (challenges included): if two runs of the same shape end in the same transcript state, they
absorbed the same messages, or two different byte strings hashed in them give the same challenge. -/
theorem C34_whole_run : ∀ (ops ops' : List (Absorb F G)), List.Forall₂ Absorb.Same ops ops' →
    ∀ (t t' : Transcript), t.length = t'.length → ops.foldl (Absorb.run O) t = ops'.foldl (Absorb.run O) t' →
      (t = t' ∧ ops = ops') ∨ ∃ s ∈ hashed O t ops, ∃ s' ∈ hashed O t' ops', s ≠ s' ∧ O.H s = O.H s'
  | [], [], _, t, t', _, e => Or.inl ⟨e, rfl⟩
  | op :: ops, op' :: ops', h, t, t', hl, e => by
    rw [List.forall₂_cons] at h
    simp only [List.foldl_cons] at e
    have h1 := h.1
    cases op with
    | point l p =>
      cases op' <;> simp only [Absorb.Same] at h1
      subst h1
      rcases C34_whole_run ops ops' h.2 _ _ (by simp [Absorb.run, appendPoint, appendMessage, O.K.encE_len, hl]) e with h | h
      · simp only [Absorb.run, appendPoint, appendMessage] at h
        rw [append_eq (by rw [O.K.encE_len, O.K.encE_len])] at h
        exact Or.inl ⟨h.1.1, by rw [encE_inj O h.1.2, h.2]⟩
      · exact Or.inr h
    | scalar l x =>
      cases op' <;> simp only [Absorb.Same] at h1
      subst h1
      rcases C34_whole_run ops ops' h.2 _ _ (by simp [Absorb.run, appendScalar, appendMessage, O.K.encS_len, hl]) e with h | h
      · simp only [Absorb.run, appendScalar, appendMessage] at h
        rw [append_eq (by rw [O.K.encS_len, O.K.encS_len])] at h
        exact Or.inl ⟨h.1.1, by rw [encS_inj O h.1.2, h.2]⟩
      · exact Or.inr h
    | message l m =>
      cases op' <;> simp only [Absorb.Same] at h1
      obtain ⟨rfl, hm⟩ := h1
      rcases C34_whole_run ops ops' h.2 _ _ (by simp [Absorb.run, appendMessage, hm, hl]) e with h | h
      · simp only [Absorb.run, appendMessage] at h
        rw [append_eq hm] at h
        exact Or.inl ⟨h.1.1, by rw [h.1.2, h.2]⟩
      · exact Or.inr h
    | number l n =>
      cases op' <;> simp only [Absorb.Same] at h1
      subst h1
      rcases C34_whole_run ops ops' h.2 _ _ (by simp [Absorb.run, appendU64, appendMessage, Wire.leBytes_length, hl]) e with h | h
      · simp only [Absorb.run, appendU64, appendMessage] at h
        rw [append_eq (by simp [Wire.leBytes_length])] at h
        exact Or.inl ⟨h.1.1, by rw [beBytes_inj h.1.2, h.2]⟩
      · exact Or.inr h
    | sep l =>
      cases op' <;> simp only [Absorb.Same] at h1
      subst h1
      rcases C34_whole_run ops ops' h.2 _ _ (by simp [Absorb.run, domainSep, hl]) e with h | h
      · exact Or.inl ⟨List.append_cancel_right h.1, by rw [h.2]⟩
      · exact Or.inr h
    | challenge l =>
      cases op' <;> simp only [Absorb.Same] at h1
      subst h1
      rcases C34_whole_run ops ops' h.2 _ _ (by
        simp [Absorb.run, Ipa.challenge, appendScalar, appendMessage, O.K.encS_len]) e with h | h
      · simp only [Absorb.run, Ipa.challenge, appendScalar, appendMessage, List.nil_append] at h
        have hH := encS_inj O (List.append_cancel_left h.1)
        by_cases hs : domainSep t l = domainSep t' l
        · exact Or.inl ⟨List.append_cancel_right hs, by rw [h.2]⟩
        · exact Or.inr ⟨_, by simp [hashed], _, by simp [hashed], hs, hH⟩
      · obtain ⟨s, hs, s', hs', h⟩ := h
        exact Or.inr ⟨s, by simp [hashed, hs], s', by simp [hashed, hs'], h⟩

/-- C34.  `append_u64` absorbs the label and then eight bytes which are the number in big-endian order. -/
theorem C34_number (t : Transcript) (label : List Byte) (n : Fin (2 ^ 64)) :
    ∃ bs : List Byte, appendU64 t label n = t ++ label ++ bs ∧ bs.length = 8 ∧ leNat bs.reverse = n := by
  refine ⟨_, rfl, by rw [List.length_reverse, Wire.leBytes_length], ?_⟩
  rw [List.reverse_reverse, Wire.leNat_leBytes, Nat.mod_eq_of_lt (by have := n.2; omega)]

/-- C34.  The lengths matter: `append_message` writes no length, so a byte may move from one message to the next under an empty
label, and the same state is reached.  The protocols only absorb points and scalars, of 32 bytes. -/
theorem C34_lengths_matter (t : Transcript) (m m' : List Byte) (b : Byte) :
    [Absorb.message [] (m ++ [b]), .message [] m'].foldl (Absorb.run O) t =
      [Absorb.message [] m, .message [] (b :: m')].foldl (Absorb.run O) t := by
  simp [Absorb.run, appendMessage]

theorem appendPoint_inj {t t' : Transcript} {l : List Byte} {x x' : G} :
    appendPoint O t l x = appendPoint O t' l x' ↔ t = t' ∧ x = x' := by
  rw [appendPoint, appendPoint, appendMessage, appendMessage, append_eq (by rw [O.K.encE_len, O.K.encE_len])]
  exact and_congr_right fun _ => ⟨encE_inj O, fun h => by rw [h]⟩

theorem appendScalar_inj {t t' : Transcript} {l : List Byte} {x x' : F} :
    appendScalar O t l x = appendScalar O t' l x' ↔ t = t' ∧ x = x' := by
  rw [appendScalar, appendScalar, appendMessage, appendMessage, append_eq (by rw [O.K.encS_len, O.K.encS_len])]
  exact and_congr_right fun _ => ⟨encS_inj O, fun h => by rw [h]⟩

theorem domainSep_inj {t t' : Transcript} {l : List Byte} : domainSep t l = domainSep t' l ↔ t = t' :=
  ⟨List.append_cancel_right, fun h => by rw [h]⟩

/-- C34 for the inner product argument: for every hash the first challenge is the hash of a string which determines the
transcript before it and the whole statement. -/
theorem C34_statement_bound (K : WireCodec F G) : ∃ str : Transcript → G → F → F → List Byte,
    (∀ H t comm z y, (absorb ⟨K, H⟩ t comm z y).1 = H (str t comm z y)) ∧
    ∀ t t' comm comm' z z' y y', str t comm z y = str t' comm' z' y' ↔ t = t' ∧ comm = comm' ∧ z = z' ∧ y = y' := by
  refine ⟨fun t comm z y => domainSep (appendScalar ⟨K, fun _ => 0⟩ (appendScalar ⟨K, fun _ => 0⟩ (appendPoint ⟨K, fun _ => 0⟩
    (domainSep t (lbl "ipa")) (lbl "C") comm) (lbl "input point") z) (lbl "output point") y) (lbl "w"), fun H t comm z y => rfl, ?_⟩
  intro t t' comm comm' z z' y y'
  simp only
  rw [domainSep_inj, appendScalar_inj, appendScalar_inj, appendPoint_inj, domainSep_inj]
  tauto

theorem absorbed_length (qs : List (VerifierQuery F G)) : ∀ t : Transcript, (qs.foldl (fun t q =>
    appendScalar O (appendScalar O (appendPoint O t (lbl "C") q.commitment) (lbl "z") q.point) (lbl "y") q.result) t).length =
      t.length + 99 * qs.length := by
  have h1 : (lbl "C").length = 1 ∧ (lbl "z").length = 1 ∧ (lbl "y").length = 1 := by decide
  induction qs with
  | nil => simp
  | cons q qs ih =>
    intro t
    rw [List.foldl_cons, ih]
    simp only [appendScalar, appendPoint, appendMessage, List.length_append, O.K.encE_len, O.K.encS_len, h1, List.length_cons]
    omega

theorem absorbed_inj (qs qs' : List (VerifierQuery F G)) (hl : qs.length = qs'.length) (t t' : Transcript)
    (h : qs.foldl (fun t q =>
      appendScalar O (appendScalar O (appendPoint O t (lbl "C") q.commitment) (lbl "z") q.point) (lbl "y") q.result) t =
     qs'.foldl (fun t q =>
      appendScalar O (appendScalar O (appendPoint O t (lbl "C") q.commitment) (lbl "z") q.point) (lbl "y") q.result) t') :
    t = t' ∧ qs = qs' := by
  induction qs generalizing qs' t t' with
  | nil =>
    cases qs' with
    | nil => exact ⟨h, rfl⟩
    | cons q qs' => simp at hl
  | cons q qs ih =>
    cases qs' with
    | nil => simp at hl
    | cons q' qs' =>
      obtain ⟨h1, rfl⟩ := ih qs' (by simpa using hl) _ _ h
      rw [appendScalar_inj, appendScalar_inj, appendPoint_inj] at h1
      obtain ⟨c, p, r⟩ := q
      obtain ⟨c', p', r'⟩ := q'
      obtain ⟨⟨⟨rfl, rfl⟩, rfl⟩, rfl⟩ := h1
      exact ⟨rfl, rfl⟩

/-- C34 for the multipoint argument: for every hash the challenge `r` is the hash of a string which, for transcripts of equal
length, determines all openings: their number, order, commitments, points and results. -/
theorem C34_queries_bound (K : WireCodec F G) : ∃ str : Transcript → List (VerifierQuery F G) → List Byte,
    (∀ H t qs, (absorbQueries ⟨K, H⟩ t qs).1 = H (str t qs)) ∧
    ∀ t t' qs qs', t.length = t'.length → (str t qs = str t' qs' ↔ t = t' ∧ qs = qs') := by
  refine ⟨fun t qs => domainSep (qs.foldl (fun t q => appendScalar ⟨K, fun _ => 0⟩ (appendScalar ⟨K, fun _ => 0⟩
    (appendPoint ⟨K, fun _ => 0⟩ t (lbl "C") q.commitment) (lbl "z") q.point) (lbl "y") q.result)
    (domainSep t (lbl "multiproof"))) (lbl "r"), fun H t qs => rfl, ?_⟩
  intro t t' qs qs' ht
  refine ⟨fun h => ?_, fun h => by rw [h.1, h.2]⟩
  simp only at h
  rw [domainSep_inj] at h
  have hl := congrArg List.length h
  rw [absorbed_length, absorbed_length] at hl
  simp only [domainSep, List.length_append] at hl
  obtain ⟨h1, h2⟩ := absorbed_inj _ qs qs' (by omega) _ _ h
  exact ⟨List.append_cancel_right h1, h2⟩

/-- The strings hashed for the challenges of the rounds. -/
def roundStrings : List G → List G → Transcript → List (List Byte)
  | L :: Ls, R :: Rs, t =>
    let s := t ++ lbl "L" ++ O.K.encE L ++ lbl "R" ++ O.K.encE R ++ lbl "x"
    s :: roundStrings Ls Rs (lbl "x" ++ O.K.encS (O.H s))
  | _, _, _ => []

/-- C34 for the rounds: the challenges of the rounds are the hashes of strings which determine the transcript before them and
the points sent. -/
theorem C34_rounds_bound :
    (∀ (L R : List G) (t : Transcript), (genChallenges O L R t).1 = (roundStrings O L R t).map O.H) ∧
    ∀ (L R L' R' : List G), L.length = R.length → L'.length = R'.length → L ≠ [] → ∀ t t' : Transcript,
      roundStrings O L R t = roundStrings O L' R' t' → t = t' ∧ L = L' ∧ R = R' := by
  constructor
  · intro L
    induction L with
    | nil => intro R t; simp [genChallenges, roundStrings]
    | cons l L ih =>
      intro R t
      cases R with
      | nil => simp [genChallenges, roundStrings]
      | cons r R =>
        simp only [genChallenges, roundStrings, List.map_cons, ih, challenge, appendPoint, appendScalar, appendMessage, domainSep,
          List.append_assoc, List.nil_append]
  · intro L
    induction L with
    | nil => intro R L' R' _ _ h; exact absurd rfl h
    | cons l L ih =>
      intro R L' R' h1 h2 _ t t' h
      match R, L', R', h1, h2, h with
      | [], _, _, h1, _, _ => simp at h1
      | _ :: _, [], [], _, _, h => simp [roundStrings] at h
      | _ :: _, [], _ :: _, _, h2, _ => simp at h2
      | _ :: _, _ :: _, [], _, h2, _ => simp at h2
      | r :: R, l' :: L', r' :: R', h1, h2, h =>
        simp only [roundStrings, List.cons.injEq] at h
        obtain ⟨ha, hb⟩ := h
        have ha' := List.append_cancel_right ha
        rw [append_eq (by rw [O.K.encE_len, O.K.encE_len]), append_eq (by rw [O.K.encE_len, O.K.encE_len])] at ha'
        obtain ⟨⟨rfl, e1⟩, e2⟩ := ha'
        obtain rfl := encE_inj O e1
        obtain rfl := encE_inj O e2
        cases L with
        | nil =>
          have hR : R = [] := by simpa using h1.symm
          subst hR
          cases L' with
          | nil =>
            have hR' : R' = [] := by simpa using h2.symm
            subst hR'
            simp
          | cons x L' =>
            cases R' with
            | nil => simp at h2
            | cons y R' => simp [roundStrings] at hb
        | cons x L =>
          have := ih R L' R' (by simpa using h1) (by simpa using h2) (by simp) _ _ hb
          exact ⟨rfl, by rw [this.2.1], by rw [this.2.2]⟩

end

/-! ### Concrete cases -/

/-- A toy hash to non-zero scalars above `4`. -/
def toyOracle : Oracle (ZMod 101) (ZMod 101) := ⟨toyWire, fun s => ((leNat s % 90 + 5 : ℕ) : ZMod 101)⟩

/-- Four generators. -/
def toyCrs : CRS (ZMod 101) := ⟨4, [1, 2, 3, 5], 7⟩

theorem toyOracle_ge (s : List Byte) (i : ℕ) (hi : i < 5) : toyOracle.H s ≠ (i : ZMod 101) := by
  intro h
  have := (ZMod.natCast_eq_natCast_iff' _ _ _).mp h
  have h1 := Nat.mod_lt (leNat s) (show 0 < 90 by norm_num)
  rw [Nat.mod_eq_of_lt (by omega), Nat.mod_eq_of_lt (by omega)] at this
  omega

theorem toyOracle_ne_zero (s : List Byte) : toyOracle.H s ≠ 0 := by
  simpa using toyOracle_ge s 0 (by norm_num)

/-- Hypotheses of `C28_completeness`, `C28_creation_total`, `C29_full_claim_false`. -/
example : ∃ r, create toyOracle [1, 2] toyCrs [4, 9, 0, 3] (List.zipWith (· • ·) [4, 9, 0, 3] toyCrs.gens).sum [1, 8, 64, 7] 8 = .ok r ∧
    r.1.L.length = 2 ∧ verify toyOracle r.1 [1, 2] toyCrs [1, 8, 64, 7] (List.zipWith (· • ·) [4, 9, 0, 3] toyCrs.gens).sum 8
      (List.zipWith (· * ·) [4, 9, 0, 3] [1, 8, 64, 7]).sum = .ok (true, r.2) := by
  obtain ⟨⟨π, t'⟩, hr⟩ := C28_creation_total toyOracle (k := 2) (crs := toyCrs) rfl toyOracle_ne_zero [1, 2] (a := [4, 9, 0, 3])
    (b := [1, 8, 64, 7]) rfl rfl (List.zipWith (· • ·) [4, 9, 0, 3] toyCrs.gens).sum 8
  have hd : ((create toyOracle [1, 2] toyCrs [4, 9, 0, 3] (List.zipWith (· • ·) [4, 9, 0, 3] toyCrs.gens).sum [1, 8, 64, 7]
    8).toOption.map fun r => r.1.L.length) = some 2 := by decide +kernel
  rw [hr] at hd
  have hv := C28_completeness toyOracle (k := 2) (by norm_num) rfl rfl hr
  exact ⟨(π, t'), hr, by simpa [Except.toOption] using hd, hv⟩

/-- Hypotheses of `C29_verifiers_agree_partial`: a dishonest proof, rejected. -/
example : (toyCrs.gens.length = toyCrs.n) ∧ (⟨[1, 2], [3, 4], 5⟩ : IpaProof (ZMod 101) (ZMod 101)).L.length = 2 ∧
    (verify toyOracle ⟨[1, 2], [3, 4], 5⟩ [1, 2] toyCrs [1, 8, 64, 7] 6 7 8).toOption.map Prod.fst = some false := by
  decide +kernel

/-- Hypotheses of `C29_short_R_panics` and `C29_long_R`. -/
example : (⟨[1, 2], [3], 5⟩ : IpaProof (ZMod 101) (ZMod 101)).R.length < 2 ∧
    2 < (⟨[1, 2], [3, 4, 5], 5⟩ : IpaProof (ZMod 101) (ZMod 101)).R.length ∧ toyCrs.n = 2 ^ 2 := by decide

/-- Hypotheses of `C34_prehash_injective` and `C34_whole_run`: two runs differing in one scalar. -/
example : List.Forall₂ (Absorb.Same (F := ZMod 101) (G := ZMod 101)) [.sep [7], .point [1] 5, .number [3] 8, .scalar [2] 6]
    [.sep [7], .point [1] 5, .number [3] 8, .scalar [2] 9] ∧
    NoChallenge (F := ZMod 101) (G := ZMod 101) [.sep [7], .point [1] 5, .number [3] 8, .scalar [2] 6] := by
  refine ⟨by simp [Absorb.Same], ?_⟩
  intro op hop l
  simp only [List.mem_cons, List.not_mem_nil, or_false] at hop
  rcases hop with rfl | rfl | rfl | rfl <;> simp

end Verif.Props
