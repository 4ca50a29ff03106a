import Verif.Vectors.Opening

/-!
# The provers of the opening arguments, evaluated round by round

A run of the prover multiplies points about a thousand times, too much for a single evaluation.  Here the vectors of each round are
given as numbers and checked against those of the round before.
-/

set_option autoImplicit false

namespace Verif.Vectors
open Proof Bander Ipa Wire
open Sha256 (beNat)
open scoped Classical

/-- Scalars given by numbers. -/
def scal (l : List ℕ) : List (ZMod r) := l.map fun n : ℕ => (n : ZMod r)

/-- Points given by coordinates. -/
def pts (l : List (ℕ × ℕ)) : List Tri := l.map fun p => ⟨p.1, p.2, 1⟩

/-- The same point in other coordinates. -/
def sameT (s t : Tri) : Bool :=
  s.X * t.Z % q == t.X * s.Z % q && s.Y * t.Z % q == t.Y * s.Z % q && t.Z % q != 0

theorem sameT_R {s t : Tri} {e : BElem} (hs : s.R e) (h : sameT s t = true) : t.R e := by
  obtain ⟨p, rfl, hz, hx, hy⟩ := hs
  simp only [sameT, Bool.and_eq_true, beq_iff_eq, bne_iff_ne] at h
  obtain ⟨⟨h1, h2⟩, h3⟩ := h
  have h1 : ((s.X * t.Z : ℕ) : ZMod q) = (t.X * s.Z : ℕ) := (ZMod.natCast_eq_natCast_iff' ..).2 h1
  have h2 : ((s.Y * t.Z : ℕ) : ZMod q) = (t.Y * s.Z : ℕ) := (ZMod.natCast_eq_natCast_iff' ..).2 h2
  push_cast at h1 h2
  refine ⟨p, rfl, ?_, ?_, ?_⟩
  · intro e
    rw [← ZMod.val_eq_zero, ZMod.val_natCast] at e
    exact h3 e
  · apply mul_right_cancel₀ hz
    rw [← h1, ← hx]
    ring
  · apply mul_right_cancel₀ hz
    rw [← h2, ← hy]
    ring

theorem elem_of_bytes {t : Tri} {e : BElem} (h : t.R e) {p : Lit} (hp : t.bytes = p.tri.bytes) : e = p.elem := by
  apply Elem.enc_inj q_lt
  rw [← bytes_R h, hp, bytes_R p.R]

/-- The halving of the generators, checked: `l + c r` is the given point. -/
def foldOk (c : ZMod r) : List Tri → List Tri → List Tri → Bool
  | l :: ls, u :: us, g :: gs => sameT (l.add (Tri.msm [c] [u])) g && foldOk c ls us gs
  | [], [], [] => true
  | _, _, _ => false

theorem foldOk_append {c : ZMod r} : ∀ {l u g l' u' g' : List Tri}, foldOk c l u g = true → foldOk c l' u' g' = true →
    foldOk c (l ++ l') (u ++ u') (g ++ g') = true
  | [], [], [], _, _, _, _, h => h
  | _ :: ls, _ :: us, _ :: gs, _, _, _, h, h' => by
    simp only [List.cons_append, foldOk, Bool.and_eq_true] at h ⊢
    exact ⟨h.1, foldOk_append h.2 h'⟩
  | [], [], _ :: _, _, _, _, h, _ | [], _ :: _, [], _, _, _, h, _ | [], _ :: _, _ :: _, _, _, _, h, _
  | _ :: _, [], [], _, _, _, h, _ | _ :: _, [], _ :: _, _, _, _, h, _ | _ :: _, _ :: _, [], _, _, _, h, _ => by simp [foldOk] at h

theorem foldOk_split {c : ZMod r} (m : ℕ) {l u g : List Tri} (h : foldOk c (l.take m) (u.take m) (g.take m) = true)
    (h' : foldOk c (l.drop m) (u.drop m) (g.drop m) = true) : foldOk c l u g = true := by
  have := foldOk_append h h'
  rwa [List.take_append_drop, List.take_append_drop, List.take_append_drop] at this

theorem foldOk_R {c : ZMod r} : ∀ {l u g : List Tri} {l' u' : List BElem}, foldOk c l u g = true → List.Forall₂ Tri.R l l' →
    List.Forall₂ Tri.R u u' → List.Forall₂ Tri.R g (List.zipWith (fun a b => a + c • b) l' u')
  | [], [], [], _, _, _, .nil, .nil => .nil
  | _ :: ls, _ :: us, _ :: gs, _, _, h, .cons h1 h2, .cons h3 h4 => by
    simp only [foldOk, Bool.and_eq_true] at h
    exact .cons (sameT_R (h1.add (natOps_sound.smul c h3)) h.1) (foldOk_R h.2 h2 h4)
  | [], [], _ :: _, _, _, h, _, _ | [], _ :: _, [], _, _, h, _, _ | [], _ :: _, _ :: _, _, _, h, _, _
  | _ :: _, [], [], _, _, h, _, _ | _ :: _, [], _ :: _, _, _, h, _, _ | _ :: _, _ :: _, [], _, _, h, _, _ => by simp [foldOk] at h

/-- The halving of scalars, on numbers. -/
def foldN (c : ℕ) (v : List ℕ) : List ℕ := List.zipWith (fun l u => (l + c * u) % r) (v.take (v.length / 2)) (v.drop (v.length / 2))

theorem foldN_eq (c : ℕ) (v : List ℕ) : foldS (c : ZMod r) (scal v) = scal (foldN c v) := by
  unfold foldS scal foldN
  rw [List.length_map, ← List.map_take, ← List.map_drop, List.zipWith_map, List.map_zipWith]
  congr 1
  funext a b
  rw [ZMod.natCast_mod]
  push_cast
  rfl

/-- The inner product, on numbers. -/
def innerN : List ℕ → List ℕ → ℕ
  | a :: as, b :: bs => (a * b + innerN as bs) % r
  | _, _ => 0

theorem innerN_eq : ∀ a b : List ℕ, innerProduct (scal a) (scal b) = (innerN a b : ZMod r)
  | [], _ => by simp [innerProduct, scal, innerN]
  | _ :: _, [] => by simp [innerProduct, scal, innerN]
  | x :: a, y :: b => by
    have := innerN_eq a b
    unfold innerProduct scal at this ⊢
    rw [List.map_cons, List.map_cons, List.zipWith_cons_cons, List.sum_cons, this, innerN, ZMod.natCast_mod]
    push_cast
    rfl

/-- The state of the transcript after a challenge. -/
noncomputable def after (label : List Byte) (x : ℕ) : Transcript := label ++ leBytes 32 (x % r)

theorem challenge_after {t : Transcript} {label : List Byte} {x : ℕ} (h : leNat (Sha256.hash (t ++ label)) % r = x) :
    challenge shaOracle t label = ((x : ZMod r), after label x) := by
  have e : (leNat (Sha256.hash (t ++ label)) : ZMod r) = (x : ZMod r) := by rw [← h, ZMod.natCast_mod]
  have e' : shaOracle.H (domainSep t label) = (x : ZMod r) := e
  unfold challenge
  simp only [e']
  refine Prod.ext rfl ?_
  change [] ++ label ++ leBytes 32 (ZMod.val (x : ZMod r)) = label ++ leBytes 32 (x % r)
  rw [ZMod.val_natCast, List.nil_append]

theorem scal_val (l : List (ZMod r)) : scal (l.map ZMod.val) = l := by
  unfold scal
  rw [List.map_map]
  conv_rhs => rw [← List.map_id l]
  exact List.map_congr_left fun x _ => ZMod.natCast_zmod_val x

/-- The bytes of a challenge. -/
theorem challenge_val (t : Transcript) (label : List Byte) :
    (challenge shaOracle t label).1 = ((leNat (Sha256.hash (t ++ label)) : ℕ) : ZMod r) := rfl

/-- `IPAProof::to_bytes` of a proof with these coordinates. -/
theorem ipaToBytes_lit (L R : List Lit) (a : ZMod r) : ipaToBytes codec (litProof L R a) =
    L.flatMap (fun p => p.tri.bytes) ++ R.flatMap (fun p => p.tri.bytes) ++ leBytes 32 a.val := by
  have enc : ∀ p : Lit, codec.encE p.elem = p.tri.bytes := fun p => (bytes_R p.R).symm
  unfold ipaToBytes litProof
  simp only [List.flatMap_map, enc]
  rfl

/-- The prover's rounds from given vectors on. -/
def Go (Q : BElem) (k : ℕ) (a b : List ℕ) (g : List Tri) (t : Transcript) (L R : List Lit) (c : ZMod r) (t' : Transcript) : Prop :=
  ∀ g', List.Forall₂ Tri.R g g' → createGo shaOracle Q k (scal a) (scal b) g' t = .ok (litProof L R c, t')

theorem go_last (Q : BElem) (x : ℕ) (b : List ℕ) (g : List Tri) (t : Transcript) : Go Q 0 [x] b g t [] [] (x : ZMod r) t :=
  fun _ _ => rfl

/-- One of the two sums of a round is this point. -/
def sumOk (a b : List ℕ) (g : List Tri) (Q : Tri) (p : Lit) : Bool :=
  a.length == g.length && decide ((Tri.msm (scal a ++ [(innerN a b : ZMod r)]) (g ++ [Q])).bytes = p.tri.bytes)

theorem sumOk_eq {a b : List ℕ} {g : List Tri} {g' : List BElem} {Q : Tri} {Q' : BElem} {p : Lit} (hg : List.Forall₂ Tri.R g g') (hQ : Q.R Q')
    (h : sumOk a b g Q p = true) : Ipa.msm (scal a ++ [innerProduct (scal a) (scal b)]) (g' ++ [Q']) = .ok p.elem := by
  simp only [sumOk, Bool.and_eq_true, beq_iff_eq, decide_eq_true_eq] at h
  obtain ⟨h1, h2⟩ := h
  have h3 : (scal a ++ [innerProduct (scal a) (scal b)]).length = (g' ++ [Q']).length := by
    simp [scal, h1, hg.length_eq]
  rw [Ipa.msm, if_pos h3, innerN_eq, elem_of_bytes (msm_R _ (List.rel_append hg (.cons hQ .nil))) h2]

/-- One round. -/
theorem go_step {QT : Tri} {Q : BElem} (hQ : QT.R Q) {k : ℕ} {a b : List ℕ} {g : List Tri} {t : Transcript} {pL pR : Lit} {x xi : ℕ}
    {a' b' : List ℕ} {g' : List Tri} {L R : List Lit} {c : ZMod r} {t' : Transcript}
    (hL : sumOk (a.drop (a.length / 2)) (b.take (b.length / 2)) (g.take (g.length / 2)) QT pL = true)
    (hR : sumOk (a.take (a.length / 2)) (b.drop (b.length / 2)) (g.drop (g.length / 2)) QT pR = true)
    (hx : leNat (Sha256.hash (t ++ lbl "L" ++ pL.tri.bytes ++ lbl "R" ++ pR.tri.bytes ++ lbl "x")) % r = x)
    (hxi : x * xi % r = 1) (ha : foldN x a = a') (hb : foldN xi b = b')
    (hg : foldOk (xi : ZMod r) (g.take (g.length / 2)) (g.drop (g.length / 2)) g' = true)
    (ih : Go Q k a' b' g' (after (lbl "x") x) L R c t') : Go Q (k + 1) a b g t (pL :: L) (pR :: R) c t' := by
  intro h hgh
  have hgl : g.length = h.length := hgh.length_eq
  have e1 := sumOk_eq (List.forall₂_take (g.length / 2) hgh) hQ hL
  have e2 := sumOk_eq (List.forall₂_drop (g.length / 2) hgh) hQ hR
  have htake : ∀ (v : List ℕ) (m : ℕ), scal (v.take m) = (scal v).take m := fun v m => by simp [scal, List.map_take]
  have hdrop : ∀ (v : List ℕ) (m : ℕ), scal (v.drop m) = (scal v).drop m := fun v m => by simp [scal, List.map_drop]
  have hlen : ∀ v : List ℕ, (scal v).length = v.length := fun v => by simp [scal]
  rw [htake, hdrop, hgl] at e1 e2
  have enc : ∀ p : Lit, shaOracle.K.encE p.elem = p.tri.bytes := fun p => (bytes_R p.R).symm
  have e3 : challenge shaOracle (appendPoint shaOracle (appendPoint shaOracle t (lbl "L") pL.elem) (lbl "R") pR.elem) (lbl "x") =
      ((x : ZMod r), after (lbl "x") x) := by
    apply challenge_after
    unfold appendPoint appendMessage
    rw [enc, enc]
    exact hx
  have hm : (x : ZMod r) * (xi : ZMod r) = 1 := by
    have : ((x * xi : ℕ) : ZMod r) = ((1 : ℕ) : ZMod r) := by rw [← hxi, ZMod.natCast_mod]
    push_cast at this
    exact this
  have hx0 : (x : ZMod r) ≠ 0 := left_ne_zero_of_mul_eq_one hm
  have hinv : (x : ZMod r)⁻¹ = (xi : ZMod r) := inv_eq_of_mul_eq_one_right hm
  have h4 := ih _ (foldOk_R hg (List.forall₂_take (g.length / 2) hgh) (List.forall₂_drop (g.length / 2) hgh))
  have hfold : foldG (xi : ZMod r) h = List.zipWith (fun a b => a + (xi : ZMod r) • b) (h.take (g.length / 2)) (h.drop (g.length / 2)) := by
    unfold foldG
    rw [hgl]
  unfold createGo
  simp only [hlen, e1, e2, bind, Except.bind, e3, if_neg hx0, hinv, foldN_eq, ha, hb, hfold, h4]
  rfl

/-- The whole argument, for 256 generators. -/
theorem create_go {a b : List ℕ} {t t' : Transcript} {comm : BElem} {C : Tri} {z y w : ℕ} {QT : Tri} {L R : List Lit} {c : ZMod r}
    (ha : a.length = 256) (hb : b.length = 256) (hC : C.R comm) (hy : innerN a b = y)
    (hw : leNat (Sha256.hash (t ++ lbl "ipa" ++ lbl "C" ++ C.bytes ++ lbl "input point" ++ leBytes 32 (z % r) ++ lbl "output point" ++
      leBytes 32 (y % r) ++ lbl "w")) % r = w)
    (hQ : sameT (Tri.msm [(w : ZMod r)] [genTri]) QT = true)
    (h : ∀ Q, QT.R Q → Go Q 8 a b (crsTri.take 256) (after (lbl "w") w) L R c t') :
    create shaOracle t crsE (scal a) comm (scal b) (z : ZMod r) = .ok (litProof L R c, t') := by
  have hl : crsE.gens.length = 256 := by simp [crsE, crsOf]
  have h8 : Nat.clog 2 256 = 8 := by
    rw [show (256 : ℕ) = 2 ^ 8 by norm_num, Nat.clog_pow 2 8 (by norm_num)]
  have hw' : absorb shaOracle t comm (z : ZMod r) (innerProduct (scal a) (scal b)) = ((w : ZMod r), after (lbl "w") w) := by
    unfold absorb
    apply challenge_after
    have e1 : shaOracle.K.encE comm = C.bytes := (bytes_R hC).symm
    have e2 : ∀ n : ℕ, shaOracle.K.encS (n : ZMod r) = leBytes 32 (n % r) := fun n => by
      change leBytes 32 (ZMod.val (n : ZMod r)) = _
      rw [ZMod.val_natCast]
    unfold appendScalar appendPoint appendMessage domainSep
    rw [innerN_eq, hy, e1, e2, e2]
    exact hw
  unfold create
  rw [hl]
  simp only [scal, List.length_map, ha, hb]
  rw [if_neg (by simp), if_neg (by simp), if_neg (by decide)]
  have e3 := h ((w : ZMod r) • crsE.Q) (sameT_R (smul_R (w : ZMod r) crs_R.2.2) hQ) crsE.gens crs_R.2.1
  simp only [scal] at hw' e3
  rw [hw', h8]
  exact e3

end Verif.Vectors
