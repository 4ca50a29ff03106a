import Verif.Ipa.Model

/-!
# The opening arguments on points

The model in `Verif/Ipa/Model.lean` speaks about group elements.  The code computes on points, of which several represent the same
element.  Here the functions which the byte interfaces use are modelled on points, for arbitrary operations on points
(`PointOps`), and shown to follow the ones on elements whenever the operations follow the group's (`PointOps.Sound`).

Sources: `/repo/ipa-multipoint/src/ipa.rs`, `multiproof.rs`, `transcript.rs` in the same directory.
-/

set_option autoImplicit false

namespace Verif.Ipa
open Proof

/-- The operations on points and the hash which the arguments use: `+`, `-`, `*` of `/repo/banderwagon/src/trait_impls/ops.rs:10-51`,
`multi_scalar_mul` on lists of equal length (`/repo/banderwagon/src/element.rs:194-204`), `is_zero` (`:175-177`), `to_bytes` (`:37-55`, an
error for a point at infinity); the encoding of scalars and the hash of the transcript. -/
structure PointOps (F E : Type) where
  add : E → E → E
  sub : E → E → E
  smul : F → E → E
  msm : List F → List E → E
  isZero : E → Bool
  toBytes : E → Res (List Byte)
  encS : F → List Byte
  H : List Byte → F

section
variable {F E : Type} [Field F] (P : PointOps F E)

/-- `append_point`, `transcript.rs:55-59`. -/
def pAppendPoint (t : Transcript) (label : List Byte) (p : E) : Res Transcript := do
  .ok (appendMessage t label (← P.toBytes p))

/-- `append_scalar`, `transcript.rs:61-65`. -/
def pAppendScalar (t : Transcript) (label : List Byte) (x : F) : Transcript := appendMessage t label (P.encS x)

/-- `challenge_scalar`, `transcript.rs:37-53`. -/
def pChallenge (t : Transcript) (label : List Byte) : F × Transcript :=
  let x := P.H (domainSep t label)
  (x, pAppendScalar P [] label x)

/-- `slow_vartime_multiscalar_mul`, `ipa.rs:441-448`. -/
def pMsm (s : List F) (p : List E) : Res E :=
  if s.length = p.length then .ok (P.msm s p) else .error "number of bases should equal number of scalars"

/-- The halving of the generators, `ipa.rs:201-205`. -/
def pFold (c : F) (v : List E) : List E :=
  List.zipWith (fun l r => P.add l (P.smul c r)) (v.take (v.length / 2)) (v.drop (v.length / 2))

/-- The statement absorbed before the first round, `ipa.rs:146,163-168`. -/
def pAbsorb (t : Transcript) (comm : E) (z y : F) : Res (F × Transcript) := do
  let t ← pAppendPoint P (domainSep t (lbl "ipa")) (lbl "C") comm
  let t := pAppendScalar P t (lbl "input point") z
  let t := pAppendScalar P t (lbl "output point") y
  .ok (pChallenge P t (lbl "w"))

/-- `generate_challenges`, `ipa.rs:450-462`. -/
def pGenChallenges : List E → List E → Transcript → Res (List F × Transcript)
  | L :: Ls, R :: Rs, t => do
    let t ← pAppendPoint P t (lbl "L") L
    let t ← pAppendPoint P t (lbl "R") R
    let (x, t) := pChallenge P t (lbl "x")
    let r ← pGenChallenges Ls Rs t
    .ok (x :: r.1, r.2)
  | _, _, t => .ok ([], t)

/-- `IPAProof::verify_multiexp`, `ipa.rs:294-366`. -/
def pVerifyMultiexp (p : IpaProof F E) (t : Transcript) (crs : CRS E) (b : List F) (comm : E) (z y : F) : Res (Bool × Transcript) :=
  if 64 ≤ p.L.length then .error "attempt to shift left with overflow"
  else if crs.n ≠ 2 ^ p.L.length then .ok (false, domainSep t (lbl "ipa"))
  else do
    let (w, t) ← pAbsorb P t comm z y
    let (xs, t) ← pGenChallenges P p.L p.R t
    let xinv := batchInv xs
    let bi ← coeffs (-1) crs.n p.L.length xinv
    let gi := bi.map (p.a * ·)
    let b0 := innerProduct b bi
    let q := w * (y + p.a * b0)
    let r ← pMsm P (xs ++ xinv ++ [1] ++ [q] ++ gi) (p.L ++ p.R ++ [comm] ++ [crs.Q] ++ crs.gens)
    .ok (P.isZero r, t)

section
variable [DecidableEq F]

/-- The rounds of `create`, `ipa.rs:176-216`. -/
def pCreateGo (Q : E) : ℕ → List F → List F → List E → Transcript → Res (IpaProof F E × Transcript)
  | 0, a, _, _, t =>
    match a with
    | [] => .error "index out of bounds"
    | x :: _ => .ok (⟨[], [], x⟩, t)
  | k + 1, a, b, g, t => do
    let aL := a.take (a.length / 2)
    let aR := a.drop (a.length / 2)
    let bL := b.take (b.length / 2)
    let bR := b.drop (b.length / 2)
    let gL := g.take (g.length / 2)
    let gR := g.drop (g.length / 2)
    let zL := innerProduct aR bL
    let zR := innerProduct aL bR
    let L ← pMsm P (aR ++ [zL]) (gL ++ [Q])
    let R ← pMsm P (aL ++ [zR]) (gR ++ [Q])
    let t ← pAppendPoint P t (lbl "L") L
    let t ← pAppendPoint P t (lbl "R") R
    let (x, t) := pChallenge P t (lbl "x")
    if x = 0 then .error "called unwrap on None"
    else do
      let r ← pCreateGo Q k (foldS x a) (foldS x⁻¹ b) (pFold P x⁻¹ g) t
      .ok (⟨L :: r.1.L, R :: r.1.R, r.1.a⟩, r.2)

/-- `create`, `ipa.rs:137-217`. -/
def pCreate (t : Transcript) (crs : CRS E) (a : List F) (comm : E) (b : List F) (z : F) : Res (IpaProof F E × Transcript) :=
  let n := crs.gens.length
  if a.length ≠ n then .error "assert a.len() == n"
  else if b.length ≠ n then .error "assert b.len() == n"
  else if n ≠ 2 ^ Nat.log2 n then .error "assert n.is_power_of_two()"
  else do
    let (w, t) ← pAbsorb P t comm z (innerProduct a b)
    pCreateGo P (P.smul w crs.Q) (Nat.clog 2 n) a b crs.gens t

/-- The loop over the queries, `multiproof.rs:61-72,231-239`. -/
def pAbsorbLoop : List (VerifierQuery F E) → Transcript → Res Transcript
  | [], t => .ok t
  | q :: qs, t => do
    let t ← pAppendPoint P t (lbl "C") q.commitment
    pAbsorbLoop qs (pAppendScalar P (pAppendScalar P t (lbl "z") q.point) (lbl "y") q.result)

/-- The absorbed openings, `multiproof.rs:61-74,231-241`. -/
def pAbsorbQueries (t : Transcript) (qs : List (VerifierQuery F E)) : Res (F × Transcript) := do
  let t ← pAbsorbLoop P qs (domainSep t (lbl "multiproof"))
  .ok (pChallenge P t (lbl "r"))

/-- The aggregated polynomial of one group, `multiproof.rs:42-52,83-99`. -/
def pAggregate (n : ℕ) (qs : List (ProverQuery F E)) (rs : List F) (point : ℕ) : List F :=
  ((qs.zip rs).filter fun x => decide (x.1.point = point)).foldl (fun agg x =>
    List.zipWith (· + ·) agg (x.1.poly.map (· * x.2)) ++ agg.drop x.1.poly.length) (List.replicate n 0)

/-- `MultiPoint::open`, `multiproof.rs:55-161`. -/
def pOpenMulti (crs : CRS E) (W : Weights F) (t : Transcript) (qs : List (ProverQuery F E)) (order : List ℕ) :
    Res (MultiProof F E × Transcript) := do
  let (r, t) ← pAbsorbQueries P t (qs.map fun q => ⟨q.commitment, (q.point : F), q.result⟩)
  let rs := powersOf r qs.length
  let aggs := order.map fun p => (p, pAggregate crs.n qs rs p)
  let quots ← aggs.mapM fun x => divide W x.2 x.1
  let gx := quots.foldl addPoly []
  let D ← pMsm P gx crs.gens
  let t ← pAppendPoint P t (lbl "D") D
  let (tt, t) := pChallenge P t (lbl "t")
  let g1 := (aggs.map fun x => x.2.map ((tt - (x.1 : F))⁻¹ * ·)).foldl addPoly []
  let E ← pMsm P g1 crs.gens
  let t ← pAppendPoint P t (lbl "E") E
  let b ← lagrangeCoeffs W crs.n tt
  let p ← pCreate P t crs (subPoly g1 gx) (P.sub E D) b tt
  .ok (⟨p.1, D⟩, p.2)

/-- `MultiPointProof::check`, `multiproof.rs:224-279`. -/
def pCheckMulti (p : MultiProof F E) (crs : CRS E) (W : Weights F) (qs : List (VerifierQuery F E)) (t : Transcript) :
    Res (Bool × Transcript) := do
  let (r, t) ← pAbsorbQueries P t qs
  let rs := powersOf r qs.length
  let t ← pAppendPoint P t (lbl "D") p.gx
  let (tt, t) := pChallenge P t (lbl "t")
  let den := batchInv (qs.map fun q => tt - q.point)
  let hs := List.zipWith (fun r d => d * r) rs den
  let g2 := (List.zipWith (fun h (q : VerifierQuery F E) => h * q.result) hs qs).sum
  let E ← pMsm P hs (qs.map VerifierQuery.commitment)
  let t ← pAppendPoint P t (lbl "E") E
  let b ← lagrangeCoeffs W crs.n tt
  pVerifyMultiexp P p.openProof t crs b (P.sub E p.gx) tt g2

end
end

/-! ### Following the group -/

/-- The operations on points follow those of the group: `R p x` says that the point `p` represents the element `x`. -/
structure PointOps.Sound {F E G : Type} [Field F] [AddCommGroup G] [Module F G] (P : PointOps F E) (O : Oracle F G) (R : E → G → Prop) : Prop where
  add : ∀ {p q : E} {x y : G}, R p x → R q y → R (P.add p q) (x + y)
  sub : ∀ {p q : E} {x y : G}, R p x → R q y → R (P.sub p q) (x - y)
  smul : ∀ (c : F) {p : E} {x : G}, R p x → R (P.smul c p) (c • x)
  msm : ∀ (s : List F) {ps : List E} {xs : List G}, s.length = ps.length → List.Forall₂ R ps xs → R (P.msm s ps) (lin s xs)
  isZero : ∀ {p : E} {x : G}, R p x → (P.isZero p = true ↔ x = 0)
  toBytes : ∀ {p : E} {x : G}, R p x → P.toBytes p = .ok (O.K.encE x)
  encS : P.encS = O.K.encS
  H : P.H = O.H

/-- Two computations panic alike or give related values. -/
def RRel {α β : Type} (S : α → β → Prop) : Res α → Res β → Prop
  | .ok a, .ok b => S a b
  | .error m, .error m' => m = m'
  | _, _ => False

theorem RRel.bind {α β γ δ : Type} {S : α → β → Prop} {T : γ → δ → Prop} {x : Res α} {y : Res β} {f : α → Res γ} {g : β → Res δ}
    (h : RRel S x y) (hf : ∀ a b, S a b → RRel T (f a) (g b)) : RRel T (x.bind f) (y.bind g) := by
  cases x <;> cases y
  · exact h
  · exact h.elim
  · exact h.elim
  · exact hf _ _ h

theorem RRel.refl {α : Type} {x : Res α} : RRel (fun a b => a = b) x x := by cases x <;> rfl

theorem RRel.eq {α : Type} {x y : Res α} (h : RRel (fun a b => a = b) x y) : x = y := by
  cases x <;> cases y
  · exact congrArg _ h
  · exact h.elim
  · exact h.elim
  · exact congrArg _ h

theorem RRel.mono {α β : Type} {S T : α → β → Prop} {x : Res α} {y : Res β} (h : RRel S x y) (hST : ∀ a b, S a b → T a b) : RRel T x y := by
  cases x <;> cases y
  · exact h
  · exact h
  · exact h
  · exact hST _ _ h

/-- Related proofs. -/
def IpaRel {F E G : Type} (R : E → G → Prop) (p : IpaProof F E) (p' : IpaProof F G) : Prop :=
  List.Forall₂ R p.L p'.L ∧ List.Forall₂ R p.R p'.R ∧ p.a = p'.a

def MultiRel {F E G : Type} (R : E → G → Prop) (p : MultiProof F E) (p' : MultiProof F G) : Prop :=
  IpaRel R p.openProof p'.openProof ∧ R p.gx p'.gx

def CrsRel {E G : Type} (R : E → G → Prop) (c : CRS E) (c' : CRS G) : Prop :=
  c.n = c'.n ∧ List.Forall₂ R c.gens c'.gens ∧ R c.Q c'.Q

def VQueryRel {F E G : Type} (R : E → G → Prop) (q : VerifierQuery F E) (q' : VerifierQuery F G) : Prop :=
  R q.commitment q'.commitment ∧ q.point = q'.point ∧ q.result = q'.result

def PQueryRel {F E G : Type} (R : E → G → Prop) (q : ProverQuery F E) (q' : ProverQuery F G) : Prop :=
  R q.commitment q'.commitment ∧ q.poly = q'.poly ∧ q.point = q'.point ∧ q.result = q'.result

section
variable {F E G : Type} [Field F] [AddCommGroup G] [Module F G] {P : PointOps F E} {O : Oracle F G} {R : E → G → Prop}

theorem PointOps.Sound.appendPoint_rel (h : P.Sound O R) (t : Transcript) (l : List Byte) {p : E} {x : G} (hp : R p x) :
    pAppendPoint P t l p = .ok (appendPoint O t l x) := by
  unfold pAppendPoint
  rw [h.toBytes hp]
  rfl

theorem PointOps.Sound.appendScalar_rel (h : P.Sound O R) (t : Transcript) (l : List Byte) (x : F) :
    pAppendScalar P t l x = appendScalar O t l x := by
  unfold pAppendScalar appendScalar
  rw [h.encS]

theorem PointOps.Sound.challenge_rel (h : P.Sound O R) (t : Transcript) (l : List Byte) : pChallenge P t l = challenge O t l := by
  unfold pChallenge challenge
  simp only [h.H, h.appendScalar_rel]

theorem PointOps.Sound.msmRel (h : P.Sound O R) (s : List F) {ps : List E} {xs : List G} (hp : List.Forall₂ R ps xs) :
    RRel R (pMsm P s ps) (Ipa.msm s xs) := by
  unfold pMsm Ipa.msm
  rw [← hp.length_eq]
  split
  next e => exact h.msm s e hp
  next => rfl

theorem PointOps.Sound.fold_rel (h : P.Sound O R) (c : F) {ps : List E} {xs : List G} (hp : List.Forall₂ R ps xs) :
    List.Forall₂ R (pFold P c ps) (foldG c xs) := by
  have key : ∀ {l r : List E} {l' r' : List G}, List.Forall₂ R l l' → List.Forall₂ R r r' →
      List.Forall₂ R (List.zipWith (fun l r => P.add l (P.smul c r)) l r) (List.zipWith (fun l r => l + c • r) l' r') := by
    intro l r l' r' h1
    induction h1 generalizing r r' with
    | nil => intro _; exact .nil
    | cons hd _ ih =>
      intro h2
      cases h2 with
      | nil => exact .nil
      | cons hd' tl' => exact .cons (h.add hd (h.smul c hd')) (ih tl')
  unfold pFold foldG
  rw [hp.length_eq]
  exact key (List.forall₂_take _ hp) (List.forall₂_drop _ hp)

theorem PointOps.Sound.absorb_rel (h : P.Sound O R) (t : Transcript) {p : E} {x : G} (hp : R p x) (z y : F) :
    pAbsorb P t p z y = .ok (absorb O t x z y) := by
  unfold pAbsorb Ipa.absorb
  simp only [h.appendPoint_rel _ _ hp, bind, Except.bind, h.appendScalar_rel, h.challenge_rel]

theorem PointOps.Sound.genChallenges_rel (h : P.Sound O R) : ∀ {Ls Rs : List E} {Ls' Rs' : List G} (t : Transcript), List.Forall₂ R Ls Ls' →
    List.Forall₂ R Rs Rs' → pGenChallenges P Ls Rs t = .ok (genChallenges O Ls' Rs' t)
  | [], _, _, _, t, .nil, _ => rfl
  | _ :: _, [], _, _, t, .cons _ _, .nil => rfl
  | _ :: _, _ :: _, _, _, t, .cons h1 h1', .cons h2 h2' => by
    unfold pGenChallenges Ipa.genChallenges
    simp only [h.appendPoint_rel _ _ h1, h.appendPoint_rel _ _ h2, bind, Except.bind, h.challenge_rel, PointOps.Sound.genChallenges_rel h _ h1' h2']

variable [DecidableEq G]

theorem PointOps.Sound.verifyMultiexp_rel (h : P.Sound O R) {p : IpaProof F E} {p' : IpaProof F G} (hp : IpaRel R p p') (t : Transcript)
    {crs : CRS E} {crs' : CRS G} (hc : CrsRel R crs crs') (b : List F) {c : E} {c' : G} (hcc : R c c') (z y : F) :
    pVerifyMultiexp P p t crs b c z y = verifyMultiexp O p' t crs' b c' z y := by
  obtain ⟨hL, hR, ha⟩ := hp
  obtain ⟨hn, hg, hQ⟩ := hc
  unfold pVerifyMultiexp Ipa.verifyMultiexp
  rw [hL.length_eq, hn, ha]
  split
  · rfl
  split
  · rfl
  simp only [h.absorb_rel _ hcc, h.genChallenges_rel _ hL hR, bind, Except.bind]
  cases coeffs (-1) crs'.n p'.L.length (batchInv (genChallenges O p'.L p'.R (Ipa.absorb O t c' z y).2).1) with
  | error m => rfl
  | ok bi =>
    dsimp only
    have hm := h.msmRel ((genChallenges O p'.L p'.R (Ipa.absorb O t c' z y).2).1 ++ batchInv (genChallenges O p'.L p'.R (Ipa.absorb O t c' z y).2).1 ++
      [1] ++ [(Ipa.absorb O t c' z y).1 * (y + p'.a * innerProduct b bi)] ++ bi.map (p'.a * ·))
      (ps := p.L ++ p.R ++ [c] ++ [crs.Q] ++ crs.gens) (xs := p'.L ++ p'.R ++ [c'] ++ [crs'.Q] ++ crs'.gens)
      (List.rel_append (List.rel_append (List.rel_append (List.rel_append hL hR) (.cons hcc .nil)) (.cons hQ .nil)) hg)
    apply RRel.eq
    refine RRel.bind hm fun r r' hr => ?_
    show (P.isZero r, _) = (decide (r' = 0), _)
    rw [Bool.eq_iff_iff.2 ((h.isZero hr).trans decide_eq_true_iff.symm)]

variable [DecidableEq F]

theorem PointOps.Sound.createGo_rel (h : P.Sound O R) {Q : E} {Q' : G} (hQ : R Q Q') : ∀ (k : ℕ) (a b : List F) {g : List E} {g' : List G}
    (t : Transcript), List.Forall₂ R g g' → RRel (fun p p' => IpaRel R p.1 p'.1 ∧ p.2 = p'.2) (pCreateGo P Q k a b g t) (createGo O Q' k a b g' t)
  | 0, a, b, g, g', t, hg => by
    unfold pCreateGo Ipa.createGo
    cases a with
    | nil => rfl
    | cons x a => exact ⟨⟨.nil, .nil, rfl⟩, rfl⟩
  | k + 1, a, b, g, g', t, hg => by
    unfold pCreateGo Ipa.createGo
    rw [hg.length_eq]
    refine RRel.bind (h.msmRel _ (List.rel_append (List.forall₂_take _ hg) (.cons hQ .nil))) fun L L' hL => ?_
    refine RRel.bind (h.msmRel _ (List.rel_append (List.forall₂_drop _ hg) (.cons hQ .nil))) fun M M' hM => ?_
    simp only [h.appendPoint_rel _ _ hL, h.appendPoint_rel _ _ hM, bind, Except.bind, h.challenge_rel]
    split
    · rfl
    · refine RRel.bind (PointOps.Sound.createGo_rel h hQ k _ _ _ (h.fold_rel _ hg)) fun r r' hr => ?_
      exact ⟨⟨.cons hL hr.1.1, .cons hM hr.1.2.1, hr.1.2.2⟩, hr.2⟩

theorem PointOps.Sound.create_rel (h : P.Sound O R) (t : Transcript) {crs : CRS E} {crs' : CRS G} (hc : CrsRel R crs crs') (a : List F) {c : E} {c' : G}
    (hcc : R c c') (b : List F) (z : F) :
    RRel (fun p p' => IpaRel R p.1 p'.1 ∧ p.2 = p'.2) (pCreate P t crs a c b z) (create O t crs' a c' b z) := by
  obtain ⟨hn, hg, hQ⟩ := hc
  unfold pCreate Ipa.create
  dsimp only
  rw [hg.length_eq]
  split
  · rfl
  split
  · rfl
  split
  · rfl
  simp only [h.absorb_rel _ hcc, bind, Except.bind]
  exact h.createGo_rel (h.smul _ hQ) _ _ _ _ hg

theorem PointOps.Sound.absorbLoop_rel (h : P.Sound O R) : ∀ {qs : List (VerifierQuery F E)} {qs' : List (VerifierQuery F G)} (t : Transcript),
    List.Forall₂ (VQueryRel R) qs qs' → pAbsorbLoop P qs t = .ok (qs'.foldl (fun t q =>
      Ipa.appendScalar O (Ipa.appendScalar O (Ipa.appendPoint O t (lbl "C") q.commitment) (lbl "z") q.point) (lbl "y") q.result) t)
  | [], _, t, .nil => rfl
  | q :: qs, q' :: qs', t, .cons ⟨h1, h2, h3⟩ h' => by
    unfold pAbsorbLoop
    simp only [h.appendPoint_rel _ _ h1, bind, Except.bind, h.appendScalar_rel, List.foldl_cons, h2, h3]
    exact PointOps.Sound.absorbLoop_rel h _ h'

theorem PointOps.Sound.absorbQueries_rel (h : P.Sound O R) (t : Transcript) {qs : List (VerifierQuery F E)} {qs' : List (VerifierQuery F G)}
    (hq : List.Forall₂ (VQueryRel R) qs qs') : pAbsorbQueries P t qs = .ok (absorbQueries O t qs') := by
  unfold pAbsorbQueries Ipa.absorbQueries
  simp only [h.absorbLoop_rel _ hq, bind, Except.bind, h.challenge_rel]

/-- The verifier on points follows the verifier on elements. -/
theorem PointOps.Sound.checkMulti_rel (h : P.Sound O R) {p : MultiProof F E} {p' : MultiProof F G} (hp : MultiRel R p p') {crs : CRS E} {crs' : CRS G}
    (hc : CrsRel R crs crs') (W : Weights F) {qs : List (VerifierQuery F E)} {qs' : List (VerifierQuery F G)}
    (hq : List.Forall₂ (VQueryRel R) qs qs') (t : Transcript) : pCheckMulti P p crs W qs t = checkMulti O p' crs' W qs' t := by
  have e1 : ∀ tt : F, qs.map (fun q => tt - q.point) = qs'.map fun q => tt - q.point := by
    intro tt
    induction hq with
    | nil => rfl
    | cons hd _ ih => rw [List.map_cons, List.map_cons, ih, hd.2.1]
  have e2 : ∀ hs : List F, List.zipWith (fun h (q : VerifierQuery F E) => h * q.result) hs qs =
      List.zipWith (fun h (q : VerifierQuery F G) => h * q.result) hs qs' := by
    clear e1
    induction hq with
    | nil => intro hs; rw [List.zipWith_nil_right, List.zipWith_nil_right]
    | cons hd _ ih =>
      intro hs
      cases hs with
      | nil => rfl
      | cons x hs => rw [List.zipWith_cons_cons, List.zipWith_cons_cons, ih, hd.2.2]
  have e3 : List.Forall₂ R (qs.map VerifierQuery.commitment) (qs'.map VerifierQuery.commitment) := by
    rw [List.forall₂_map_left_iff, List.forall₂_map_right_iff]
    exact hq.imp fun _ _ hq => hq.1
  unfold pCheckMulti Ipa.checkMulti
  simp only [h.absorbQueries_rel _ hq, bind, Except.bind, h.appendPoint_rel _ _ hp.2, h.challenge_rel, e1, e2, hq.length_eq, hc.1]
  apply RRel.eq
  refine RRel.bind (h.msmRel _ e3) fun C C' hC => ?_
  simp only [h.appendPoint_rel _ _ hC]
  refine RRel.bind RRel.refl fun b b' hb => ?_
  subst hb
  rw [h.verifyMultiexp_rel hp.1 _ hc _ (h.sub hC hp.2)]
  exact RRel.refl

theorem aggregate_eq (n : ℕ) {qs : List (ProverQuery F E)} {qs' : List (ProverQuery F G)} (hq : List.Forall₂ (PQueryRel R) qs qs') (rs : List F) (p : ℕ) :
    pAggregate n qs rs p = aggregate n (group qs' rs p) := by
  unfold pAggregate aggregate group
  generalize List.replicate n (0 : F) = agg
  induction hq generalizing rs agg with
  | nil => rw [List.zip_nil_left, List.zip_nil_left]; rfl
  | cons hd _ ih =>
    cases rs with
    | nil => rw [List.zip_nil_right, List.zip_nil_right]; rfl
    | cons r rs =>
      rw [List.zip_cons_cons, List.zip_cons_cons, List.filter_cons, List.filter_cons]
      simp only [hd.2.2.1]
      split
      · rw [List.foldl_cons, List.foldl_cons]
        simp only [hd.2.1]
        exact ih rs _
      · exact ih rs _

/-- The prover on points follows the prover on elements. -/
theorem PointOps.Sound.openMulti_rel (h : P.Sound O R) {crs : CRS E} {crs' : CRS G} (hc : CrsRel R crs crs') (W : Weights F) (t : Transcript)
    {qs : List (ProverQuery F E)} {qs' : List (ProverQuery F G)} (hq : List.Forall₂ (PQueryRel R) qs qs') (order : List ℕ) :
    RRel (fun p p' => MultiRel R p.1 p'.1 ∧ p.2 = p'.2) (pOpenMulti P crs W t qs order) (openMulti O crs' W t qs' order) := by
  have hv : List.Forall₂ (VQueryRel R) (qs.map fun q => (⟨q.commitment, (q.point : F), q.result⟩ : VerifierQuery F E)) (qs'.map ProverQuery.toVerifier) := by
    rw [List.forall₂_map_left_iff, List.forall₂_map_right_iff]
    exact hq.imp fun _ _ hq => ⟨hq.1, congrArg (Nat.cast : ℕ → F) hq.2.2.1, hq.2.2.2⟩
  unfold pOpenMulti Ipa.openMulti
  simp only [h.absorbQueries_rel _ hv, bind, Except.bind, aggregate_eq _ hq, hq.length_eq, hc.1]
  refine RRel.bind RRel.refl fun quots quots' hqq => ?_
  subst hqq
  refine RRel.bind (h.msmRel _ hc.2.1) fun D D' hD => ?_
  simp only [h.appendPoint_rel _ _ hD, h.challenge_rel]
  refine RRel.bind (h.msmRel _ hc.2.1) fun C C' hC => ?_
  simp only [h.appendPoint_rel _ _ hC]
  refine RRel.bind RRel.refl fun b b' hb => ?_
  subst hb
  refine RRel.bind (h.create_rel _ hc _ (h.sub hC hD) _ _) fun p p' hp => ?_
  exact ⟨⟨hp.1, hD⟩, hp.2⟩

end
end Verif.Ipa
