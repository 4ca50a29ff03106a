import Verif.Wire.Model
import Mathlib.Algebra.BigOperators.Group.List.Basic
import Mathlib.Algebra.BigOperators.GroupWithZero.Action

/-!
# The transcript, the inner product argument, the Lagrange basis and the multipoint argument

Sources: `/repo/ipa-multipoint/src/transcript.rs`, `math_utils.rs`, `ipa.rs`, `lagrange_basis.rs`, `multiproof.rs`, `crs.rs`
(all in `/repo/ipa-multipoint/src`).

The transcript is the real one: a byte string that is hashed when a challenge is drawn.  SHA-256 followed by
`Fr::from_le_bytes_mod_order` is the parameter `Oracle.H`; the 32-byte encodings of points and scalars are `Oracle.K`.
Arithmetic overflow panics, also in release builds (`/repo/Cargo.toml`: `debug-assertions = true`).
`usize` has 64 bits.
-/

set_option autoImplicit false

namespace Verif.Ipa
open Proof

/-! ### Transcript -/

/-- The encodings appended to the transcript and the hash to a scalar (`transcript.rs:41-48`, the SHA-256 digest reduced
modulo the order of the field). -/
structure Oracle (F G : Type) where
  K : WireCodec F G
  H : List Byte → F

/-- `Transcript`, `transcript.rs:11-13`: the bytes absorbed since the last challenge. -/
abbrev Transcript := List Byte

/-- A byte string literal. -/
def lbl (s : String) : List Byte := s.toList.map fun c => asU8 c.toNat

section
variable {F G : Type} (O : Oracle F G)

/-- `Transcript::new`, `transcript.rs:16-21`. -/
def newTranscript (label : List Byte) : Transcript := label

/-- `append_message`, `transcript.rs:23-26`. -/
def appendMessage (t : Transcript) (label msg : List Byte) : Transcript := t ++ label ++ msg

/-- `append_u64`, `transcript.rs:30-33`: the number in big-endian order; `n` stands for a `u64`. -/
def appendU64 (t : Transcript) (label : List Byte) (n : ℕ) : Transcript := appendMessage t label (Wire.leBytes 8 n).reverse

/-- `domain_sep`, `transcript.rs:67-69`. -/
def domainSep (t : Transcript) (label : List Byte) : Transcript := t ++ label

/-- `append_point`, `transcript.rs:55-59`. -/
def appendPoint (t : Transcript) (label : List Byte) (p : G) : Transcript := appendMessage t label (O.K.encE p)

/-- `append_scalar`, `transcript.rs:61-65`. -/
def appendScalar (t : Transcript) (label : List Byte) (x : F) : Transcript := appendMessage t label (O.K.encS x)

/-- `challenge_scalar`, `transcript.rs:37-53`: the label is absorbed, everything absorbed is hashed, the state is cleared and
the challenge is absorbed under the label. -/
def challenge (t : Transcript) (label : List Byte) : F × Transcript :=
  let x := O.H (domainSep t label)
  (x, appendScalar O [] label x)

end

/-! ### Inner product argument -/

section
variable {F G : Type} [Field F] [AddCommGroup G] [Module F G]

/-- `CRS`, `crs.rs:6-10`. -/
structure CRS (G : Type) where
  n : ℕ
  gens : List G
  Q : G

/-- `inner_product`, `math_utils.rs:3-5`. -/
def innerProduct (a b : List F) : F := (List.zipWith (· * ·) a b).sum

/-- `powers_of`, `math_utils.rs:7-15`: one entry even for `n = 0`. -/
def powersOf (x : F) (n : ℕ) : List F := (List.range (max n 1)).map (x ^ ·)

/-- `Σ sᵢ pᵢ` over the common length. -/
def lin (s : List F) (p : List G) : G := (List.zipWith (· • ·) s p).sum

/-- `slow_vartime_multiscalar_mul`, `ipa.rs:441-448`, which is `multi_scalar_mul`
(`/repo/banderwagon/src/element.rs:194-204`): arkworks' multi-scalar multiplication, an error (here a panic, `expect`) when
the lengths differ.  That arkworks computes the sum is trusted. -/
def msm (s : List F) (p : List G) : Res G :=
  if s.length = p.length then .ok (lin s p) else .error "number of bases should equal number of scalars"

/-- One halving of a vector in the prover, `ipa.rs:201-205`: the left half plus `c` times the right half (the halves have
equal length since the length is a power of two). -/
def foldS (c : F) (v : List F) : List F :=
  List.zipWith (fun l r => l + c * r) (v.take (v.length / 2)) (v.drop (v.length / 2))

/-- The same on points. -/
def foldG (c : F) (v : List G) : List G :=
  List.zipWith (fun l r => l + c • r) (v.take (v.length / 2)) (v.drop (v.length / 2))

section
variable [DecidableEq F] [DecidableEq G] (O : Oracle F G)

/-- The rounds of `create`, `ipa.rs:176-216`; the first argument is the number of rounds left.  `halve` is
`ipa.rs:220-223`. -/
def createGo (Q : G) : ℕ → List F → List F → List G → Transcript → Res (IpaProof F G × Transcript)
  | 0, a, _, _, t =>
    match a with
    | [] => .error "index out of bounds"
    | x :: _ => .ok (⟨[], [], x⟩, t)
  | k + 1, a, b, g, t => do
    let aL := a.take (a.length / 2)
    let aR := a.drop (a.length / 2)
    let bL := b.take (b.length / 2)
    let bR := b.drop (b.length / 2)
    let gL := g.take (g.length / 2)
    let gR := g.drop (g.length / 2)
    let zL := innerProduct aR bL
    let zR := innerProduct aL bR
    let L ← msm (aR ++ [zL]) (gL ++ [Q])
    let R ← msm (aL ++ [zR]) (gR ++ [Q])
    let t := appendPoint O t (lbl "L") L
    let t := appendPoint O t (lbl "R") R
    let (x, t) := challenge O t (lbl "x")
    if x = 0 then .error "called unwrap on None"
    else do
      let r ← createGo Q k (foldS x a) (foldS x⁻¹ b) (foldG x⁻¹ g) t
      .ok (⟨L :: r.1.L, R :: r.1.R, r.1.a⟩, r.2)

/-- The statement absorbed before the first round, `ipa.rs:146,163-168`. -/
def absorb (t : Transcript) (comm : G) (z y : F) : F × Transcript :=
  let t := domainSep t (lbl "ipa")
  let t := appendPoint O t (lbl "C") comm
  let t := appendScalar O t (lbl "input point") z
  let t := appendScalar O t (lbl "output point") y
  challenge O t (lbl "w")

/-- `create`, `ipa.rs:137-217`. -/
def create (t : Transcript) (crs : CRS G) (a : List F) (comm : G) (b : List F) (z : F) : Res (IpaProof F G × Transcript) :=
  let n := crs.gens.length
  if a.length ≠ n then .error "assert a.len() == n"
  else if b.length ≠ n then .error "assert b.len() == n"
  else if n ≠ 2 ^ Nat.log2 n then .error "assert n.is_power_of_two()"
  else
    let (w, t) := absorb O t comm z (innerProduct a b)
    createGo O (w • crs.Q) (Nat.clog 2 n) a b crs.gens t

/-- `generate_challenges`, `ipa.rs:450-462`; `zip` stops at the shorter list. -/
def genChallenges : List G → List G → Transcript → List F × Transcript
  | L :: Ls, R :: Rs, t =>
    let t := appendPoint O t (lbl "L") L
    let t := appendPoint O t (lbl "R") R
    let (x, t) := challenge O t (lbl "x")
    let r := genChallenges Ls Rs t
    (x :: r.1, r.2)
  | _, _, t => ([], t)

/-- `batch_inversion` of arkworks: zero entries stay zero, which is the inverse of Mathlib's fields. -/
def batchInv (l : List F) : List F := l.map (·⁻¹)

/-- The loop `ipa.rs:267-274`; `challenges[i]`, `challenges_inv[i]`, `R_vec[i]` are indexed for `i < L_vec.len()`. -/
def accumulate (comm : G) : List F → List G → List G → Res G
  | _, [], _ => .ok comm
  | x :: xs, L :: Ls, R :: Rs => accumulate (comm + x • L + x⁻¹ • R) xs Ls Rs
  | _, _, _ => .error "index out of bounds"

/-- One pass of the inner loop `ipa.rs:277-285` over a slice: `m` entries of the left half are updated, the others keep their
value; indexing beyond the half panics. -/
def foldAt {M : Type} [AddCommGroup M] [Module F M] (m : ℕ) (c : F) (v : List M) : Res (List M) :=
  let l := v.take (v.length / 2)
  let r := v.drop (v.length / 2)
  if l.length < m then .error "index out of bounds"
  else .ok (List.zipWith (fun x y => x + c • y) (l.take m) (r.take m) ++ l.drop m)

/-- The loop `ipa.rs:276-288`, giving `(G[0], b[0])`. -/
def foldAll : List F → List G → List F → Res (G × F)
  | [], g, b =>
    match g, b with
    | [g0], [b0] => .ok (g0, b0)
    | _, _ => .error "assert len() == 1"
  | c :: cs, g, b => do
    let g' ← foldAt (g.length / 2) c g
    let b' ← foldAt (g.length / 2) c b
    foldAll cs g' b'

/-- `IPAProof::verify`, `ipa.rs:229-293`. -/
def verify (p : IpaProof F G) (t : Transcript) (crs : CRS G) (b : List F) (comm : G) (z y : F) : Res (Bool × Transcript) :=
  if 64 ≤ p.L.length then .error "attempt to shift left with overflow"
  else if crs.n ≠ 2 ^ p.L.length then .ok (false, domainSep t (lbl "ipa"))
  else
    let (w, t) := absorb O t comm z y
    let Q := w • crs.Q
    let (xs, t) := genChallenges O p.L p.R t
    do
      let P ← accumulate (comm + y • Q) xs p.L p.R
      let r ← foldAll (batchInv xs) crs.gens b
      .ok (decide (p.a • r.1 + (p.a * r.2) • Q = P), t)

/-- `to_bits`, `ipa.rs:437-439`: most significant bit first. -/
def toBits (n k : ℕ) : List ℕ := ((List.range k).map fun i => (n >>> i) &&& 1).reverse

/-- The inner loop `ipa.rs:333-338`; `zip_eq` panics when the lengths differ. -/
def coeff (init : F) (i k : ℕ) (xinv : List F) : Res F :=
  if k ≠ xinv.length then .error "zip_eq() reached end of one iterator before the other"
  else .ok (((toBits i k).zip xinv).foldl (fun c bx => if bx.1 = 1 then c * bx.2 else c) init)

/-- The loop `ipa.rs:332-341` (and `418-426`). -/
def coeffs (init : F) (n k : ℕ) (xinv : List F) : Res (List F) :=
  (List.range n).mapM fun i => coeff init i k xinv

/-- `IPAProof::verify_multiexp`, `ipa.rs:294-366`. -/
def verifyMultiexp (p : IpaProof F G) (t : Transcript) (crs : CRS G) (b : List F) (comm : G) (z y : F) :
    Res (Bool × Transcript) :=
  if 64 ≤ p.L.length then .error "attempt to shift left with overflow"
  else if crs.n ≠ 2 ^ p.L.length then .ok (false, domainSep t (lbl "ipa"))
  else
    let (w, t) := absorb O t comm z y
    let (xs, t) := genChallenges O p.L p.R t
    let xinv := batchInv xs
    do
      let bi ← coeffs (-1) crs.n p.L.length xinv
      let gi := bi.map (p.a * ·)
      let b0 := innerProduct b bi
      let q := w * (y + p.a * b0)
      let r ← msm (xs ++ xinv ++ [1] ++ [q] ++ gi) (p.L ++ p.R ++ [comm] ++ [crs.Q] ++ crs.gens)
      .ok (decide (r = 0), t)

/-- `IPAProof::verify_semi_multiexp`, `ipa.rs:371-434`. -/
def verifySemi (p : IpaProof F G) (t : Transcript) (crs : CRS G) (b : List F) (comm : G) (z y : F) : Res (Bool × Transcript) :=
  if 64 ≤ p.L.length then .error "attempt to shift left with overflow"
  else if crs.n ≠ 2 ^ p.L.length then .ok (false, domainSep t (lbl "ipa"))
  else
    let (w, t) := absorb O t comm z y
    let Q := w • crs.Q
    let comm' := comm + y • Q
    let (xs, t) := genChallenges O p.L p.R t
    let xinv := batchInv xs
    do
      let P ← msm (xs ++ xinv ++ [1]) (p.L ++ p.R ++ [comm'])
      let gi ← coeffs 1 crs.n p.L.length xinv
      let b0 := innerProduct b gi
      let g0 ← msm gi crs.gens
      .ok (decide (p.a • g0 + (p.a * b0) • Q = P), t)

end
end

/-! ### Lagrange basis -/

section
variable {F : Type} [Field F] [DecidableEq F]

/-- `PrecomputedWeights`, `lagrange_basis.rs:66-71`. -/
structure Weights (F : Type) where
  bary : List F
  inv : List F

/-- `compute_barycentric_weight_for`, `lagrange_basis.rs:122-133`. -/
def baryWeight (F : Type) [Field F] (j n : ℕ) : F :=
  (((List.range n).filter fun e => decide (e ≠ j)).map fun e : ℕ => (j : F) - (e : F)).prod

/-- `Field::inverse().unwrap()`. -/
def invUnwrap (x : F) : Res F := if x = 0 then .error "called unwrap on None" else .ok x⁻¹

/-- `PrecomputedWeights::new`, `lagrange_basis.rs:75-98`.  The two halves of each table are filled side by side; `1/k` for
`k = 1 … n-1` is followed by `-1/k`.  `domain_size - 1` underflows for `0`. -/
def Weights.new (F : Type) [Field F] [DecidableEq F] (n : ℕ) : Res (Weights F) := do
  let ws := (List.range n).map fun i => baryWeight F i n
  let wi ← ws.mapM invUnwrap
  if n = 0 then .error "attempt to subtract with overflow"
  else do
    let ks ← (List.range (n - 1)).mapM fun i => invUnwrap ((i + 1 : ℕ) : F)
    .ok ⟨ws ++ wi, ks ++ ks.map (-·)⟩

/-- Indexing of a vector. -/
def idx {α : Type} (l : List α) (i : ℕ) : Res α := unwrap "index out of bounds" l[i]?

/-- `get_inverted_element`, `lagrange_basis.rs:100-106`. -/
def Weights.invElem (W : Weights F) (d : ℕ) (neg : Bool) : Res F :=
  if d = 0 then .error "attempt to subtract with overflow"
  else idx W.inv (d - 1 + if neg then W.inv.length / 2 else 0)

/-- `get_ratio_of_barycentric_weights`, `lagrange_basis.rs:108-111`. -/
def Weights.ratio (W : Weights F) (m i : ℕ) : Res F := do
  let x ← idx W.bary m
  let y ← idx W.bary (i + W.bary.length / 2)
  .ok (x * y)

/-- The loop of `divide_by_linear_vanishing`, `lagrange_basis.rs:179-192`, over the indices not yet visited: the entries
`q[i]` for `i ≠ index` in order and the accumulated `q[index]`.  The entry at `index` is a placeholder. -/
def divGo (W : Weights F) (f : List F) (y : F) (index : ℕ) : List ℕ → F → Res (List F × F)
  | [], acc => .ok ([], acc)
  | i :: is, acc =>
    if i = index then do
      let r ← divGo W f y index is acc
      .ok (0 :: r.1, r.2)
    else if 2 ^ 31 ≤ i ∨ 2 ^ 31 ≤ index then .error "called unwrap on TryFromIntError"
    else do
      let dinv ← W.invElem (if i < index then index - i else i - index) (decide (i < index))
      let fi ← idx f i
      let qi := (fi - y) * dinv
      let w ← W.ratio index i
      let r ← divGo W f y index is (acc - w * qi)
      .ok (qi :: r.1, r.2)

/-- `divide_by_linear_vanishing`, `lagrange_basis.rs:170-195`, on evaluations `f` (`domain` is their number). -/
def divide (W : Weights F) (f : List F) (index : ℕ) : Res (List F) := do
  let y ← idx f index
  let r ← divGo W f y index (List.range f.length) 0
  .ok (r.1.set index r.2)

/-- `evaluate_lagrange_coefficients`, `lagrange_basis.rs:206-222`.  `batch_inversion_and_mul` of arkworks replaces each
non-zero entry by its inverse times the factor and keeps zeros. -/
def lagrangeCoeffs (W : Weights F) (n : ℕ) (z : F) : Res (List F) := do
  let ws ← (List.range n).mapM fun i => do
    let w ← idx W.bary i
    .ok (w * (z - (i : F)))
  let az := ((List.range n).map fun i => z - ((i : ℕ) : F)).prod
  .ok (ws.map fun w => w⁻¹ * az)

/-- `evaluate_outside_domain`, `lagrange_basis.rs:243-267` (compiled for tests only). -/
def evalOutside (W : Weights F) (f : List F) (z : F) : Res F := do
  let den := batchInv ((List.range f.length).map fun i => z - ((i : ℕ) : F))
  let ts ← (List.range f.length).mapM fun i => do
    let w ← idx W.bary (i + W.bary.length / 2)
    let y ← idx f i
    let d ← idx den i
    .ok (w * y * d)
  let az := ((List.range f.length).map fun i => z - ((i : ℕ) : F)).prod
  .ok (ts.sum * az)

/-- `Add` for `LagrangeBasis`, `lagrange_basis.rs:13-28`. -/
def addPoly (p q : List F) : List F :=
  if p.length = 0 then q else if q.length = 0 then p
  else List.zipWith (· + ·) p q ++ p.drop q.length

/-- `Sub<&LagrangeBasis>`, `lagrange_basis.rs:52-64`. -/
def subPoly (p q : List F) : List F := List.zipWith (· - ·) p q

end

/-! ### Multipoint argument -/

section
variable {F G : Type} [Field F] [DecidableEq F] [AddCommGroup G] [DecidableEq G] [Module F G] (O : Oracle F G)

/-- The absorbed openings, `multiproof.rs:61-74,231-241`. -/
def absorbQueries (t : Transcript) (qs : List (VerifierQuery F G)) : F × Transcript :=
  let t := qs.foldl (fun t q =>
    appendScalar O (appendScalar O (appendPoint O t (lbl "C") q.commitment) (lbl "z") q.point) (lbl "y") q.result)
    (domainSep t (lbl "multiproof"))
  challenge O t (lbl "r")

/-- `group_prover_queries`, `multiproof.rs:42-52`: the queries (with their challenges) of one point, in order. -/
def group (qs : List (ProverQuery F G)) (rs : List F) (point : ℕ) : List (ProverQuery F G × F) :=
  (qs.zip rs).filter fun x => decide (x.1.point = point)

/-- The aggregated polynomial of one group, `multiproof.rs:83-99`. -/
def aggregate (n : ℕ) (g : List (ProverQuery F G × F)) : List F :=
  g.foldl (fun agg x =>
    List.zipWith (· + ·) agg (x.1.poly.map (· * x.2)) ++ agg.drop x.1.poly.length) (List.replicate n 0)

/-- `MultiPoint::open`, `multiproof.rs:55-161`, with `open_point_outside_of_domain` (`:285-296`).  `order` is the order in
which the hash map of groups is iterated: any arrangement of the points queried. -/
def openMulti (crs : CRS G) (W : Weights F) (t : Transcript) (qs : List (ProverQuery F G)) (order : List ℕ) :
    Res (MultiProof F G × Transcript) := do
  let (r, t) := absorbQueries O t (qs.map ProverQuery.toVerifier)
  let rs := powersOf r qs.length
  let aggs := order.map fun p => (p, aggregate crs.n (group qs rs p))
  let quots ← aggs.mapM fun x => divide W x.2 x.1
  let gx := quots.foldl addPoly []
  let D ← msm gx crs.gens
  let t := appendPoint O t (lbl "D") D
  let (tt, t) := challenge O t (lbl "t")
  let g1 := (aggs.map fun x => x.2.map ((tt - (x.1 : F))⁻¹ * ·)).foldl addPoly []
  let E ← msm g1 crs.gens
  let t := appendPoint O t (lbl "E") E
  let b ← lagrangeCoeffs W crs.n tt
  let p ← create O t crs (subPoly g1 gx) (E - D) b tt
  .ok (⟨p.1, D⟩, p.2)

/-- `MultiPointProof::check`, `multiproof.rs:224-279`. -/
def checkMulti (p : MultiProof F G) (crs : CRS G) (W : Weights F) (qs : List (VerifierQuery F G)) (t : Transcript) :
    Res (Bool × Transcript) := do
  let (r, t) := absorbQueries O t qs
  let rs := powersOf r qs.length
  let t := appendPoint O t (lbl "D") p.gx
  let (tt, t) := challenge O t (lbl "t")
  let den := batchInv (qs.map fun q => tt - q.point)
  let hs := List.zipWith (fun r d => d * r) rs den
  let g2 := (List.zipWith (fun h (q : VerifierQuery F G) => h * q.result) hs qs).sum
  let E ← msm hs (qs.map VerifierQuery.commitment)
  let t := appendPoint O t (lbl "E") E
  let b ← lagrangeCoeffs W crs.n tt
  verifyMultiexp O p.openProof t crs b (E - p.gx) tt g2

/-- `CRS`, `/repo/verkle-trie/src/constants.rs:16`: 256 generators and `Q`. -/
def crsOf (C : Crypto F G) (Q : G) : CRS G := ⟨256, (List.range 256).map C.g, Q⟩

/-- The opening argument as the trie uses it: a transcript labelled `vt`, `open` in `/repo/verkle-trie/src/proof/prover.rs:43-44`
and `check` in `/repo/verkle-trie/src/proof.rs:251-252`, the weights of `/repo/verkle-trie/src/constants.rs:20-21`.  `order`
stands for the iteration order of the hash map of groups. -/
def multiOpener (C : Crypto F G) (Q : G) (order : List (ProverQuery F G) → List ℕ) : Opener F G where
  Pf := MultiProof F G
  openAll qs := do
    let W ← Weights.new F 256
    let r ← openMulti O (crsOf C Q) W (newTranscript (lbl "vt")) qs (order qs)
    .ok r.1
  check p qs := do
    let W ← Weights.new F 256
    let r ← checkMulti O p (crsOf C Q) W qs (newTranscript (lbl "vt"))
    .ok r.1

end
end Verif.Ipa
