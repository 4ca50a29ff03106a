import Verif.Bander.Parity
import Verif.Db.Codec

/-!
# Representatives: which of the two points of an element the code holds

An element has two points, `p` and `p + (0, -1)`; `r` times one of them is neutral, `r` times the other is `(0, -1)`.  The
compressed encoding, the hash and the comparison of elements do not see the difference.  The uncompressed encoding does
(`/repo/banderwagon/src/element.rs:57-62`), and arkworks' validated decoder refuses points outside the subgroup of order `r`.
-/

set_option autoImplicit false

namespace Verif.Bander
open Wire

/-- The points of Bandersnatch the code works with. -/
abbrev BPt : Type := Pt coeffA coeffD

/-- `EdwardsProjective * Fr` (arkworks): the multiple by the canonical integer of the scalar. -/
instance : SMul (ZMod r) BPt := ⟨fun s p => s.val • p⟩

theorem smul_pt (s : ZMod r) (p : BPt) : s • p = s.val • p := rfl

/-- The points of the default reference string, as `CRS::from_bytes` reads them. -/
def crsPts : List BPt := crsHex.attach.map fun n => entryPt _ _ (crs_entry n.2)

/-- The parameters of the trie on points: `Element` arithmetic acts on the points held. -/
def ptCrypto : Crypto (ZMod r) BPt where
  g i := crsPts.dropLast.getD i 0
  h p := Elem.hash (ZMod r) (p : BElem)
  h_zero := Elem.hash_zero _

theorem r_smul_cases (p : BPt) : r • p = 0 ∨ r • p = Pt.T := by
  rw [← Pt.mem_T, ← QuotientAddGroup.eq_zero_iff]
  have : ((r • p : BPt) : BElem) = r • (p : BElem) := rfl
  rw [this, ← card_elem]
  exact card_nsmul_eq_zero'

theorem T_ne : (Pt.T : BPt) ≠ 0 := by
  intro h
  have h := congrArg Pt.y h
  have h : (-1 : ZMod q) = 1 := h
  have h2 : ((2 : ℕ) : ZMod q) = 0 := by push_cast; linear_combination -h
  rw [ZMod.natCast_eq_zero_iff] at h2
  exact absurd (Nat.le_of_dvd (by norm_num) h2) (by decide +kernel)

theorem nsmul_T (n : ℕ) : n • (Pt.T : BPt) = if Even n then 0 else Pt.T := by
  induction n with
  | zero => simp
  | succ n ih =>
    rw [succ_nsmul, ih]
    by_cases h : Even n
    · rw [if_pos h, if_neg (by rwa [Nat.even_add_one, not_not]), zero_add]
    · rw [if_neg h, if_pos (by rwa [Nat.even_add_one]), Pt.T_add_T]

theorem r_nsmul (n : ℕ) (p : BPt) : r • (n • p) = n • (r • p) := by rw [← mul_nsmul, mul_comm, mul_nsmul]

/-- The parity of a point: 0 in the subgroup of order `r`, 1 outside. -/
noncomputable def par (p : BPt) : ZMod 2 := by
  classical exact if r • p = 0 then 0 else 1

theorem par_zero_iff {p : BPt} : par p = 0 ↔ r • p = 0 := by
  unfold par
  split
  · simp [*]
  · simp [*]

theorem par_add (p p' : BPt) : par (p + p') = par p + par p' := by
  have h : r • (p + p') = r • p + r • p' := nsmul_add _ _ _
  unfold par
  rw [h]
  rcases r_smul_cases p with h1 | h1 <;> rcases r_smul_cases p' with h2 | h2 <;> rw [h1, h2]
  · simp
  · simp [T_ne]
  · simp [T_ne]
  · rw [Pt.T_add_T]
    simp only [if_true, T_ne, if_false]
    decide

theorem par_zero : par 0 = 0 := by rw [par_zero_iff, nsmul_zero]

theorem par_nsmul (n : ℕ) (p : BPt) : par (n • p) = n * par p := by
  induction n with
  | zero => simp [par_zero]
  | succ n ih => rw [succ_nsmul, par_add, ih]; push_cast; ring

theorem par_smul (s : ZMod r) (p : BPt) : par (s • p) = s.val * par p := par_nsmul _ _

theorem par_neg (p : BPt) : par (-p) = par p := by
  have h := par_add p (-p)
  rw [add_neg_cancel, par_zero] at h
  have h2 : par p + par p = 0 := CharTwo.add_self_eq_zero _
  linear_combination -h - h2

theorem par_sum (l : List BPt) : par l.sum = (l.map par).sum := by
  induction l with
  | nil => simp [par_zero]
  | cons p l ih => rw [List.sum_cons, par_add, ih, List.map_cons, List.sum_cons]

/-- The two points of an element have different parity. -/
theorem par_T : par Pt.T = 1 := by
  have : ¬ r • (Pt.T : BPt) = 0 := by
    rw [nsmul_T, if_neg (by decide +kernel)]
    exact T_ne
  unfold par
  rw [if_neg this]

theorem entry_even {n : ℕ} (hn : n ∈ crsHex) : r • entryPt _ _ (crs_entry hn) = 0 ↔ entryEven n = true := by
  have h0 : Rep (0 : BPt) 0 1 1 := ⟨by simp, by simp, by simp⟩
  have hg : Rep (entryPt _ _ (crs_entry hn)) (entryX n) (entryY n) 1 :=
    ⟨by simp, by rw [Nat.cast_one, mul_one]; rfl, by rw [Nat.cast_one, mul_one]; rfl⟩
  have h := rep_ladder 253 _ 0 _ _ _ _ _ _ r (by decide +kernel) hg h0
  rw [zero_add] at h
  obtain ⟨hz, -, hy⟩ := h
  unfold entryEven
  rw [beq_iff_eq, ← ZMod.natCast_eq_natCast_iff', ← hy]
  generalize entryPt _ _ (crs_entry hn) = p at *
  constructor
  · intro h
    rw [h]
    exact one_mul _
  · intro h
    rcases r_smul_cases p with h1 | h1
    · exact h1
    · rw [h1] at h
      have : (-1 : ZMod q) = 1 := mul_right_cancel₀ hz (h.trans (one_mul _).symm)
      exact absurd (Pt.ext (show (Pt.T : BPt).x = (0 : BPt).x from rfl) this) T_ne

theorem crsPts_length : crsPts.length = 257 := by simp [crsPts, crs_len]

/-- Which points of the reference string lie in the subgroup. -/
theorem crsPts_par {i : ℕ} (hi : i < 257) : par (crsPts.getD i 0) = if crsOddBits.testBit i then 1 else 0 := by
  have hl : i < crsHex.length := by rw [crs_len]; exact hi
  have h := List.all_eq_true.1 crs_parity (crsHex[i], i) (by rw [List.mem_zipIdx_iff_getElem?]; simp [hl])
  have hm : crsHex[i] ∈ crsHex := List.getElem_mem hl
  have e : crsPts.getD i 0 = entryPt _ _ (crs_entry hm) := by
    unfold crsPts
    simp [List.getD_eq_getElem?_getD, hl]
  rw [e]
  rw [beq_iff_eq] at h
  unfold par
  rw [entry_even hm, h]
  cases crsOddBits.testBit i <;> simp

theorem ptCrypto_g {i : ℕ} (hi : i < 256) : ptCrypto.g i = crsPts.getD i 0 := by
  show crsPts.dropLast.getD i 0 = _
  rw [List.getD_eq_getElem?_getD, List.getD_eq_getElem?_getD, List.getElem?_dropLast, if_pos (by rw [crsPts_length]; omega)]

theorem ptCrypto_par {i : ℕ} (hi : i < 256) : par (ptCrypto.g i) = if crsOddBits.testBit i then 1 else 0 := by
  rw [ptCrypto_g hi, crsPts_par (by omega)]

/-! ### The uncompressed encoding -/

/-- arkworks' check of a decoded point (`Valid::check` of `EdwardsAffine`: on the curve and in the subgroup of order `r`).  The
contract: it accepts exactly the points of the subgroup. -/
structure PointCheck where
  check : ZMod q → ZMod q → Bool
  spec : ∀ x y, check x y = true ↔ ∃ p : BPt, p.x = x ∧ p.y = y ∧ r • p = 0

theorem exists_check : Nonempty PointCheck := by
  classical
  exact ⟨⟨fun x y => decide (∃ p : BPt, p.x = x ∧ p.y = y ∧ r • p = 0), fun x y => by simp⟩⟩

/-- `Element::serialize_uncompressed`, `/repo/banderwagon/src/trait_impls/serialize.rs:16`: both coordinates. -/
def encPt (p : BPt) : List Byte := serFq p.x ++ serFq p.y

/-- `Element::deserialize_uncompressed`, `/repo/banderwagon/src/trait_impls/serialize.rs:57-60,64-67`: canonical coordinates,
then the check, whichever validation is asked for. -/
noncomputable def decPt (V : PointCheck) (bytes : List Byte) : Option BPt :=
  match deFq (q := q) (bytes.take 32), deFq (q := q) (bytes.drop 32) with
  | some x, some y => if h : V.check x y = true then some ((V.spec x y).1 h).choose else none
  | _, _ => none

theorem encPt_length (p : BPt) : (encPt p).length = 64 := by simp [encPt, serFq_length]

theorem decPt_encPt (V : PointCheck) (p : BPt) [Decidable (r • p = 0)] : decPt V (encPt p) = if r • p = 0 then some p else none := by
  have h1 : deFq (q := q) ((encPt p).take 32) = some p.x := by
    have := deFq_serFq q_lt p.x []
    rw [List.append_nil] at this
    rw [encPt, List.take_left' (serFq_length _), this]
  have h2 : deFq (q := q) ((encPt p).drop 32) = some p.y := by
    have := deFq_serFq q_lt p.y []
    rw [List.append_nil] at this
    rw [encPt, List.drop_left' (serFq_length _), this]
  unfold decPt
  rw [h1, h2]
  by_cases hp : r • p = 0
  · have hc : V.check p.x p.y = true := (V.spec _ _).2 ⟨p, rfl, rfl, hp⟩
    simp only [hc, dite_true, if_pos hp]
    obtain ⟨e1, e2, -⟩ := ((V.spec p.x p.y).1 hc).choose_spec
    rw [Pt.ext e1 e2]
  · have hc : ¬ V.check p.x p.y = true := by
      rw [V.spec]
      rintro ⟨p', e1, e2, h⟩
      exact hp (Pt.ext e1 e2 ▸ h)
    simp only [hc, if_neg hp]
    rfl

/-- The bytes written are those of the point held, in whatever coordinates. -/
theorem encPt_eq {P : Proj (ZMod q)} (p : BPt) (v : Valid coeffA coeffD P) (hx : P.x / P.z = p.x) (hy : P.y / P.z = p.y) :
    P.toBytesUncompressed = .ok (encPt p) := by
  unfold Proj.toBytesUncompressed
  rw [v.toAffine]
  show Except.ok (serFq (P.x / P.z) ++ serFq (P.y / P.z)) = _
  rw [hx, hy]
  rfl

/-- The encodings of node records: points uncompressed, scalars in 32 bytes. -/
noncomputable def ptCodec (V : PointCheck) : NodeCodec (ZMod r) BPt where
  encP := encPt
  decP := decPt V
  valid p := r • p = 0
  dec := Classical.decPred _
  encS := codec.encS
  decS := codec.decS
  encP_len := encPt_length
  encS_len := codec.encS_len
  dec_encP p := by
    classical
    exact decPt_encPt V p
  dec_encS := codec.dec_encS

end Verif.Bander
