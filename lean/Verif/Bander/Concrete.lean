import Verif.Bander.DefaultCrs
import Verif.Wire.Model

/-!
# The parameters of the trie and of the proofs, for Bandersnatch

`Crypto`, `WireCodec`: what the rest of the model assumes about group elements and scalars, instantiated with the group of
elements of Bandersnatch, the code's hash and encodings, and the default reference string.
-/

set_option autoImplicit false

namespace Verif.Bander
open Wire

section
variable {q : ℕ} [Fact q.Prime] {a d : ZMod q} [P : Fact (Good a d)]

/-- `p` is a representative of the element `e`. -/
def Represents (p : Proj (ZMod q)) (e : Elem a d) : Prop :=
  Valid a d p ∧ ∃ pt : Pt a d, (pt : Elem a d) = e ∧ p.x / p.z = pt.x ∧ p.y / p.z = pt.y

theorem exists_rep (e : Elem a d) : ∃ p : Proj (ZMod q), Represents p e := by
  induction e using QuotientAddGroup.induction_on with
  | _ pt => exact ⟨⟨pt.x, pt.y, pt.x * pt.y, 1⟩, ⟨one_ne_zero, by simp, by simpa using pt.on⟩, pt, rfl, by simp, by simp⟩

theorem exists_elem {p : Proj (ZMod q)} : (∃ e : Elem a d, Represents p e) ↔ Valid a d p ∧ IsSquare (1 - a * (p.x / p.z) ^ 2) := by
  constructor
  · rintro ⟨e, v, pt, -, hx, -⟩
    exact ⟨v, hx ▸ pt.sq⟩
  · rintro ⟨v, hs⟩
    exact ⟨_, v, ⟨_, _, v.on, hs⟩, rfl, rfl, rfl⟩

theorem Represents.eq_iff {p p' : Proj (ZMod q)} {e e' : Elem a d} (h : Represents p e) (h' : Represents p' e') :
    p.eq p' = true ↔ e = e' := by
  obtain ⟨v, pt, rfl, hx, hy⟩ := h
  obtain ⟨v', pt', rfl, hx', hy'⟩ := h'
  rw [Bander.eq_iff P.out v v', ratio_iff P.out v v', Elem.eq_iff, ← hx, ← hy, ← hx', ← hy']
  simp [Proj.aff, Prod.ext_iff]

theorem Represents.add {p p' p'' : Proj (ZMod q)} {e e' : Elem a d} (h : Represents p e) (h' : Represents p' e') (v : Valid a d p'')
    (hx : p''.x / p''.z = addX d (p.x / p.z) (p.y / p.z) (p'.x / p'.z) (p'.y / p'.z))
    (hy : p''.y / p''.z = addY a d (p.x / p.z) (p.y / p.z) (p'.x / p'.z) (p'.y / p'.z)) : Represents p'' (e + e') := by
  obtain ⟨-, pt, rfl, h1, h2⟩ := h
  obtain ⟨-, pt', rfl, h1', h2'⟩ := h'
  refine ⟨v, pt + pt', rfl, ?_, ?_⟩
  · rw [hx, h1, h2, h1', h2', Pt.add_x]
  · rw [hy, h1, h2, h1', h2', Pt.add_y]

theorem Represents.neg {p p' : Proj (ZMod q)} {e : Elem a d} (h : Represents p e) (v : Valid a d p')
    (hx : p'.x / p'.z = -(p.x / p.z)) (hy : p'.y / p'.z = p.y / p.z) : Represents p' (-e) := by
  obtain ⟨-, pt, rfl, h1, h2⟩ := h
  exact ⟨v, -pt, rfl, by rw [hx, h1, Pt.neg_x], by rw [hy, h2, Pt.neg_y]⟩

theorem Represents.zero : Represents ⟨0, 1, 0, 1⟩ (0 : Elem a d) :=
  ⟨⟨one_ne_zero, by simp, by simp [OnCurve]⟩, 0, rfl, by simp, by simp⟩

/-- `x / y`. -/
def Elem.ratio (e : Elem a d) : ZMod q :=
  Quotient.liftOn' e (fun p => p.x / p.y) fun p p' h => by
    rcases Elem.eq_iff.1 (Quotient.sound' h : (p : Elem a d) = (p' : Elem a d)) with ⟨hx, hy⟩ | ⟨hx, hy⟩
    · simp only [hx, hy]
    · simp only [hx, hy, neg_div_neg_eq]

theorem Elem.ratio_mk (p : Pt a d) : Elem.ratio (p : Elem a d) = p.x / p.y := rfl

theorem Represents.ratio {p : Proj (ZMod q)} {e : Elem a d} (h : Represents p e) : p.mapToField = .ok e.ratio := by
  obtain ⟨v, pt, rfl, hx, hy⟩ := h
  rw [Proj.mapToField, divide, if_neg (v.y_ne P.out), Elem.ratio_mk, ← hx, ← hy, div_div_div_cancel_right₀ v.z]

/-- The hash of an element into a scalar field. -/
def Elem.hash (F : Type) [Field F] (e : Elem a d) : F := frLe F (serFq e.ratio)

theorem Represents.hash {p : Proj (ZMod q)} {e : Elem a d} (h : Represents p e) (F : Type) [Field F] :
    p.mapToScalarField F = .ok (e.hash F) := by
  rw [Proj.mapToScalarField, h.ratio]
  rfl

theorem Elem.hash_zero (F : Type) [Field F] : (0 : Elem a d).hash F = 0 := by
  have : (0 : Elem a d).ratio = 0 := by
    change Elem.ratio ((0 : Pt a d) : Elem a d) = 0
    rw [Elem.ratio_mk]
    simp
  unfold Elem.hash serFq frLe
  rw [this, leNat_leBytes, ZMod.val_zero, Nat.zero_mod, Nat.cast_zero]

/-- The compressed encoding. -/
def Elem.enc (e : Elem a d) : List Byte := (serFq e.cx).reverse

theorem Elem.enc_len (e : Elem a d) : e.enc.length = 32 := by rw [Elem.enc, List.length_reverse, serFq_length]

theorem Represents.toBytes {p : Proj (ZMod q)} {e : Elem a d} (h : Represents p e) : p.toBytes = .ok e.enc := by
  obtain ⟨v, pt, rfl, hx, hy⟩ := h
  rw [toBytes_eq v, Elem.enc, Elem.cx_mk, Proj.aff, hx, hy]

theorem Elem.enc_inj (hq : q < 2 ^ 256) : Function.Injective (Elem.enc : Elem a d → List Byte) := by
  intro e e' h
  exact Elem.cx_inj ((serFq_inj hq).1 (List.reverse_injective h))

open Classical in
/-- Decoding of 32 bytes. -/
noncomputable def Elem.dec (a d : ZMod q) [Fact (Good a d)] (bs : List Byte) : Option (Elem a d) :=
  if h : ∃ e : Elem a d, e.enc = bs then some h.choose else none

theorem Elem.dec_some (hq : q < 2 ^ 256) {bs : List Byte} {e : Elem a d} : Elem.dec a d bs = some e ↔ e.enc = bs := by
  unfold Elem.dec
  split
  · next h =>
    constructor
    · intro he
      injection he with he
      rw [← he]
      exact h.choose_spec
    · intro he
      congr 1
      exact Elem.enc_inj hq (h.choose_spec.trans he.symm)
  · next h =>
    constructor
    · intro he; cases he
    · intro he; exact absurd ⟨e, he⟩ h

/-- `from_bytes` on 32 bytes is the decoding. -/
theorem fromBytes_dec (hq : q < 2 ^ 256) (S : Sqrt (ZMod q)) {bs : List Byte} (hl : bs.length = 32) :
    (Elem.dec a d bs = none ∧ fromBytes a d S bs = .ok none) ∨
    ∃ e p, Elem.dec a d bs = some e ∧ fromBytes a d S bs = .ok (some p) ∧ Represents p e := by
  rcases fromBytes_cases P.out S bs with ⟨x, y, h1, h2, h3, h4, h5⟩ | ⟨h5, h6⟩
  · right
    let pt : Pt a d := ⟨x, y, h2, h4⟩
    have hr : Represents ⟨x, y, x * y, 1⟩ (pt : Elem a d) :=
      ⟨⟨one_ne_zero, by simp, by simpa using h2⟩, pt, rfl, by simp [pt], by simp [pt]⟩
    refine ⟨pt, _, (Elem.dec_some hq).2 ?_, h5, hr⟩
    obtain ⟨rest, e⟩ := deFq_some h1
    have : rest = [] := by
      have := congrArg List.length e
      rw [List.length_reverse, List.length_append, serFq_length, hl] at this
      exact List.length_eq_zero_iff.1 (by omega)
    rw [this, List.append_nil] at e
    have hc : Elem.cx (pt : Elem a d) = x := by
      rw [Elem.cx_mk]
      simp [canonX, pt, h3]
    rw [Elem.enc, hc, ← e, List.reverse_reverse]
  · left
    refine ⟨?_, h5⟩
    cases h : Elem.dec a d bs with
    | none => rfl
    | some e =>
      exfalso
      have he := (Elem.dec_some hq).1 h
      have hde : deFq (q := q) bs.reverse = some e.cx := by
        rw [← he, Elem.enc, List.reverse_reverse]
        simpa using deFq_serFq hq e.cx []
      induction e using QuotientAddGroup.induction_on with
      | _ pt =>
        have hon : ∃ y, OnCurve a d (Elem.cx (pt : Elem a d)) y := by
          rw [Elem.cx_mk]
          unfold canonX
          dsimp only
          split
          · exact ⟨_, pt.on⟩
          · exact ⟨_, (Good.on_neg pt.on).1⟩
        obtain ⟨y, hy⟩ := hon
        exact h6 _ _ hde hy (Elem.cx_sq _)

end

/-! ### Bandersnatch -/

/-- The group elements of Bandersnatch. -/
abbrev BElem : Type := Elem coeffA coeffD

theorem q_lt : q < 2 ^ 256 := by decide +kernel
theorem r_lt : r < 2 ^ 256 := by decide +kernel

/-- A scalar from its canonical encoding (arkworks: representatives from `r` on are refused). -/
def decScalar (bs : List Byte) : Option (ZMod r) := if bs.length = 32 ∧ leNat bs < r then some (leNat bs : ZMod r) else none

/-- The encodings of the source. -/
noncomputable def codec : WireCodec (ZMod r) BElem where
  encE := Elem.enc
  decE := Elem.dec coeffA coeffD
  encS x := leBytes 32 x.val
  decS := decScalar
  encE_len := Elem.enc_len
  encS_len _ := leBytes_length _ _
  dec_encE _ := (Elem.dec_some q_lt).2 rfl
  dec_encS x := by
    have h : leNat (leBytes 32 x.val) = x.val := by
      rw [leNat_leBytes, Nat.mod_eq_of_lt]
      exact lt_of_lt_of_le (ZMod.val_lt _) (le_trans r_lt.le (by norm_num))
    unfold decScalar
    rw [if_pos ⟨leBytes_length _ _, by rw [h]; exact ZMod.val_lt x⟩, h, ZMod.natCast_zmod_val]

/-- An entry which passes the checks is a point. -/
def entryPt (x y : ℕ) (h : entryOk x y = true) : Pt coeffA coeffD where
  x := x
  y := y
  on := by
    simp only [entryOk, Bool.and_eq_true, decide_eq_true_eq, beq_iff_eq] at h
    have h := (ZMod.natCast_eq_natCast_iff' _ _ _).2 h.1.2
    have h5 : 5 ≤ q := by decide +kernel
    have hd : coeffD = (dN : ZMod q) := rfl
    push_cast [Nat.cast_sub h5] at h
    unfold OnCurve
    rw [hd, coeffA]
    rw [ZMod.natCast_self] at h
    linear_combination h
  sq := by
    simp only [entryOk, Bool.and_eq_true, decide_eq_true_eq, beq_iff_eq] at h
    have h := congrArg (Nat.cast : ℕ → ZMod q) h.2
    rw [powMod_eq q 256 _ _ (by decide +kernel)] at h
    have e : (1 - coeffA * (x : ZMod q) ^ 2) = ((1 + 5 * x ^ 2 : ℕ) : ZMod q) := by
      rw [coeffA]
      push_cast
      ring
    rw [e, ZMod.euler_criterion q]
    · rw [h, Nat.cast_one]
    · intro h0
      rw [h0, zero_pow (by decide +kernel), Nat.cast_one] at h
      exact zero_ne_one h

theorem crs_entry {n : ℕ} (h : n ∈ crsHex) : entryOk (entryX n) (entryY n) = true := List.all_eq_true.1 crs_ok n h

/-- The elements of the default reference string: 256 generators, then `Q`. -/
def crsElems : List BElem := crsHex.attach.map fun n => (entryPt _ _ (crs_entry n.2) : Pt coeffA coeffD)

/-- The parameters of the trie with the default reference string. -/
def crypto : Crypto (ZMod r) BElem where
  g i := crsElems.dropLast.getD i 0
  h := Elem.hash (ZMod r)
  h_zero := Elem.hash_zero _

end Verif.Bander
