import Verif.Bander.Serialize
import Verif.Props.Commitments
import Verif.Props.PointTrie

/-!
# C67: the serialisation traits of group elements
-/

set_option autoImplicit false

namespace Verif.Props
open Verif.Bander Verif.Ffi

/-- **C67** (compressed): an element is written as 32 bytes, as announced; reading them, with anything behind them and whatever
validation is asked for, gives an equal element and leaves what is behind. -/
theorem C67_compressed {p : Proj (ZMod Bander.q)} {e : BElem} (h : Bander.Represents p e) (V : PointCheck) (S : Sqrt (ZMod Bander.q))
    (validate : Bool) (rest : List Byte) : ∃ bs p', serializeWithMode p true = .ok bs ∧ bs.length = serializedSize true ∧
      deserializeWithMode V S true validate (bs ++ rest) = .ok (some (p', rest)) ∧ p.eq p' = true := by
  rcases fromBytes_dec (a := coeffA) (d := coeffD) q_lt S (Elem.enc_len e) with ⟨h1, -⟩ | ⟨e', p', h1, h2, h3⟩
  · rw [(Elem.dec_some q_lt).2 rfl] at h1
    cases h1
  · rw [(Elem.dec_some q_lt).2 rfl] at h1
    cases h1
    refine ⟨e.enc, p', h.toBytes, Elem.enc_len e, ?_, (h.eq_iff h3).2 rfl⟩
    simp only [deserializeWithMode, if_true]
    rw [Wire.readExact_append (Elem.enc_len e)]
    simp only [h2, bind, Except.bind]

/-- **C67** (canonical): what is read from compressed bytes is a group element, and the bytes read are those it is written as. -/
theorem C67_canonical (V : PointCheck) (S : Sqrt (ZMod Bander.q)) (validate : Bool) {reader rest : List Byte}
    {p : Proj (ZMod Bander.q)} (h : deserializeWithMode V S true validate reader = .ok (some (p, rest))) :
    ∃ (e : BElem) (bs : List Byte), Bander.Represents p e ∧ serializeWithMode p true = .ok bs ∧ reader = bs ++ rest := by
  simp only [deserializeWithMode, if_true] at h
  cases hr : Wire.readExact 32 reader with
  | none => rw [hr] at h; cases h
  | some x =>
    obtain ⟨bs, rest'⟩ := x
    rw [hr] at h
    obtain ⟨hl, he⟩ := Wire.readExact_iff.1 hr
    simp only [bind, Except.bind] at h
    rcases fromBytes_dec (a := coeffA) (d := coeffD) q_lt S hl with ⟨-, h2⟩ | ⟨e, p', h1, h2, h3⟩
    · rw [h2] at h
      cases h
    · rw [h2] at h
      cases h
      exact ⟨e, bs, h3, by rw [← (Elem.dec_some q_lt).1 h1]; exact h3.toBytes, he⟩

/-- **C67** (total): reading never panics; fewer bytes than announced are refused. -/
theorem C67_total (V : PointCheck) (S : Sqrt (ZMod Bander.q)) (compress validate : Bool) (reader : List Byte) :
    (∃ o, deserializeWithMode V S compress validate reader = .ok o) ∧
    (reader.length < serializedSize compress → deserializeWithMode V S compress validate reader = .ok none) := by
  have hn : ∀ n, reader.length < n → Wire.readExact n reader = none := by
    intro n hn
    cases h : Wire.readExact n reader with
    | none => rfl
    | some x =>
      obtain ⟨h1, h2⟩ := Wire.readExact_iff.1 (show Wire.readExact n reader = some (x.1, x.2) from h)
      have := congrArg List.length h2
      rw [List.length_append] at this
      omega
  cases compress
  · simp only [deserializeWithMode, serializedSize, Bool.false_eq_true, if_false]
    refine ⟨?_, fun h => by rw [hn 64 h]⟩
    split
    · exact ⟨_, rfl⟩
    · split <;> exact ⟨_, rfl⟩
  · simp only [deserializeWithMode, serializedSize, if_true]
    refine ⟨?_, fun h => by rw [hn 32 h]⟩
    split
    · exact ⟨_, rfl⟩
    · next b _ _ =>
      obtain ⟨o, ho⟩ := C39_total good S b
      rw [ho]
      cases o <;> exact ⟨_, rfl⟩

/-- **C67** (uncompressed, partial: an element held as a point outside the subgroup is written but cannot be read back).  An
element is written as 64 bytes, as announced; reading them succeeds exactly if the point held lies in the subgroup of order `r`,
and then gives the same point and leaves what is behind. -/
theorem C67_uncompressed_partial {p : Proj (ZMod Bander.q)} (v : Valid coeffA coeffD p) (pt : BPt) (hx : p.x / p.z = pt.x)
    (hy : p.y / p.z = pt.y) (V : PointCheck) (S : Sqrt (ZMod Bander.q)) (validate : Bool) (rest : List Byte) :
    ∃ bs, serializeWithMode p false = .ok bs ∧ bs.length = serializedSize false ∧
      (r • pt = 0 → deserializeWithMode V S false validate (bs ++ rest) =
        .ok (some (⟨pt.x, pt.y, pt.x * pt.y, 1⟩, rest))) ∧
      (r • pt ≠ 0 → deserializeWithMode V S false validate (bs ++ rest) = .ok none) := by
  classical
  refine ⟨encPt pt, encPt_eq pt v hx hy, encPt_length pt, fun h => ?_, fun h => ?_⟩ <;>
  · simp only [deserializeWithMode, Bool.false_eq_true, if_false]
    rw [Wire.readExact_append (encPt_length pt)]
    simp only [decPt_encPt, h, if_true, if_false]

theorem decPt_some (V : PointCheck) {bs : List Byte} (hl : bs.length = 64) {pt : BPt} (h : decPt V bs = some pt) :
    bs = encPt pt ∧ r • pt = 0 := by
  unfold decPt at h
  cases hx : deFq (q := Bander.q) (bs.take 32) with
  | none => rw [hx] at h; cases h
  | some x =>
    cases hy : deFq (q := Bander.q) (bs.drop 32) with
    | none => rw [hx, hy] at h; cases h
    | some y =>
      rw [hx, hy] at h
      simp only at h
      split at h
      · next hc =>
        cases h
        obtain ⟨e1, e2, e3⟩ := ((V.spec x y).1 hc).choose_spec
        refine ⟨?_, e3⟩
        obtain ⟨u, hu⟩ := deFq_some hx
        obtain ⟨w, hw⟩ := deFq_some hy
        have l1 := congrArg List.length hu
        have l2 := congrArg List.length hw
        rw [List.length_append, serFq_length, List.length_take, hl] at l1
        rw [List.length_append, serFq_length, List.length_drop, hl] at l2
        have hu0 : u = [] := List.length_eq_zero_iff.1 (by omega)
        have hw0 : w = [] := List.length_eq_zero_iff.1 (by omega)
        rw [hu0, List.append_nil] at hu
        rw [hw0, List.append_nil] at hw
        rw [encPt, e1, e2, ← hu, ← hw, List.take_append_drop]
      · cases h

/-- **C67** (uncompressed, accepted inputs): what is read from uncompressed bytes is a point of the subgroup. -/
theorem C67_uncompressed_accepts (V : PointCheck) (S : Sqrt (ZMod Bander.q)) (validate : Bool) {reader rest : List Byte}
    {p : Proj (ZMod Bander.q)} (h : deserializeWithMode V S false validate reader = .ok (some (p, rest))) :
    ∃ pt : BPt, r • pt = 0 ∧ Bander.Represents p (pt : BElem) ∧ ∃ bs, serializeWithMode p false = .ok bs ∧ reader = bs ++ rest := by
  simp only [deserializeWithMode, Bool.false_eq_true, if_false] at h
  cases hr : Wire.readExact 64 reader with
  | none => rw [hr] at h; cases h
  | some x =>
    obtain ⟨bs, rest'⟩ := x
    rw [hr] at h
    obtain ⟨hl, he⟩ := Wire.readExact_iff.1 hr
    simp only at h
    cases hd : decPt V bs with
    | none => rw [hd] at h; cases h
    | some pt =>
      rw [hd] at h
      cases h
      obtain ⟨h1, h2⟩ := decPt_some V hl hd
      have hr : Bander.Represents (⟨pt.x, pt.y, pt.x * pt.y, 1⟩ : Proj (ZMod Bander.q)) (pt : BElem) :=
        ⟨⟨one_ne_zero, by simp, by simpa using pt.on⟩, pt, rfl, by simp, by simp⟩
      exact ⟨pt, h2, hr, bs, by rw [h1]; exact encPt_eq pt hr.1 (by simp) (by simp), he⟩

/-- **C67** (uncompressed): of the two points of an element exactly one can be read back. -/
theorem C67_one_of_two (e : BElem) : ∃! pt : BPt, (pt : BElem) = e ∧ r • pt = 0 := by
  induction e using QuotientAddGroup.induction_on with
  | _ p =>
    have hT : ∀ p' : BPt, (p' : BElem) = (p : BElem) ↔ p' = p ∨ p' = p + Pt.T := by
      intro p'
      rw [eq_comm, QuotientAddGroup.eq, Pt.mem_T, neg_add_eq_zero, neg_add_eq_iff_eq_add]
      exact or_congr_left eq_comm
    rcases r_smul_cases p with h | h
    · refine ⟨p, ⟨rfl, h⟩, fun p' hp' => ?_⟩
      rcases (hT p').1 hp'.1 with rfl | rfl
      · rfl
      · have h2 := par_zero_iff.2 hp'.2
        rw [par_add, par_T, par_zero_iff.2 h] at h2
        exact absurd h2 (by decide)
    · have hp1 : par p = 1 := by
        unfold par
        rw [if_neg (by rw [h]; exact T_ne)]
      refine ⟨p + Pt.T, ⟨(hT _).2 (Or.inr rfl), ?_⟩, fun p' hp' => ?_⟩
      · rw [← par_zero_iff, par_add, par_T, hp1]
        decide
      · rcases (hT p').1 hp'.1 with rfl | rfl
        · rw [h] at hp'
          exact absurd hp'.2 T_ne
        · rfl

/-- **C67** (the full claim is false): the first generator of the default reference string is written, as announced, but what is
written is refused. -/
theorem C67_full_claim_false : ∃ (p : Proj (ZMod Bander.q)) (e : BElem), Bander.Represents p e ∧ e = crypto.g 0 ∧
    ∀ (V : PointCheck) (S : Sqrt (ZMod Bander.q)) (validate : Bool), ∃ bs, serializeWithMode p false = .ok bs ∧
      deserializeWithMode V S false validate bs = .ok none := by
  let pt : BPt := ptCrypto.g 0
  have hv : Valid coeffA coeffD (⟨pt.x, pt.y, pt.x * pt.y, 1⟩ : Proj (ZMod Bander.q)) :=
    ⟨one_ne_zero, by simp, by simpa using pt.on⟩
  have hne : r • pt ≠ 0 := by
    rw [Ne, ← par_zero_iff, ptCrypto_par (by norm_num)]
    decide
  refine ⟨⟨pt.x, pt.y, pt.x * pt.y, 1⟩, (pt : BElem), ⟨hv, pt, rfl, by simp, by simp⟩, ?_, fun V S validate => ?_⟩
  · exact pt_stands.gen 0
  · obtain ⟨bs, h1, -, -, h2⟩ := C67_uncompressed_partial hv pt (by simp) (by simp) V S validate []
    have h2 := h2 hne
    rw [List.append_nil] at h2
    exact ⟨bs, h1, h2⟩

/-- **C67** (hashing): equal elements are hashed alike whatever the hasher, and different ones are fed to it as different bytes. -/
theorem C67_hash {p p' : Proj (ZMod Bander.q)} {e e' : BElem} (h : Bander.Represents p e) (h' : Bander.Represents p' e') :
    (∀ (α : Type) (hasher : List Byte → α), (∃ x, p.hashWith hasher = .ok x) ∧
      (p.eq p' = true → p.hashWith hasher = p'.hashWith hasher)) ∧
    (p.eq p' = false → p.hashWith id ≠ p'.hashWith id) := by
  have e1 : ∀ (α : Type) (hasher : List Byte → α), p.hashWith hasher = .ok (hasher e.enc) := by
    intro α hasher
    rw [Proj.hashWith, h.toBytes]
    rfl
  have e2 : ∀ (α : Type) (hasher : List Byte → α), p'.hashWith hasher = .ok (hasher e'.enc) := by
    intro α hasher
    rw [Proj.hashWith, h'.toBytes]
    rfl
  refine ⟨fun α hasher => ⟨⟨_, e1 α hasher⟩, fun he => ?_⟩, fun he hh => ?_⟩
  · rw [e1, e2, (h.eq_iff h').1 he]
  · rw [e1, e2] at hh
    have := (h.eq_iff h').2 (Elem.enc_inj q_lt (by simpa using hh))
    rw [he] at this
    cases this

/-- `Sum for Element`, `ops.rs:51-55` (arkworks: from the neutral point on, one addition after the other). -/
def sumElements (A : Arith) (l : List Point) : Point := l.foldl A.add ⟨0, 1, 0, 1⟩

/-- **C67** (sums): the sum of representatives represents the sum. -/
theorem C67_sum (A : Arith) {ps : List Point} {es : List BElem} (h : List.Forall₂ (fun p e => Bander.Represents p (e : BElem)) ps es) :
    Bander.Represents (sumElements A ps) es.sum := by
  have key : ∀ {ps : List Point} {es : List BElem}, List.Forall₂ (fun p e => Bander.Represents p (e : BElem)) ps es →
      ∀ (p : Point) (e : BElem), Bander.Represents p e → Bander.Represents (ps.foldl A.add p) (e + es.sum) := by
    intro ps es h
    induction h with
    | nil =>
      intro p e hp
      simpa using hp
    | cons h1 _ ih =>
      intro p e hp
      rw [List.foldl_cons, List.sum_cons, ← add_assoc]
      obtain ⟨v, hx, hy⟩ := A.add_spec _ _ _ _ hp h1
      exact ih _ _ (hp.add h1 v hx hy)
  have := key h _ _ Represents.zero
  rwa [zero_add] at this

/-- A case: the generator of the prime-order subgroup; compressed, and as a summand. -/
example (V : PointCheck) (S : Sqrt (ZMod Bander.q)) (A : Arith) : (∃ bs p', serializeWithMode generator true = .ok bs ∧
    bs.length = serializedSize true ∧ deserializeWithMode V S true false (bs ++ [7]) = .ok (some (p', [7])) ∧
      generator.eq p' = true) ∧
    Bander.Represents (sumElements A [generator, generator]) ((genPt : BElem) + (genPt : BElem)) := by
  refine ⟨C67_compressed generator_represents V S false [7], ?_⟩
  have := C67_sum A (.cons generator_represents (.cons generator_represents .nil))
  simpa using this

/-- Both cases of `C67_uncompressed_partial` occur: among the points of the reference string. -/
example : (r • (0 : BPt) = 0) ∧ r • ptCrypto.g 0 ≠ 0 := by
  refine ⟨smul_zero _, ?_⟩
  rw [Ne, ← par_zero_iff, ptCrypto_par (by norm_num)]
  decide

end Verif.Props
