import Verif.Ffi.Commitments
import Verif.Props.Ffi

/-!
# C47, C50, C54: commitments across the byte interface
-/

set_option autoImplicit false
set_option linter.unusedSectionVars false

namespace Verif.Props
open Wire Bander Ffi

/-- The 64 bytes are those of a representative of the element. -/
def Denotes (bs : List Byte) (e : BElem) : Prop := bs.length = 64 ∧ ∃ p : Point, fromBytesUnchecked bs = .ok p ∧ Bander.Represents p e

/-- The context uses the committer made from the default reference string. -/
def Context.Ok (ctx : Context) : Prop :=
  ∃ D, Msm.Committer.new (ZMod r) ((List.range 256).map crypto.g) = .ok D ∧ ctx.P.Implements D

/-- The vector of 256 entries with the given first entries. -/
def padded (v : List (ZMod r)) (i : Byte) : ZMod r := v.getD i.val 0

theorem rep_bytes {p : Point} {e : BElem} (h : Bander.Represents p e) : ∃ bs, p.toBytesUncompressed = .ok bs ∧ Denotes bs e := by
  obtain ⟨v, pt, he, hx, hy⟩ := h
  have hb : fromBytesUnchecked (serFq (p.x / p.z) ++ serFq (p.y / p.z)) = .ok (⟨p.x / p.z, p.y / p.z, p.x / p.z * (p.y / p.z), 1⟩ : Point) := by
    unfold fromBytesUnchecked
    have h3 := deFq_serFq q_lt (p.x / p.z) []
    have h4 := deFq_serFq q_lt (p.y / p.z) []
    rw [List.append_nil] at h3 h4
    rw [List.take_left' (serFq_length _), List.drop_left' (serFq_length _), h3, h4]
  refine ⟨serFq (p.x / p.z) ++ serFq (p.y / p.z), ?_, by rw [List.length_append, serFq_length, serFq_length], _, hb, ?_⟩
  · rw [Proj.toBytesUncompressed, v.toAffine]
    rfl
  · refine ⟨⟨one_ne_zero, mul_one _, ?_⟩, pt, he, ?_, ?_⟩
    · simpa only [div_one] using v.on
    · simpa only [div_one] using hx
    · simpa only [div_one] using hy

/-- Every element has byte forms. -/
theorem exists_denotes (e : BElem) : ∃ bs, Denotes bs e := by
  obtain ⟨p, h⟩ := exists_rep e
  obtain ⟨bs, -, h⟩ := rep_bytes h
  exact ⟨bs, h⟩

theorem Arith.represents (A : Arith) {p p' : Point} {e e' : BElem} (h : Bander.Represents p e) (h' : Bander.Represents p' e') :
    Bander.Represents (A.add p p') (e + e') := by
  obtain ⟨v, hx, hy⟩ := A.add_spec p p' e e' h h'
  exact h.add h' v hx hy

section
variable {ctx : Context}

/-- The committer takes any number of scalars; those after the first 256 have no effect. -/
theorem Context.Ok.commit_any (h : Context.Ok ctx) (v : List (ZMod r)) :
    ∃ p, ctx.P.commitLagrange v = .ok p ∧ Bander.Represents p (Spec.commit crypto (padded v)) := by
  obtain ⟨D, hD, h1, -⟩ := h
  have h2 := h1 v
  obtain ⟨D', hD', h3, -⟩ := C37_dispatch C52_scalar_field.2.2 (points := (List.range 256).map crypto.g)
    (by rw [List.length_map, List.length_range]; norm_num)
  rw [hD] at hD'
  cases hD'
  rw [h3] at h2
  obtain ⟨p, hp, hr⟩ := h2
  refine ⟨p, hp, ?_⟩
  suffices hs : ((v.zip ((List.range 256).map crypto.g)).map fun x => x.1 • x.2).sum = Spec.commit crypto (padded v) by rwa [hs] at hr
  have key : ∀ (n : ℕ) (g : ℕ → BElem) (v : List (ZMod r)),
      ((v.zip ((List.range n).map g)).map fun x => x.1 • x.2).sum = ∑ i : Fin n, v.getD i.val 0 • g i.val := by
    intro n
    induction n with
    | zero => intro g v; simp
    | succ n ih =>
      intro g v
      rw [Fin.sum_univ_succ, List.range_succ_eq_map, List.map_cons, List.map_map]
      cases v with
      | nil => simp
      | cons x v =>
        rw [List.zip_cons_cons, List.map_cons, List.sum_cons, ih (g ∘ Nat.succ) v]
        rfl
  exact key 256 crypto.g v

theorem Context.Ok.commit (h : Context.Ok ctx) (v : List (ZMod r)) (_ : v.length ≤ 256) :
    ∃ p, ctx.P.commitLagrange v = .ok p ∧ Bander.Represents p (Spec.commit crypto (padded v)) := h.commit_any v

theorem Context.Ok.scalarMul (h : Context.Ok ctx) (a : ZMod r) (i : ℕ) :
    if i < 256 then ∃ p, ctx.P.scalarMul a i = .ok p ∧ Bander.Represents p (a • crypto.g i)
    else ctx.P.scalarMul a i = .error "index out of bounds" := by
  obtain ⟨D, hD, -, h1⟩ := h
  have h2 := h1 a i
  obtain ⟨D', hD', -, h3, -⟩ := C37_dispatch C52_scalar_field.2.2 (points := (List.range 256).map crypto.g)
    (by rw [List.length_map, List.length_range]; norm_num)
  rw [hD] at hD'
  cases hD'
  rw [h3, List.getElem?_map] at h2
  split
  · next hi =>
    rw [List.getElem?_range hi] at h2
    exact h2
  · next hi =>
    rw [List.getElem?_eq_none (by rw [List.length_range]; omega)] at h2
    exact h2

theorem commitSparse_ok (h : Context.Ok ctx) (l : List (ZMod r × ℕ)) (hl : ∀ x ∈ l, x.2 < 256) :
    ∃ p, commitSparse ctx l = .ok p ∧ Bander.Represents p ((l.map fun x => x.1 • crypto.g x.2).sum) := by
  have key : ∀ (l : List (ZMod r × ℕ)) (acc : Point) (e : BElem), (∀ x ∈ l, x.2 < 256) → Bander.Represents acc e →
      ∃ p, l.foldlM (fun result x => do .ok (ctx.A.add result (← ctx.P.scalarMul x.1 x.2))) acc = (.ok p : Res Point) ∧
        Bander.Represents p (e + (l.map fun x => x.1 • crypto.g x.2).sum) := by
    intro l
    induction l with
    | nil => intro acc e _ ha; exact ⟨acc, rfl, by simpa using ha⟩
    | cons x l ih =>
      intro acc e hl ha
      have h1 := h.scalarMul x.1 x.2
      rw [if_pos (hl x (by simp))] at h1
      obtain ⟨p, hp, hr⟩ := h1
      obtain ⟨p', hp', hr'⟩ := ih (ctx.A.add acc p) _ (fun y hy => hl y (by simp [hy])) (Arith.represents ctx.A ha hr)
      refine ⟨p', ?_, ?_⟩
      · rw [List.foldlM_cons, hp]
        exact hp'
      · rw [List.map_cons, List.sum_cons, ← add_assoc]
        exact hr'
  obtain ⟨p, hp, hr⟩ := key l zeroPoint 0 hl Represents.zero
  rw [zero_add] at hr
  exact ⟨p, hp, hr⟩

theorem commitSparse_out_of_range (h : Context.Ok ctx) : ∀ (l : List (ZMod r × ℕ)), (∃ x ∈ l, 256 ≤ x.2) → ∃ e, commitSparse ctx l = .error e := by
  intro l
  unfold commitSparse
  generalize zeroPoint = acc
  induction l generalizing acc with
  | nil => rintro ⟨x, hx, -⟩; cases hx
  | cons x l ih =>
    rintro ⟨y, hy, hy'⟩
    rw [List.foldlM_cons]
    have h1 := h.scalarMul x.1 x.2
    split at h1
    · next hx =>
      obtain ⟨p, hp, -⟩ := h1
      rw [hp]
      refine ih _ ⟨y, ?_, hy'⟩
      rcases List.mem_cons.1 hy with rfl | hy
      · omega
      · exact hy
    · rw [h1]
      exact ⟨_, rfl⟩

/-! ### C50 -/

theorem readScalars_enc (v : List (ZMod r)) : readScalars (v.flatMap codec.encS) = some v := by
  unfold readScalars
  rw [chunksExact_flatMap codec.encS (by norm_num) codec.encS_len, List.mapM_map]
  induction v with
  | nil => rfl
  | cons x v ih =>
    rw [List.mapM_cons]
    have := frFromLe_append codec x []
    rw [List.append_nil] at this
    simp only [Function.comp] at ih ⊢
    rw [this, ih]
    rfl

theorem readScalars_some {bs : List Byte} {v : List (ZMod r)} (hl : bs.length % 32 = 0) (h : readScalars bs = some v) :
    bs = v.flatMap codec.encS := by
  obtain ⟨h1, -, h3⟩ := flatten_chunksExact (n := 32) (by norm_num) (bs.length / 32) bs
    (Nat.div_mul_cancel (Nat.dvd_of_mod_eq_zero hl)).symm
  unfold readScalars at h
  rw [← h1]
  revert h h3
  generalize chunksExact 32 bs = l
  intro h h3
  induction l generalizing v with
  | nil =>
    rw [List.mapM_nil] at h
    cases h
    rfl
  | cons c l ih =>
    rw [List.mapM_cons] at h
    cases hc : frFromLeBytes codec c with
    | none => rw [hc] at h; cases h
    | some x =>
      rw [hc] at h
      cases hm : l.mapM (frFromLeBytes codec) with
      | none => rw [hm] at h; cases h
      | some xs =>
        rw [hm] at h
        cases h
        have := ih hm fun c' hc' => h3 c' (by simp [hc'])
        rw [List.flatten_cons, List.flatMap_cons, this]
        congr 1
        obtain ⟨s, rest, h4, h5, h6⟩ := frFromLe_some codec hc
        have h7 := h3 c (by simp)
        have : rest = [] := by
          have := congrArg List.length h5
          rw [List.length_append] at this
          exact List.length_eq_zero_iff.1 (by omega)
        subst this
        rw [List.append_nil] at h5
        subst h5
        exact ((C52_canonical.2 _ _).1 h6).symm

/-- **C50** (committing): committing to the bytes of at most 256 scalars gives the bytes of their commitment, the missing ones counting as
zero; everything else is an error: other lengths, more scalars, scalars which are not canonical.  It never panics. -/
theorem C50_commit (h : Context.Ok ctx) :
    (∀ v : List (ZMod r), v.length ≤ 256 →
      ∃ bs, commitToScalars ctx (v.flatMap codec.encS) = .ok (some bs) ∧ Denotes bs (Spec.commit crypto (padded v))) ∧
    ∀ input, (¬ ∃ v : List (ZMod r), v.length ≤ 256 ∧ input = v.flatMap codec.encS) → commitToScalars ctx input = .ok none := by
  have hlen : ∀ v : List (ZMod r), (v.flatMap codec.encS).length = v.length * 32 := by
    intro v
    rw [List.length_flatMap, List.map_congr_left (g := fun _ => 32) fun x _ => codec.encS_len x, List.map_const', List.sum_replicate]
    rfl
  constructor
  · intro v hv
    obtain ⟨p, hp, hr⟩ := h.commit v hv
    obtain ⟨bs, h1, h2⟩ := rep_bytes hr
    refine ⟨bs, ?_, h2⟩
    unfold commitToScalars commitToScalarsElem
    rw [hlen, if_neg (by rw [Nat.mul_mod_left]; simp), if_neg (by rw [Nat.mul_div_cancel _ (by norm_num)]; omega), readScalars_enc]
    simp only [bind, Except.bind, hp, h1]
  · intro input hi
    unfold commitToScalars commitToScalarsElem
    split
    · rfl
    · next h1 =>
      split
      · rfl
      · next h2 =>
        cases hs : readScalars input with
        | none => rfl
        | some v =>
          have := readScalars_some (by simpa using h1) hs
          exfalso
          refine hi ⟨v, ?_, this⟩
          rw [this, hlen, Nat.mul_div_cancel _ (by norm_num)] at h2
          omega

/-- **C50** (adding): adding the bytes of two commitments gives the bytes of the sum. -/
theorem C50_add {a b : List Byte} {x y : BElem} (ha : Denotes a x) (hb : Denotes b y) :
    ∃ c, addCommitment ctx a b = .ok c ∧ Denotes c (x + y) := by
  obtain ⟨-, p, hp, hr⟩ := ha
  obtain ⟨-, p', hp', hr'⟩ := hb
  obtain ⟨c, h1, h2⟩ := rep_bytes (Arith.represents ctx.A hr hr')
  refine ⟨c, ?_, h2⟩
  unfold addCommitment
  rw [hp, hp']
  exact h1

theorem commit_add (v w : Byte → ZMod r) : Spec.commit crypto (fun i => v i + w i) = Spec.commit crypto v + Spec.commit crypto w := by
  unfold Spec.commit
  rw [← Finset.sum_add_distrib]
  exact Finset.sum_congr rfl fun i _ => add_smul _ _ _

/-! ### C54 -/

/-- **C54** (hash, serialisation): hashing and serialising the bytes of a commitment gives the hash and the encoding of the element, whichever
representative the bytes are of; hashing many is hashing each. -/
theorem C54_hash {bs : List Byte} {e : BElem} (h : Denotes bs e) :
    hashCommitment bs = .ok (codec.encS (crypto.h e)) ∧ serializeCommitment bs = .ok (codec.encE e) := by
  obtain ⟨-, p, hp, hr⟩ := h
  unfold hashCommitment serializeCommitment
  rw [hp]
  simp only [bind, Except.bind]
  rw [hr.hash, hr.toBytes]
  exact ⟨rfl, rfl⟩

/-- **C54** (many hashes): hashing a list of commitments gives the list of the single hashes. -/
theorem C54_hashes {l : List (List Byte)} {es : List BElem} (h : List.Forall₂ Denotes l es) :
    hashCommitments l = .ok (es.map fun e => codec.encS (crypto.h e)) ∧ l.mapM hashCommitment = hashCommitments l := by
  have h1 : ∃ ps : List Point, l.mapM fromBytesUnchecked = .ok ps ∧ List.Forall₂ (fun p e => Bander.Represents p e) ps es := by
    induction h with
    | nil => exact ⟨[], rfl, .nil⟩
    | cons hd _ ih =>
      obtain ⟨-, p, hp, hr⟩ := hd
      obtain ⟨ps, hps, hrs⟩ := ih
      exact ⟨p :: ps, by rw [List.mapM_cons, hp, hps]; rfl, .cons hr hrs⟩
  obtain ⟨ps, hps, hrs⟩ := h1
  have hv : ∀ p ∈ ps, Valid coeffA coeffD p := by
    clear hps h
    induction hrs with
    | nil => simp
    | cons hd _ ih =>
      intro p hp
      rcases List.mem_cons.1 hp with rfl | hp
      · exact hd.1
      · exact ih p hp
  have h2 := C40_batch good (ZMod r) ps hv
  have h3 : ps.mapM (fun p => p.mapToScalarField (ZMod r)) = .ok (es.map fun e => crypto.h e) := by
    clear hps hv h2 h
    induction hrs with
    | nil => rfl
    | cons hd _ ih =>
      rw [List.mapM_cons, hd.hash, ih]
      rfl
  rw [h3] at h2
  injection h2 with h2
  have h4 : hashCommitments l = .ok (es.map fun e => codec.encS (crypto.h e)) := by
    unfold hashCommitments
    rw [hps]
    simp only [bind, Except.bind]
    rw [← h2, List.map_map]
    rfl
  refine ⟨h4, ?_⟩
  rw [h4]
  clear hps hrs hv h2 h3 h4
  induction h with
  | nil => rfl
  | cons hd _ ih =>
    rw [List.mapM_cons, (C54_hash hd).1, ih]
    rfl

/-- **C54** (round trip): the encoding of a commitment is read back as bytes of the same commitment; other strings of 32 bytes are errors. -/
theorem C54_roundtrip (S : Sqrt (ZMod Bander.q)) (bs : List Byte) (hl : bs.length = 32) :
    (∀ e : BElem, codec.encE e = bs → ∃ c, deserializeCommitment S bs = .ok (some c) ∧ Denotes c e) ∧
    ((¬ ∃ e : BElem, codec.encE e = bs) → deserializeCommitment S bs = .ok none) := by
  rcases (C52_parameters S).2 bs hl with ⟨h1, h2⟩ | ⟨e, p, h1, h2, h3⟩
  · constructor
    · intro e he
      rw [(C52_canonical.1 bs e).2 he] at h1
      cases h1
    · intro _
      unfold deserializeCommitment
      rw [h2]
      rfl
  · constructor
    · intro e' he
      rw [(C52_canonical.1 bs e').2 he] at h1
      injection h1 with h1
      subst h1
      obtain ⟨c, h4, h5⟩ := rep_bytes h3
      refine ⟨c, ?_, h5⟩
      unfold deserializeCommitment
      rw [h2]
      simp only [bind, Except.bind, h4]
    · intro hn
      exact absurd ⟨e, (C52_canonical.1 bs e).1 h1⟩ hn

/-- C54: the bytes are not determined by the element: every element has two byte forms. -/
theorem C54_not_unique (e : BElem) : ∃ a b, a ≠ b ∧ Denotes a e ∧ Denotes b e := by
  obtain ⟨p, v, pt, he, hx, hy⟩ := exists_rep e
  have hne : ∀ y : ZMod Bander.q, y ≠ 0 → y ≠ -y := by
    intro y h0 h
    have h2 : (2 : ZMod Bander.q) * y = 0 := by linear_combination h
    rcases mul_eq_zero.1 h2 with h2 | h2
    · exact good.h2 h2
    · exact h0 h2
  have h1 : Bander.Represents (⟨pt.x, pt.y, pt.x * pt.y, 1⟩ : Point) e :=
    ⟨⟨one_ne_zero, by simp, by simpa using pt.on⟩, pt, he, by simp, by simp⟩
  have h2 : Bander.Represents (⟨-pt.x, -pt.y, pt.x * pt.y, 1⟩ : Point) e := by
    have hon : OnCurve coeffA coeffD (-pt.x) (-pt.y) := by
      have := pt.on
      unfold OnCurve at this ⊢
      simpa only [neg_sq] using this
    refine ⟨⟨one_ne_zero, by simp, by simpa using hon⟩, ⟨-pt.x, -pt.y, hon, by simpa using pt.sq⟩, ?_, by simp, by simp⟩
    rw [← he]
    exact Elem.eq_iff.2 (Or.inr ⟨by simp, by simp⟩)
  obtain ⟨a, ha, hda⟩ := rep_bytes h1
  obtain ⟨b, hb, hdb⟩ := rep_bytes h2
  refine ⟨a, b, ?_, hda, hdb⟩
  rintro rfl
  rw [Proj.toBytesUncompressed, h1.1.toAffine] at ha
  rw [Proj.toBytesUncompressed, h2.1.toAffine, ← ha] at hb
  simp only [bind, Except.bind, Proj.aff, div_one] at hb
  injection hb with hb
  have := List.append_inj_right hb (by rw [serFq_length, serFq_length])
  have hy0 : pt.y ≠ 0 := good.y_ne pt.on
  exact hne pt.y hy0 ((serFq_inj q_lt).1 this).symm

/-! ### C50: the group structure -/

/-- The entrywise sum of two vectors, the shorter one being continued by zeros. -/
def addVec (v w : List (ZMod r)) : List (ZMod r) := (List.range (max v.length w.length)).map fun i => v.getD i 0 + w.getD i 0

theorem padded_addVec (v w : List (ZMod r)) (i : Byte) : padded (addVec v w) i = padded v i + padded w i := by
  unfold padded addVec
  by_cases h : i.val < max v.length w.length
  · rw [List.getD_eq_getElem _ _ (by simpa using h), List.getElem_map, List.getElem_range]
  · rw [List.getD_eq_default _ _ (by simpa using h), List.getD_eq_default _ _ (by omega), List.getD_eq_default _ _ (by omega), add_zero]

/-- **C50** (homomorphism): adding the commitments of two vectors gives the commitment of their sum: the bytes are those of the same
element as the bytes of the commitment of the sum, with the same hash and the same encoding. -/
theorem C50_homomorphic (h : Context.Ok ctx) (v w : List (ZMod r)) (hv : v.length ≤ 256) (hw : w.length ≤ 256) :
    ∃ a b c s, commitToScalars ctx (v.flatMap codec.encS) = .ok (some a) ∧ commitToScalars ctx (w.flatMap codec.encS) = .ok (some b) ∧
      addCommitment ctx a b = .ok c ∧ commitToScalars ctx ((addVec v w).flatMap codec.encS) = .ok (some s) ∧
      Denotes c (Spec.commit crypto (padded (addVec v w))) ∧ Denotes s (Spec.commit crypto (padded (addVec v w))) ∧
      hashCommitment c = hashCommitment s ∧ serializeCommitment c = serializeCommitment s := by
  obtain ⟨a, ha, da⟩ := (C50_commit h).1 v hv
  obtain ⟨b, hb, db⟩ := (C50_commit h).1 w hw
  obtain ⟨c, hc, dc⟩ := C50_add (ctx := ctx) da db
  obtain ⟨s, hs, ds⟩ := (C50_commit h).1 (addVec v w) (by simp [addVec, hv, hw])
  have e1 : Spec.commit crypto (padded (addVec v w)) = Spec.commit crypto (padded v) + Spec.commit crypto (padded w) := by
    rw [← commit_add]
    exact congrArg _ (funext fun i => padded_addVec v w i)
  rw [← e1] at dc
  refine ⟨a, b, c, s, ha, hb, hc, hs, dc, ds, ?_, ?_⟩
  · rw [(C54_hash dc).1, (C54_hash ds).1]
  · rw [(C54_hash dc).2, (C54_hash ds).2]

theorem chunk64_append (a i : Bytes 32) (h : (a.1 ++ i.1).length = 64) : Eip.chunk64 ⟨a.1 ++ i.1, h⟩ =
    [2 + 256 * 64, leNat (a.1.take 16), leNat (a.1.drop 16), leNat (i.1.take 16), leNat (i.1.drop 16)] := by
  have h1 : Eip.chunks 16 (a.1 ++ i.1) = [a.1.take 16, a.1.drop 16, i.1.take 16, i.1.drop 16] := by
    have e : (64 + 16 - 1) / 16 = 4 := rfl
    unfold Eip.chunks
    rw [h, e]
    have ha := a.2
    have hi := i.2
    have hd : (a.1.drop 16).length = 16 := by rw [List.length_drop, ha]
    have hd' : (i.1.drop 16).length = 16 := by rw [List.length_drop, hi]
    simp only [List.range_succ, List.range_zero, List.nil_append, List.cons_append, List.map_cons, List.map_nil]
    rw [show 16 * 0 = 0 from rfl, show 16 * 1 = 16 from rfl, show 16 * 2 = 32 from rfl, show 16 * 3 = 32 + 16 from rfl, List.drop_zero,
      List.take_append_of_le_length (by omega), List.drop_append_of_le_length (by omega), List.take_left' hd, List.drop_left' ha,
      ← List.drop_drop, List.drop_left' ha, List.take_of_length_le (le_of_eq hd')]
  unfold Eip.chunk64
  simp only [h1, List.map_cons, List.map_nil]
  rw [leNat_leBytes]
  rfl

theorem commit_padded : ∀ v : List (ZMod r), v.length ≤ 256 → Spec.commit crypto (padded v) = (v.mapIdx fun i x => x • crypto.g i).sum := by
  intro v hv
  have key : ∀ (n : ℕ) (g : ℕ → BElem) (v : List (ZMod r)), v.length ≤ n →
      (v.mapIdx fun i x => x • g i).sum = ∑ i : Fin n, v.getD i.val 0 • g i.val := by
    intro n
    induction n with
    | zero =>
      intro g v hv
      rw [List.length_eq_zero_iff.1 (Nat.le_zero.1 hv)]
      simp
    | succ n ih =>
      intro g v hv
      rw [Fin.sum_univ_succ]
      cases v with
      | nil => simp
      | cons x v =>
        rw [List.mapIdx_cons, List.sum_cons, ih (fun i => g (i + 1)) v (by simpa using hv)]
        rfl
  exact (key 256 crypto.g v hv).symm

theorem set_last {l : List Byte} (h : l.length = 32) (x : Byte) : l.set 31 x = l.take 31 ++ [x] := by
  apply List.ext_getElem
  · simp [h]
  · intro i h1 h2
    simp only [List.length_set] at h1
    rw [List.getElem_set, List.getElem_append]
    split
    · next e => subst e; simp [h]
    · next e => rw [dif_pos (by simp; omega)]; simp

/-- **C50** (tree keys): the hash of a tree key is the hash of the sum of two commitments, one for the address and one for the index;
it is the hash of the specification crate, and the key is this hash with the last byte replaced. -/
theorem C50_tree_key (h : Context.Ok ctx) (address index : Bytes 32) :
    ∃ x y z hash, commitToScalars ctx (([((2 + 256 * 64 : ℕ) : ZMod r), (leNat (address.1.take 16) : ℕ), (leNat (address.1.drop 16) : ℕ)] :
        List (ZMod r)).flatMap codec.encS) = .ok (some x) ∧
      commitToScalars ctx (([0, 0, 0, (leNat (index.1.take 16) : ℕ), (leNat (index.1.drop 16) : ℕ)] : List (ZMod r)).flatMap codec.encS) =
        .ok (some y) ∧
      addCommitment ctx x y = .ok z ∧ hashCommitment z = .ok hash ∧ getTreeKeyHash ctx address index = .ok hash ∧
      hash = (Eip.hash64 crypto codec ⟨address.1 ++ index.1, by rw [List.length_append, address.2, index.2]⟩).1 ∧
      ∀ b, getTreeKey ctx address index b = .ok (hash.take 31 ++ [b]) := by
  have h64 : (address.1 ++ index.1).length = 64 := by rw [List.length_append, address.2, index.2]
  obtain ⟨a, b, c, s, ha, hb, hc, hs, dc, ds, -⟩ := C50_homomorphic h
    ([((2 + 256 * 64 : ℕ) : ZMod r), (leNat (address.1.take 16) : ℕ), (leNat (address.1.drop 16) : ℕ)])
    [0, 0, 0, (leNat (index.1.take 16) : ℕ), (leNat (index.1.drop 16) : ℕ)] (by simp) (by simp)
  have e1 : addVec ([((2 + 256 * 64 : ℕ) : ZMod r), (leNat (address.1.take 16) : ℕ), (leNat (address.1.drop 16) : ℕ)])
      [0, 0, 0, (leNat (index.1.take 16) : ℕ), (leNat (index.1.drop 16) : ℕ)] =
      (Eip.chunk64 ⟨address.1 ++ index.1, h64⟩).map fun x => ((x : ℕ) : ZMod r) := by
    rw [chunk64_append]
    simp [addVec, List.range_succ]
  rw [e1] at dc
  have hl5 : ((Eip.chunk64 ⟨address.1 ++ index.1, h64⟩).map fun x => ((x : ℕ) : ZMod r)).length = 5 := by
    rw [List.length_map]
    exact (C46_input_unambiguous.1 _).1
  obtain ⟨p, hp, hr⟩ := h.commit ((Eip.chunk64 ⟨address.1 ++ index.1, h64⟩).map fun x => ((x : ℕ) : ZMod r)) (by omega)
  have h1 : getTreeKeyHash ctx address index = .ok (codec.encS (crypto.h (Spec.commit crypto
      (padded ((Eip.chunk64 ⟨address.1 ++ index.1, h64⟩).map fun x => ((x : ℕ) : ZMod r)))))) := by
    unfold getTreeKeyHash getTreeKeyHashFlat
    rw [hp]
    simp only [bind, Except.bind]
    rw [hr.hash]
    rfl
  refine ⟨a, b, c, _, ha, hb, hc, (C54_hash dc).1, h1, ?_, ?_⟩
  · unfold Eip.hash64
    simp only
    congr 2
    rw [commit_padded _ (by omega)]
  · intro x
    unfold getTreeKey
    rw [h1]
    simp only [bind, Except.bind]
    rw [codec.encS_len, if_neg (by norm_num), set_last (codec.encS_len _)]

/-! ### C47 -/

/-- **C47** (one entry, any old commitment): the difference of the scalars times the generator is added; a scalar which is not canonical is
an error. -/
theorem C47_delta (h : Context.Ok ctx) {old : List Byte} {x : BElem} (ho : Denotes old x) (k : Byte) :
    (∀ v w : ZMod r, ∃ bs, updateCommitment ctx old k (codec.encS v) (codec.encS w) = .ok (some bs) ∧
      Denotes bs (x + (w - v) • crypto.g k.val)) ∧
    ∀ a b : List Byte, a.length = 32 → b.length = 32 → (¬ ∃ v w : ZMod r, a = codec.encS v ∧ b = codec.encS w) →
      updateCommitment ctx old k a b = .ok none := by
  obtain ⟨-, p, hp, hr⟩ := ho
  constructor
  · intro v w
    have h1 := h.scalarMul (w - v) k.val
    rw [if_pos k.isLt] at h1
    obtain ⟨p', hp', hr'⟩ := h1
    obtain ⟨bs, h2, h3⟩ := rep_bytes (Arith.represents ctx.A hr' hr)
    have hv := frFromLe_append codec v []
    have hw := frFromLe_append codec w []
    rw [List.append_nil] at hv hw
    rw [add_comm] at h3
    refine ⟨bs, ?_, h3⟩
    unfold updateCommitment
    rw [hp, hv, hw]
    simp only [bind, Except.bind, hp', h2]
  · intro a b ha hb hn
    have can : ∀ (c : List Byte) (v : ZMod r), c.length = 32 → frFromLeBytes codec c = some v → c = codec.encS v := by
      intro c v hc hv
      obtain ⟨s, rest, h4, h5, h6⟩ := frFromLe_some codec hv
      have : rest = [] := by
        have := congrArg List.length h5
        rw [List.length_append] at this
        exact List.length_eq_zero_iff.1 (by omega)
      subst this
      rw [List.append_nil] at h5
      subst h5
      exact ((C52_canonical.2 _ _).1 h6).symm
    unfold updateCommitment
    rw [hp]
    simp only [bind, Except.bind]
    cases hv : frFromLeBytes codec a with
    | none => rfl
    | some v =>
      cases hw : frFromLeBytes codec b with
      | none => rfl
      | some w => exact absurd ⟨v, w, can a v ha hv, can b w hb hw⟩ hn

theorem commit_update (f : Byte → ZMod r) (k : Byte) (w : ZMod r) :
    Spec.commit crypto (Function.update f k w) = Spec.commit crypto f + (w - f k) • crypto.g k.val := by
  unfold Spec.commit
  rw [← Finset.add_sum_erase _ _ (Finset.mem_univ k), ← Finset.add_sum_erase (a := k) _ (fun i => f i • crypto.g i.val) (Finset.mem_univ k),
    Function.update_self, Finset.sum_congr rfl fun i hi => by rw [Function.update_of_ne (Finset.ne_of_mem_erase hi)], sub_smul]
  abel

/-- **C47** (one entry): updating the commitment of a vector gives the commitment of the vector with the entry replaced. -/
theorem C47_update (h : Context.Ok ctx) {old : List Byte} (f : Byte → ZMod r) (ho : Denotes old (Spec.commit crypto f)) (k : Byte) (w : ZMod r) :
    ∃ bs, updateCommitment ctx old k (codec.encS (f k)) (codec.encS w) = .ok (some bs) ∧
      Denotes bs (Spec.commit crypto (Function.update f k w)) := by
  obtain ⟨bs, h1, h2⟩ := (C47_delta h ho k).1 (f k) w
  exact ⟨bs, h1, by rwa [commit_update]⟩

theorem canonical_scalar {c : List Byte} {v : ZMod r} (hc : c.length = 32) (hv : frFromLeBytes codec c = some v) : c = codec.encS v := by
  obtain ⟨s, rest, h4, h5, h6⟩ := frFromLe_some codec hv
  have : rest = [] := by
    have := congrArg List.length h5
    rw [List.length_append] at this
    exact List.length_eq_zero_iff.1 (by omega)
  subst this
  rw [List.append_nil] at h5
  subst h5
  exact ((C52_canonical.2 _ _).1 h6).symm

theorem read_enc (v : ZMod r) : frFromLeBytes codec (codec.encS v) = some v := by
  have hv := frFromLe_append codec v []
  rwa [List.append_nil] at hv

theorem deltas_ok (xo xn : List (List Byte)) :
    ∀ (items pre : List (ℕ × ZMod r × ZMod r)), deltas ((pre ++ items).map fun x => x.1) ((pre ++ items).map (fun x => codec.encS x.2.1) ++ xo)
      ((pre ++ items).map (fun x => codec.encS x.2.2) ++ xn) items.length pre.length = .ok (items.map fun x => (x.2.2 - x.2.1, x.1)) := by
  intro items
  induction items with
  | nil => intro pre; rfl
  | cons t items ih =>
    intro pre
    have h := ih (pre ++ [t])
    rw [List.append_assoc, List.singleton_append, List.length_append, List.length_singleton] at h
    rw [List.length_cons, deltas]
    have g1 : ((pre ++ t :: items).map fun x => x.1)[pre.length]? = some t.1 := by simp
    have g2 : ((pre ++ t :: items).map (fun x => codec.encS x.2.1) ++ xo)[pre.length]? = some (codec.encS t.2.1) := by
      rw [List.getElem?_append_left (by simp)]; simp
    have g3 : ((pre ++ t :: items).map (fun x => codec.encS x.2.2) ++ xn)[pre.length]? = some (codec.encS t.2.2) := by
      rw [List.getElem?_append_left (by simp)]; simp
    rw [g1, g2, g3, h]
    simp only [unwrap, bind, Except.bind, read_enc]
    rfl

/-- **C47** (many entries, any old commitment): the differences accumulate, also at a repeated index; surplus scalars are ignored. -/
theorem C47_sparse_delta (h : Context.Ok ctx) {old : List Byte} {x : BElem} (ho : Denotes old x) (items : List (ℕ × ZMod r × ZMod r))
    (hk : ∀ t ∈ items, t.1 < 256) (xo xn : List (List Byte)) :
    ∃ bs, updateCommitmentSparse ctx old (items.map fun t => t.1) (items.map (fun t => codec.encS t.2.1) ++ xo)
        (items.map (fun t => codec.encS t.2.2) ++ xn) = .ok bs ∧
      Denotes bs (x + (items.map fun t => (t.2.2 - t.2.1) • crypto.g t.1).sum) := by
  obtain ⟨-, p, hp, hr⟩ := ho
  have h1 := deltas_ok xo xn items []
  rw [List.nil_append, List.length_nil] at h1
  obtain ⟨p', hp', hr'⟩ := commitSparse_ok h (items.map fun t => (t.2.2 - t.2.1, t.1)) (by
    intro y hy
    obtain ⟨t, ht, rfl⟩ := List.mem_map.1 hy
    exact hk t ht)
  rw [List.map_map] at hr'
  obtain ⟨bs, h2, h3⟩ := rep_bytes (Arith.represents ctx.A hr' hr)
  rw [add_comm] at h3
  refine ⟨bs, ?_, h3⟩
  unfold updateCommitmentSparse
  rw [hp, List.length_map, h1]
  simp only [bind, Except.bind, hp', h2]

/-- The vector after the assignments, one after the other. -/
def assign (f : Byte → ZMod r) (items : List (Byte × ZMod r × ZMod r)) : Byte → ZMod r :=
  items.foldl (fun f t => Function.update f t.1 t.2.2) f

/-- The old values are those which the assignments find. -/
def Current (f : Byte → ZMod r) : List (Byte × ZMod r × ZMod r) → Prop
  | [] => True
  | t :: items => t.2.1 = f t.1 ∧ Current (Function.update f t.1 t.2.2) items

theorem commit_assign : ∀ (items : List (Byte × ZMod r × ZMod r)) (f : Byte → ZMod r), Current f items →
    Spec.commit crypto (assign f items) = Spec.commit crypto f + (items.map fun t => (t.2.2 - t.2.1) • crypto.g t.1.val).sum := by
  intro items
  induction items with
  | nil => intro f _; simp [assign]
  | cons t items ih =>
    intro f h
    have := ih _ h.2
    unfold assign at this ⊢
    rw [List.foldl_cons, this, commit_update, List.map_cons, List.sum_cons, h.1, add_assoc]

/-- **C47** (many entries, one after the other): with the values current at each step as old values, the result is the commitment of the
vector after all the assignments; an index may be repeated. -/
theorem C47_sparse_sequence (h : Context.Ok ctx) {old : List Byte} (f : Byte → ZMod r) (ho : Denotes old (Spec.commit crypto f))
    (items : List (Byte × ZMod r × ZMod r)) (hc : Current f items) :
    ∃ bs, updateCommitmentSparse ctx old (items.map fun t => t.1.val) (items.map fun t => codec.encS t.2.1)
        (items.map fun t => codec.encS t.2.2) = .ok bs ∧ Denotes bs (Spec.commit crypto (assign f items)) := by
  obtain ⟨bs, h1, h2⟩ := C47_sparse_delta h ho (items.map fun t => (t.1.val, t.2)) (by
    intro y hy
    obtain ⟨t, -, rfl⟩ := List.mem_map.1 hy
    exact t.1.isLt) [] []
  simp only [List.map_map, List.append_nil] at h1 h2
  refine ⟨bs, h1, ?_⟩
  rw [commit_assign items f hc]
  exact h2

/-- **C47** (many entries): for distinct indices, with the entries of the vector as old values, the result is the commitment of the vector
which has the new values at the indices and agrees with the old one elsewhere. -/
theorem C47_sparse (h : Context.Ok ctx) {old : List Byte} (f f' : Byte → ZMod r) (ho : Denotes old (Spec.commit crypto f))
    (indices : List Byte) (hd : indices.Nodup) (hf : ∀ i, i ∉ indices → f' i = f i) :
    ∃ bs, updateCommitmentSparse ctx old (indices.map fun i => i.val) (indices.map fun i => codec.encS (f i))
        (indices.map fun i => codec.encS (f' i)) = .ok bs ∧ Denotes bs (Spec.commit crypto f') := by
  have key : ∀ (indices : List Byte) (f0 : Byte → ZMod r), indices.Nodup → (∀ i, i ∉ indices → f' i = f0 i) → (∀ i ∈ indices, f0 i = f i) →
      Current f0 (indices.map fun i => (i, f i, f' i)) ∧ assign f0 (indices.map fun i => (i, f i, f' i)) = f' := by
    intro indices
    induction indices with
    | nil => intro f0 _ h1 _; exact ⟨trivial, funext fun i => (h1 i (by simp)).symm⟩
    | cons k l ih =>
      intro f0 hn h1 h2
      rw [List.nodup_cons] at hn
      obtain ⟨h3, h4⟩ := ih (Function.update f0 k (f' k)) hn.2 (by
        intro i hi
        by_cases hik : i = k
        · rw [hik, Function.update_self]
        · rw [Function.update_of_ne hik]
          exact h1 i (by simp [hik, hi])) (by
        intro i hi
        rw [Function.update_of_ne (by rintro rfl; exact hn.1 hi)]
        exact h2 i (by simp [hi]))
      exact ⟨⟨(h2 k (by simp)).symm, h3⟩, h4⟩
  obtain ⟨h1, h2⟩ := key indices f hd hf fun _ _ => rfl
  obtain ⟨bs, h3, h4⟩ := C47_sparse_sequence h f ho _ h1
  simp only [List.map_map] at h3
  exact ⟨bs, h3, by rwa [h2] at h4⟩

theorem deltas_inv {indices : List ℕ} {olds news : List (List Byte)} : ∀ (n i : ℕ) (ds : List (ZMod r × ℕ)),
    deltas indices olds news n i = .ok ds → ∀ j, j < n → ∃ a b k v w, olds[i + j]? = some a ∧ news[i + j]? = some b ∧
      indices[i + j]? = some k ∧ frFromLeBytes codec a = some v ∧ frFromLeBytes codec b = some w ∧ (w - v, k) ∈ ds := by
  intro n
  induction n with
  | zero => intro i ds _ j hj; omega
  | succ n ih =>
    intro i ds h j hj
    rw [deltas] at h
    cases ho : olds[i]? with
    | none => rw [ho] at h; cases h
    | some a =>
    cases hv : frFromLeBytes codec a with
    | none => simp only [ho, unwrap, bind, Except.bind, hv] at h; cases h
    | some v =>
    cases hn : news[i]? with
    | none => simp only [ho, unwrap, bind, Except.bind, hv, hn] at h; cases h
    | some b =>
    cases hw : frFromLeBytes codec b with
    | none => simp only [ho, unwrap, bind, Except.bind, hv, hn, hw] at h; cases h
    | some w =>
    cases hk : indices[i]? with
    | none => simp only [ho, unwrap, bind, Except.bind, hv, hn, hw, hk] at h; cases h
    | some k =>
    cases hr : deltas indices olds news n (i + 1) with
    | error e => simp only [ho, unwrap, bind, Except.bind, hv, hn, hw, hk, hr] at h; cases h
    | ok rest =>
      simp only [ho, unwrap, bind, Except.bind, hv, hn, hw, hk, hr] at h
      cases h
      cases j with
      | zero => exact ⟨a, b, k, v, w, ho, hn, hk, hv, hw, by simp⟩
      | succ j =>
        obtain ⟨a', b', k', v', w', h1, h2, h3, h4, h5, h6⟩ := ih (i + 1) rest hr j (by omega)
        rw [show i + 1 + j = i + (j + 1) by omega] at h1 h2 h3
        exact ⟨a', b', k', v', w', h1, h2, h3, h4, h5, List.mem_cons_of_mem _ h6⟩

/-- C47: the sparse update succeeds exactly when every index is below 256 and has an old and a new scalar, both canonical; otherwise it
panics, although its type allows for an error. -/
theorem C47_sparse_panics (h : Context.Ok ctx) {old : List Byte} {x : BElem} (ho : Denotes old x) (indices : List ℕ)
    (olds news : List (List Byte)) (hlo : ∀ c ∈ olds, c.length = 32) (hln : ∀ c ∈ news, c.length = 32) :
    (∃ bs, updateCommitmentSparse ctx old indices olds news = .ok bs) ↔
      ∀ i k : ℕ, indices[i]? = some k → k < 256 ∧ ∃ v w : ZMod r, olds[i]? = some (codec.encS v) ∧ news[i]? = some (codec.encS w) := by
  constructor
  · rintro ⟨bs, hb⟩ i k hk
    obtain ⟨-, p, hp, -⟩ := ho
    unfold updateCommitmentSparse at hb
    rw [hp] at hb
    simp only [bind, Except.bind] at hb
    cases hd : deltas indices olds news indices.length 0 with
    | error e => rw [hd] at hb; cases hb
    | ok ds =>
      rw [hd] at hb
      simp only at hb
      have hi : i < indices.length := by
        by_contra hc
        rw [List.getElem?_eq_none (by omega)] at hk
        cases hk
      obtain ⟨a, b, k', v, w, h1, h2, h3, h4, h5, h6⟩ := deltas_inv _ 0 ds hd i hi
      rw [Nat.zero_add] at h1 h2 h3
      rw [hk] at h3
      cases h3
      refine ⟨?_, v, w, ?_, ?_⟩
      · by_contra hc
        obtain ⟨e, he⟩ := commitSparse_out_of_range h ds ⟨_, h6, by omega⟩
        rw [he] at hb
        cases hb
      · rw [h1, ← canonical_scalar (hlo a (List.mem_of_getElem? h1)) h4]
      · rw [h2, ← canonical_scalar (hln b (List.mem_of_getElem? h2)) h5]
  · intro hall
    have key : ∀ (indices : List ℕ) (olds news : List (List Byte)), (∀ i k : ℕ, indices[i]? = some k → k < 256 ∧ ∃ v w : ZMod r,
        olds[i]? = some (codec.encS v) ∧ news[i]? = some (codec.encS w)) → ∃ (items : List (ℕ × ZMod r × ZMod r)) (xo xn : List (List Byte)),
          indices = items.map (fun t => t.1) ∧ olds = items.map (fun t => codec.encS t.2.1) ++ xo ∧
          news = items.map (fun t => codec.encS t.2.2) ++ xn ∧ ∀ t ∈ items, t.1 < 256 := by
      intro indices
      induction indices with
      | nil => intro olds news _; exact ⟨[], olds, news, rfl, rfl, rfl, by simp⟩
      | cons k l ih =>
        intro olds news hall
        obtain ⟨hk, v, w, h1, h2⟩ := hall 0 k rfl
        cases olds with
        | nil => cases h1
        | cons a olds =>
        cases news with
        | nil => cases h2
        | cons b news =>
          rw [List.getElem?_cons_zero] at h1 h2
          cases h1
          cases h2
          obtain ⟨items, xo, xn, e1, e2, e3, e4⟩ := ih olds news fun i k hi => hall (i + 1) k hi
          refine ⟨(k, v, w) :: items, xo, xn, by rw [e1]; rfl, by rw [e2]; rfl, by rw [e3]; rfl, ?_⟩
          intro t ht
          rcases List.mem_cons.1 ht with rfl | ht
          · exact hk
          · exact e4 t ht
    obtain ⟨items, xo, xn, rfl, rfl, rfl, hk⟩ := key indices olds news hall
    obtain ⟨bs, h1, -⟩ := C47_sparse_delta h ho items hk xo xn
    exact ⟨bs, h1⟩

end

/-! ### The hypotheses can be met -/

/-- The addition formulas in extended coordinates. -/
def hwcdAdd (p p' : Point) : Point :=
  let A := p.x * p'.x
  let B := p.y * p'.y
  let C := coeffD * p.t * p'.t
  let D := p.z * p'.z
  let E := (p.x + p.y) * (p'.x + p'.y) - A - B
  let F := D - C
  let G := D + C
  let H := B - coeffA * A
  ⟨E * F, G * H, E * H, F * G⟩

theorem hwcd_spec (p p' : Point) (e e' : BElem) (h : Bander.Represents p e) (h' : Bander.Represents p' e') :
    Valid coeffA coeffD (hwcdAdd p p') ∧
    (hwcdAdd p p').x / (hwcdAdd p p').z = addX coeffD (p.x / p.z) (p.y / p.z) (p'.x / p'.z) (p'.y / p'.z) ∧
    (hwcdAdd p p').y / (hwcdAdd p p').z = addY coeffA coeffD (p.x / p.z) (p.y / p.z) (p'.x / p'.z) (p'.y / p'.z) := by
  obtain ⟨v, pt, -, hx, hy⟩ := h
  obtain ⟨v', pt', -, hx', hy'⟩ := h'
  have hp := good.denom_plus pt.on pt'.on pt.sq pt'.sq
  have hm := good.denom_minus pt.on pt'.on pt.sq pt'.sq
  have hon := good.add_on pt.on pt'.on hp hm
  have ex : p.x = pt.x * p.z := by rw [← hx, div_mul_cancel₀ _ v.z]
  have ey : p.y = pt.y * p.z := by rw [← hy, div_mul_cancel₀ _ v.z]
  have ex' : p'.x = pt'.x * p'.z := by rw [← hx', div_mul_cancel₀ _ v'.z]
  have ey' : p'.y = pt'.y * p'.z := by rw [← hy', div_mul_cancel₀ _ v'.z]
  have et : p.t = pt.x * pt.y * p.z := mul_right_cancel₀ v.z (by rw [v.t, ex, ey]; ring)
  have et' : p'.t = pt'.x * pt'.y * p'.z := mul_right_cancel₀ v'.z (by rw [v'.t, ex', ey']; ring)
  have hz := v.z
  have hz' := v'.z
  rw [hx, hy, hx', hy']
  have zF : p.z * p'.z - coeffD * p.t * p'.t = p.z * p'.z * (1 - coeffD * pt.x * pt'.x * pt.y * pt'.y) := by rw [et, et']; ring
  have zG : p.z * p'.z + coeffD * p.t * p'.t = p.z * p'.z * (1 + coeffD * pt.x * pt'.x * pt.y * pt'.y) := by rw [et, et']; ring
  have zE : (p.x + p.y) * (p'.x + p'.y) - p.x * p'.x - p.y * p'.y = p.z * p'.z * (pt.x * pt'.y + pt'.x * pt.y) := by
    rw [ex, ey, ex', ey']; ring
  have zH : p.y * p'.y - coeffA * (p.x * p'.x) = p.z * p'.z * (pt.y * pt'.y - coeffA * pt.x * pt'.x) := by rw [ex, ey, ex', ey']; ring
  have hF : p.z * p'.z - coeffD * p.t * p'.t ≠ 0 := by rw [zF]; exact mul_ne_zero (mul_ne_zero hz hz') hm
  have hG : p.z * p'.z + coeffD * p.t * p'.t ≠ 0 := by rw [zG]; exact mul_ne_zero (mul_ne_zero hz hz') hp
  have h1 : (hwcdAdd p p').x / (hwcdAdd p p').z = addX coeffD pt.x pt.y pt'.x pt'.y := by
    simp only [hwcdAdd]
    rw [mul_comm (_ - coeffD * p.t * p'.t) (_ + coeffD * p.t * p'.t), mul_div_mul_right _ _ hF, zE, zG, mul_div_mul_left _ _ (mul_ne_zero hz hz')]
    rfl
  have h2 : (hwcdAdd p p').y / (hwcdAdd p p').z = addY coeffA coeffD pt.x pt.y pt'.x pt'.y := by
    simp only [hwcdAdd]
    rw [mul_comm (_ - coeffD * p.t * p'.t) (_ + coeffD * p.t * p'.t), mul_div_mul_left _ _ hG, zF, zH, mul_div_mul_left _ _ (mul_ne_zero hz hz')]
    rfl
  refine ⟨⟨?_, ?_, ?_⟩, h1, h2⟩
  · exact mul_ne_zero hF hG
  · simp only [hwcdAdd]
    ring
  · rw [h1, h2]
    exact hon

/-- Some representative of each value. -/
noncomputable def follow : Res BElem → Res Point
  | .ok e => .ok (Classical.choose (exists_rep e))
  | .error m => .error m

theorem follow_follows : ∀ x : Res BElem, Follows (follow x) x
  | .ok e => ⟨_, rfl, Classical.choose_spec (exists_rep e)⟩
  | .error _ => rfl

/-- There is such a context: the extended addition formulas satisfy the contract. -/
theorem exists_context : ∃ ctx : Context, Context.Ok ctx ∧ ctx.A.add = hwcdAdd := by
  obtain ⟨D, hD, -⟩ := C37_dispatch (F := ZMod r) C52_scalar_field.2.2 (points := (List.range 256).map crypto.g)
    (by rw [List.length_map, List.length_range]; norm_num)
  exact ⟨⟨⟨hwcdAdd, hwcd_spec⟩, ⟨fun v => follow (D.commitLagrange ZMod.val v), fun a i => follow (D.scalarMul ZMod.val a i)⟩⟩,
    ⟨D, hD, fun v => follow_follows _, fun a i => follow_follows _⟩, rfl⟩

/-- Three entries are changed, two of them set anew from zero, in the commitment of `(5, 0, 0, …)`. -/
example : ∃ (ctx : Context) (old bs : List Byte), commitToScalars ctx (([5] : List (ZMod r)).flatMap codec.encS) = .ok (some old) ∧
    updateCommitmentSparse ctx old [7, 0, 255] ([0, 5, 0].map codec.encS) ([1, 2, 3].map codec.encS) = .ok bs ∧
    ∃ x, Denotes old x ∧ Denotes bs (x + ((1 : ZMod r) • crypto.g 7 + ((-3 : ZMod r) • crypto.g 0 + (3 : ZMod r) • crypto.g 255))) := by
  obtain ⟨ctx, h, -⟩ := exists_context
  obtain ⟨old, h1, h2⟩ := (C50_commit h).1 [5] (by simp)
  obtain ⟨bs, h3, h4⟩ := C47_sparse_delta h h2 [(7, 0, 1), (0, 5, 2), (255, 0, 3)] (by simp) [] []
  refine ⟨ctx, old, bs, h1, h3, _, h2, ?_⟩
  have e1 : (1 - 0 : ZMod r) = 1 := by ring
  have e2 : (2 - 5 : ZMod r) = -3 := by ring
  have e3 : (3 - 0 : ZMod r) = 3 := by ring
  simpa only [List.map_cons, List.map_nil, List.sum_cons, List.sum_nil, add_zero, e1, e2, e3] using h4

/-- A repeated index whose second old value is the first new one. -/
example : Current (fun _ => 0) [(3, 0, 5), (4, 0, 1), (3, 5, 9)] := by
  refine ⟨rfl, rfl, ?_, trivial⟩
  rw [Function.update_of_ne (by decide), Function.update_self]

/-- A sparse update without new scalars panics. -/
example : ∃ (ctx : Context) (old : List Byte), Denotes old 0 ∧ ¬ ∃ bs, updateCommitmentSparse ctx old [0] [codec.encS 0] [] = .ok bs := by
  obtain ⟨ctx, h, -⟩ := exists_context
  obtain ⟨old, ho⟩ := exists_denotes 0
  refine ⟨ctx, old, ho, fun hb => ?_⟩
  obtain ⟨-, v, w, -, h2⟩ := (C47_sparse_panics h ho [0] [codec.encS 0] [] (by simp [codec.encS_len]) (by simp)).1 hb 0 0 rfl
  cases h2

end Verif.Props
