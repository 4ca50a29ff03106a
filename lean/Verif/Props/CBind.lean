import Verif.Ffi.CBind
import Verif.Props.Ffi
import Verif.Props.Commitments
import Verif.Props.Java

/-!
# C59, C60: the C binding
-/

set_option autoImplicit false
set_option linter.unusedSectionVars false

namespace Verif.Props
open Wire Proof Ipa Ffi Bander

/-- The point represents the element. -/
abbrev Rep (p : Point) (e : BElem) : Prop := Bander.Represents p e

/-- The operations on points follow the group of elements. -/
theorem ark_sound (K : Ark) (H : List Byte → ZMod r) : (K.ops H).Sound (⟨codec, H⟩ : Oracle (ZMod r) BElem) Rep where
  add h h' := Arith.represents K.A h h'
  sub h h' := K.sub_spec h h'
  smul c _ _ h := K.mul_spec c h
  msm s _ _ hl h := K.msm_spec s hl h
  isZero h := h.eq_iff Represents.zero
  toBytes h := h.toBytes
  encS := rfl
  H := rfl

/-- The context is created, and holds the reference string of `crypto` and the weights of the domain of size 256. -/
theorem C59_context : ∃ ctx, ProofContext.new = .ok ctx ∧ CrsRel Rep ctx.crs (crsOf crypto genPt) ∧ Weights.new (ZMod r) 256 = .ok ctx.W := by
  obtain ⟨crs, h1, h2, h3, h4, -, -, h5⟩ := C53_default
  obtain ⟨W, hW, -⟩ := new_good (F := ZMod r) C52_scalar_field.2.1 (n := 256) (by norm_num)
  refine ⟨⟨⟨crs.n, crs.G, crs.Q⟩, W⟩, ?_, ⟨h2, ?_, h5⟩, hW⟩
  · unfold ProofContext.new
    rw [h1, hW]
    rfl
  · have hl : crsElems.length = 257 := by rw [← h4.length_eq, List.length_append, h3]; rfl
    have h6 : List.Forall₂ Rep crs.G crsElems.dropLast := by
      have := List.forall₂_take 256 h4
      rw [List.dropLast_eq_take, hl]
      rwa [List.take_left' h3] at this
    have h7 : (List.range 256).map crypto.g = crsElems.dropLast := by
      apply List.ext_getElem
      · rw [List.length_map, List.length_range, List.length_dropLast, hl]
      · intro i hi hi'
        rw [List.getElem_map, List.getElem_range]
        exact List.getD_eq_getElem _ _ hi'
    show List.Forall₂ Rep crs.G ((List.range 256).map crypto.g)
    rwa [h7]

theorem context_rel {ctx : ProofContext} (h : ProofContext.new = .ok ctx) :
    CrsRel Rep ctx.crs (crsOf crypto genPt) ∧ Weights.new (ZMod r) 256 = .ok ctx.W := by
  obtain ⟨ctx', h1, h2⟩ := C59_context
  rw [h] at h1
  cases h1
  exact h2

/-! ### Reading -/

theorem RRel.mapM {α α' β β' : Type} {T : α → α' → Prop} {S : β → β' → Prop} {f : α → Res β} {g : α' → Res β'} {l : List α} {l' : List α'}
    (h : List.Forall₂ T l l') (hf : ∀ x x', x ∈ l → T x x' → RRel S (f x) (g x')) : RRel (List.Forall₂ S) (l.mapM f) (l'.mapM g) := by
  induction h with
  | nil => exact .nil
  | cons hd _ ih =>
    rw [List.mapM_cons, List.mapM_cons]
    refine RRel.bind (hf _ _ (by simp) hd) fun y y' hy => ?_
    refine RRel.bind (ih fun x x' hx => hf x x' (by simp [hx])) fun ys ys' hys => ?_
    exact .cons hy hys

theorem RRel.unwrap {α β : Type} {S : α → β → Prop} (m : String) {x : Option α} {y : Option β} (h : Option.Rel S x y) :
    RRel S (unwrap m x) (unwrap m y) := by
  cases h with
  | some h => exact h
  | none => rfl

theorem forall₂_same {α : Type} (l : List α) : List.Forall₂ (fun x y => x = y) l l := List.forall₂_same.2 fun _ _ => rfl

theorem decE_rel (S : Sqrt (ZMod Bander.q)) {bs : List Byte} (hl : bs.length = 32) :
    ∃ x, fromBytes coeffA coeffD S bs = .ok x ∧ Option.Rel Rep x (codec.decE bs) := by
  rcases fromBytes_dec q_lt S (a := coeffA) (d := coeffD) hl with ⟨h1, h2⟩ | ⟨e, p, h1, h2, h3⟩
  · refine ⟨none, h2, ?_⟩
    have : codec.decE bs = none := h1
    rw [this]
    exact .none
  · refine ⟨some p, h2, ?_⟩
    have : codec.decE bs = some e := h1
    rw [this]
    exact .some h3

theorem takePoint_rel (S : Sqrt (ZMod Bander.q)) (bs : List Byte) :
    RRel (fun a b => Rep a.1 b.1 ∧ a.2 = b.2) (takePoint S bs) (takeGroupElement codec bs) := by
  unfold takePoint takeGroupElement
  unfold Ffi.split
  split
  · next h =>
    obtain ⟨x, h1, h2⟩ := decE_rel S (bs := bs.take 32) (by rw [List.length_take]; omega)
    simp only [bind, Except.bind, h1]
    exact RRel.bind (RRel.unwrap _ h2) fun p e h => ⟨h, rfl⟩
  · rfl

theorem proofQuery_rel {hd : List Byte → Res (Point × List Byte)} {hd' : List Byte → Res (BElem × List Byte)} {bs bs' : List Byte}
    (h : RRel (fun a b => Rep a.1 b.1 ∧ a.2 = b.2) (hd bs) (hd' bs')) :
    RRel (PQueryRel Rep) (deserializeProofQuery codec hd bs) (deserializeProofQuery codec hd' bs') := by
  unfold deserializeProofQuery
  refine RRel.bind h fun a b hab => ?_
  obtain ⟨p, rest⟩ := a
  obtain ⟨e, rest'⟩ := b
  obtain ⟨hr, rfl⟩ := hab
  refine RRel.bind RRel.refl fun a b hab => ?_
  subst hab
  refine RRel.bind RRel.refl fun b c hab => ?_
  subst hab
  refine RRel.bind RRel.refl fun c d hab => ?_
  subst hab
  dsimp only
  split
  · rfl
  · exact ⟨hr, rfl, rfl, rfl⟩

theorem verifierQuery_rel {hd : List Byte → Res (Point × List Byte)} {hd' : List Byte → Res (BElem × List Byte)} {bs bs' : List Byte}
    (h : RRel (fun a b => Rep a.1 b.1 ∧ a.2 = b.2) (hd bs) (hd' bs')) :
    RRel (VQueryRel Rep) (deserializeVerifierQuery codec hd bs) (deserializeVerifierQuery codec hd' bs') := by
  unfold deserializeVerifierQuery
  refine RRel.bind h fun a b hab => ?_
  obtain ⟨p, rest⟩ := a
  obtain ⟨e, rest'⟩ := b
  obtain ⟨hr, rfl⟩ := hab
  refine RRel.bind RRel.refl fun a b hab => ?_
  subst hab
  refine RRel.bind RRel.refl fun b c hab => ?_
  subst hab
  dsimp only
  split
  · rfl
  · exact ⟨hr, rfl, rfl⟩

theorem readPoints_rel (S : Sqrt (ZMod Bander.q)) : ∀ (n : ℕ) (cs : List (List Byte)), (∀ c ∈ cs, c.length = 32) →
    RRel (Option.Rel fun a b => List.Forall₂ Rep a.1 b.1 ∧ a.2 = b.2 ∧ ∀ c ∈ a.2, c ∈ cs) (readPoints S n cs) (readElems codec n cs)
  | 0, cs, _ => .some ⟨.nil, rfl, fun _ h => h⟩
  | n + 1, [], _ => rfl
  | n + 1, c :: cs, h => by
    obtain ⟨x, h1, h2⟩ := decE_rel S (h c (by simp))
    rw [readPoints, readElems, h1]
    revert h2
    generalize codec.decE c = y
    intro h2
    cases h2 with
    | none => exact Option.Rel.none
    | some hr =>
      change RRel _ ((readPoints S n cs).bind _) ((readElems codec n cs).bind _)
      refine RRel.bind (readPoints_rel S n cs fun c hc => h c (by simp [hc])) fun a b hab => ?_
      cases hab with
      | none => exact Option.Rel.none
      | some hab => exact Option.Rel.some ⟨.cons hr hab.1, hab.2.1, fun c hc => by simp [hab.2.2 c hc]⟩

theorem ipaFromBytes_rel (S : Sqrt (ZMod Bander.q)) (bs : List Byte) (deg : ℕ) :
    RRel (Option.Rel (IpaRel Rep)) (pIpaFromBytes S bs deg) (ipaFromBytes codec bs deg) := by
  unfold pIpaFromBytes ipaFromBytes
  split
  · rfl
  split
  · rfl
  have h32 : ∀ c ∈ chunksExact 32 bs, c.length = 32 := fun c hc => chunksExact_length hc
  refine RRel.bind (readPoints_rel S _ _ h32) fun a b hab => ?_
  cases hab with
  | none => exact Option.Rel.none
  | @some a b hab =>
    obtain ⟨l, cs⟩ := a
    obtain ⟨l', cs'⟩ := b
    obtain ⟨h1, h2, h3⟩ := hab
    dsimp only at h1 h2 h3
    subst h2
    refine RRel.bind (readPoints_rel S _ _ fun c hc => h32 c (h3 c hc)) fun a b hab => ?_
    cases hab with
    | none => exact Option.Rel.none
    | @some a b hab =>
      obtain ⟨m, cs⟩ := a
      obtain ⟨m', cs'⟩ := b
      obtain ⟨h4, h5, -⟩ := hab
      dsimp only at h4 h5
      subst h5
      dsimp only
      cases cs with
      | nil => rfl
      | cons c cs =>
        dsimp only
        cases codec.decS c with
        | none => exact Option.Rel.none
        | some a => exact Option.Rel.some ⟨h1, h4, rfl⟩

theorem multiFromBytes_rel (S : Sqrt (ZMod Bander.q)) (bs : List Byte) (deg : ℕ) :
    RRel (Option.Rel (MultiRel Rep)) (pMultiFromBytes S bs deg) (multiFromBytes codec bs deg) := by
  unfold pMultiFromBytes multiFromBytes
  split
  · rfl
  next h =>
    obtain ⟨x, h1, h2⟩ := decE_rel S (bs := bs.take 32) (by rw [List.length_take]; omega)
    rw [h1]
    revert h2
    generalize codec.decE (bs.take 32) = y
    intro h2
    cases h2 with
    | none => exact Option.Rel.none
    | some hr =>
      change RRel _ ((pIpaFromBytes S (bs.drop 32) deg).bind _) ((ipaFromBytes codec (bs.drop 32) deg).bind _)
      refine RRel.bind (ipaFromBytes_rel S (bs.drop 32) deg) fun a b hab => ?_
      cases hab with
      | none => exact Option.Rel.none
      | some hab => exact Option.Rel.some ⟨hab, hr⟩

/-! ### Writing -/

theorem mapM_toBytes {ps : List Point} {es : List BElem} (h : List.Forall₂ Rep ps es) : ps.mapM Proj.toBytes = .ok (es.map codec.encE) := by
  induction h with
  | nil => rfl
  | cons hd _ ih =>
    rw [List.mapM_cons, hd.toBytes, ih]
    rfl

theorem toBytes_rel {p : MultiProof (ZMod r) Point} {e : MultiProof (ZMod r) BElem} (h : MultiRel Rep p e) :
    pMultiToBytes p = .ok (multiToBytes codec e) := by
  obtain ⟨⟨h1, h2, h3⟩, h4⟩ := h
  unfold pMultiToBytes
  rw [h4.toBytes, mapM_toBytes h1, mapM_toBytes h2, h3]
  rfl

/-- Bytes which are an uncompressed form of a proof: each element stands as the 64 bytes of one of its points. -/
def ProofForm (bs : List Byte) (e : MultiProof (ZMod r) BElem) : Prop :=
  ∃ (g : List Byte) (l m : List (List Byte)), Denotes g e.gx ∧ List.Forall₂ Denotes l e.openProof.L ∧ List.Forall₂ Denotes m e.openProof.R ∧
    bs = g ++ (l.flatten ++ m.flatten ++ codec.encS e.openProof.a)

theorem mapM_uncompressed {ps : List Point} {es : List BElem} (h : List.Forall₂ Rep ps es) :
    ∃ l, ps.mapM Proj.toBytesUncompressed = .ok l ∧ List.Forall₂ Denotes l es := by
  induction h with
  | nil => exact ⟨[], rfl, .nil⟩
  | cons hd _ ih =>
    obtain ⟨l, h1, h2⟩ := ih
    obtain ⟨b, h3, h4⟩ := rep_bytes hd
    refine ⟨b :: l, ?_, .cons h4 h2⟩
    rw [List.mapM_cons, h3, h1]
    rfl

theorem uncompressed_rel {p : MultiProof (ZMod r) Point} {e : MultiProof (ZMod r) BElem} (h : MultiRel Rep p e) :
    ∃ bs, multiToBytesUncompressed p = .ok bs ∧ ProofForm bs e := by
  obtain ⟨⟨h1, h2, h3⟩, h4⟩ := h
  obtain ⟨g, h5, h6⟩ := rep_bytes h4
  obtain ⟨l, h7, h8⟩ := mapM_uncompressed h1
  obtain ⟨m, h9, h10⟩ := mapM_uncompressed h2
  refine ⟨_, ?_, g, l, m, h6, h8, h10, rfl⟩
  unfold multiToBytesUncompressed
  rw [h5, h7, h9, h3]
  rfl

theorem flatten_len {l : List (List Byte)} {es : List BElem} (h : List.Forall₂ Denotes l es) : l.flatten.length = es.length * 64 := by
  induction h with
  | nil => rfl
  | cons hd _ ih => rw [List.flatten_cons, List.length_append, ih, hd.1, List.length_cons]; omega

theorem ProofForm.length {bs : List Byte} {e : MultiProof (ZMod r) BElem} (h : ProofForm bs e) (hL : e.openProof.L.length = 8)
    (hR : e.openProof.R.length = 8) : bs.length = 1120 := by
  obtain ⟨g, l, m, h1, h2, h3, rfl⟩ := h
  rw [List.length_append, List.length_append, List.length_append, h1.1, flatten_len h2, flatten_len h3, codec.encS_len, hL, hR]

/-- The bytes are the coordinates of the point. -/
def Coordinates (b : List Byte) (p : Point) : Prop := b.length = 64 ∧ fromBytesUnchecked b = .ok p

theorem readUncompressed_append {l : List (List Byte)} {ps : List Point} (h : List.Forall₂ Coordinates l ps) (rest : List (List Byte)) :
    readUncompressed ps.length (l ++ rest) = .ok (ps, rest) := by
  induction h with
  | nil => rfl
  | cons hd _ ih =>
    rw [List.length_cons, List.cons_append, readUncompressed, hd.2, ih]
    rfl

theorem multiFromBytesUncompressed_append {g : List Byte} {l m : List (List Byte)} {gp : Point} {lp mp : List Point} (hg : Coordinates g gp)
    (hl : List.Forall₂ Coordinates l lp) (hm : List.Forall₂ Coordinates m mp) (hL : lp.length = 8) (hR : mp.length = 8) (a : ZMod r) :
    multiFromBytesUncompressed (g ++ (l.flatten ++ m.flatten ++ codec.encS a)) 256 = .ok (some ⟨⟨lp, mp, a⟩, gp⟩) := by
  have h8 : Nat.clog 2 256 = 8 := by decide +kernel
  have h64 : ∀ b ∈ l ++ m, b.length = 64 := by
    intro b hb
    rcases List.mem_append.1 hb with hb | hb
    · obtain ⟨i, hi, rfl⟩ := List.getElem_of_mem hb
      exact (hl.get hi (hl.length_eq ▸ hi)).1
    · obtain ⟨i, hi, rfl⟩ := List.getElem_of_mem hb
      exact (hm.get hi (hm.length_eq ▸ hi)).1
  have hlen' : (l.flatten ++ m.flatten).length = 1024 := by
    rw [← List.flatten_append, List.length_flatten, List.map_congr_left h64, List.map_const', List.sum_replicate, List.length_append,
      hl.length_eq, hm.length_eq, hL, hR]
    rfl
  have hlen : (l.flatten ++ m.flatten ++ codec.encS a).length = 1056 := by rw [List.length_append, hlen', codec.encS_len]
  have hc : chunksExact 64 (l.flatten ++ m.flatten) = l ++ m := by
    rw [← List.flatten_append]
    exact chunksExact_flatten (by norm_num) h64
  have h1 := readUncompressed_append hl m
  have h2 := readUncompressed_append hm []
  rw [hL] at h1
  rw [hR, List.append_nil] at h2
  unfold multiFromBytesUncompressed
  rw [split_append hg.1]
  simp only [bind, Except.bind, hg.2]
  unfold ipaFromBytesUncompressed
  rw [h8, hlen, if_neg (by norm_num), split_append (by rw [hlen'])]
  simp only [bind, Except.bind, hc, h1, h2, codec.dec_encS]

theorem denotes_coordinates {l : List (List Byte)} {es : List BElem} (h : List.Forall₂ Denotes l es) :
    ∃ ps, List.Forall₂ Coordinates l ps ∧ List.Forall₂ Rep ps es := by
  induction h with
  | nil => exact ⟨[], .nil, .nil⟩
  | cons hd _ ih =>
    obtain ⟨ps, h1, h2⟩ := ih
    obtain ⟨hl, p, h3, h4⟩ := hd
    exact ⟨p :: ps, .cons ⟨hl, h3⟩ h1, .cons h4 h2⟩

/-- Any uncompressed form of a proof is read as points which represent the proof. -/
theorem multiFromBytesUncompressed_rel {bs : List Byte} {e : MultiProof (ZMod r) BElem} (h : ProofForm bs e) (hL : e.openProof.L.length = 8)
    (hR : e.openProof.R.length = 8) : ∃ p, multiFromBytesUncompressed bs 256 = .ok (some p) ∧ MultiRel Rep p e := by
  obtain ⟨g, l, m, ⟨h1, gp, hg, hgr⟩, h2, h3, rfl⟩ := h
  obtain ⟨lp, hl, hlr⟩ := denotes_coordinates h2
  obtain ⟨mp, hm, hmr⟩ := denotes_coordinates h3
  exact ⟨⟨⟨lp, mp, e.openProof.a⟩, gp⟩, multiFromBytesUncompressed_append ⟨h1, hg⟩ hl hm (hlr.length_eq.trans hL) (hmr.length_eq.trans hR) _,
    ⟨hlr, hmr, rfl⟩, hgr⟩

/-! ### C59 -/

section
variable (K : Ark) (H : List Byte → ZMod r) {ctx : ProofContext} (hctx : ProofContext.new = .ok ctx)
include hctx

/-- **C59** (verifier): for every request, the C function answers `b` exactly when `verify_proof` of the Rust interface
answers `b`; in particular it aborts exactly when that function panics or reports a wrong length. -/
theorem C59_verify (S : Sqrt (ZMod Bander.q)) (input : List Byte) (b : Bool) :
    cVerifyProof K H ctx S input = .ok b ↔ verifyProof (⟨codec, H⟩ : Oracle (ZMod r) BElem) crypto genPt input = .ok (some b) := by
  obtain ⟨hc, hW⟩ := context_rel hctx
  unfold cVerifyProof verifyProof verifierInput
  rw [hW]
  simp only [bind, Except.bind]
  cases Ffi.split 576 input with
  | error m => simp
  | ok s =>
    obtain ⟨pb, qb⟩ := s
    dsimp only
    have hp := multiFromBytes_rel S pb 256
    have hq := RRel.mapM (S := VQueryRel Rep) (f := deserializeVerifierQuery codec (takePoint S))
      (g := deserializeVerifierQuery codec (takeGroupElement codec)) (forall₂_same (chunksExact 65 qb))
      fun x x' _ hx => by subst hx; exact verifierQuery_rel (takePoint_rel S x)
    revert hp hq
    generalize pMultiFromBytes S pb 256 = P1
    generalize multiFromBytes codec pb 256 = P2
    generalize (chunksExact 65 qb).mapM (deserializeVerifierQuery codec (takePoint S)) = Q1
    generalize (chunksExact 65 qb).mapM (deserializeVerifierQuery codec (takeGroupElement codec)) = Q2
    intro hp hq
    by_cases h65 : qb.length % 65 = 0
    · rw [if_neg (not_not.2 h65)]
      rcases P1 with m1 | p1 <;> rcases P2 with m2 | p2
      · rcases Q1 with m1 | q1 <;> simp
      · exact hp.elim
      · exact hp.elim
      · cases hp with
        | none => rcases Q1 with m1 | q1 <;> simp [unwrap]
        | some hp =>
          simp only [unwrap, h65]
          rcases Q1 with m1 | q1 <;> rcases Q2 with m2 | q2
          · simp
          · exact hq.elim
          · exact hq.elim
          · simp only [ne_eq, not_true_eq_false, if_false]
            rw [(ark_sound K H).checkMulti_rel hp hc ctx.W hq]
            cases checkMulti (⟨codec, H⟩ : Oracle (ZMod r) BElem) _ (crsOf crypto genPt) ctx.W q2 (newTranscript (lbl "verkle")) <;> simp
    · rw [if_pos h65]
      rcases P2 with m2 | p2
      · simp
      · rcases p2 with _ | p2 <;> simp [unwrap, h65]

omit hctx in
theorem points_eq {qs : List (ProverQuery (ZMod r) Point)} {qs' : List (ProverQuery (ZMod r) BElem)} (h : List.Forall₂ (PQueryRel Rep) qs qs') :
    qs.map ProverQuery.point = qs'.map ProverQuery.point := by
  induction h with
  | nil => rfl
  | cons hd _ ih => rw [List.map_cons, List.map_cons, ih, hd.2.2.1]

omit hctx in
theorem copyTo_ok {n : ℕ} {bs : List Byte} (h : bs.length = n) : copyTo n bs = .ok bs := if_neg (not_not.2 h)

omit hctx in
/-- The prover makes proofs with eight rounds. -/
theorem open_eight {W : Weights (ZMod r)} {t t' : Transcript} {qs : List (ProverQuery (ZMod r) BElem)} {order : List ℕ}
    {e : MultiProof (ZMod r) BElem} (h : openMulti (⟨codec, H⟩ : Oracle (ZMod r) BElem) (crsOf crypto genPt) W t qs order = .ok (e, t')) :
    e.openProof.L.length = 8 ∧ e.openProof.R.length = 8 := by
  have hg : (crsOf crypto (genPt : BElem)).gens.length = 256 := by simp [crsOf]
  have h8 : Nat.clog 2 256 = 8 := by decide +kernel
  have := openMulti_length _ h
  rwa [hg, h8] at this

/-- **C59** (prover): for every request, the C function writes `bs` exactly when `create_proof` of the Rust interface returns `bs`. -/
theorem C59_create (S : Sqrt (ZMod Bander.q)) (order : List ℕ → List ℕ) (input bs : List Byte) :
    cCreateProof K H ctx S order input = .ok bs ↔
      createProof (⟨codec, H⟩ : Oracle (ZMod r) BElem) crypto genPt (fun qs => order (qs.map ProverQuery.point)) input = .ok (some bs) := by
  obtain ⟨hc, hW⟩ := context_rel hctx
  unfold cCreateProof createProof proverQueries
  rw [hW]
  simp only [bind, Except.bind]
  split
  · simp
  have hq := RRel.mapM (S := PQueryRel Rep) (f := deserializeProofQuery codec (takePoint S))
    (g := deserializeProofQuery codec (takeGroupElement codec)) (forall₂_same (chunksExact 8257 input))
    fun x x' _ hx => by subst hx; exact proofQuery_rel (takePoint_rel S x)
  revert hq
  generalize (chunksExact 8257 input).mapM (deserializeProofQuery codec (takePoint S)) = Q1
  generalize (chunksExact 8257 input).mapM (deserializeProofQuery codec (takeGroupElement codec)) = Q2
  intro hq
  rcases Q1 with m1 | q1 <;> rcases Q2 with m2 | q2
  · simp
  · exact hq.elim
  · exact hq.elim
  · dsimp only
    rw [points_eq hq]
    have ho := (ark_sound K H).openMulti_rel hc ctx.W (newTranscript (lbl "verkle")) hq (order (q2.map ProverQuery.point))
    have h8 := @open_eight H ctx.W (newTranscript (lbl "verkle"))
    revert ho
    generalize pOpenMulti (K.ops H) ctx.crs ctx.W (newTranscript (lbl "verkle")) q1 (order (q2.map ProverQuery.point)) = P1
    cases hP : openMulti (⟨codec, H⟩ : Oracle (ZMod r) BElem) (crsOf crypto genPt) ctx.W (newTranscript (lbl "verkle")) q2
      (order (q2.map ProverQuery.point)) with
    | error m =>
      intro ho
      rcases P1 with m1 | p1
      · simp
      · exact ho.elim
    | ok p2 =>
      intro ho
      rcases P1 with m1 | p1
      · exact ho.elim
      · obtain ⟨e, t'⟩ := p2
        obtain ⟨hL, hR⟩ := h8 hP
        dsimp only
        rw [toBytes_rel ho.1]
        dsimp only
        rw [copyTo_ok (by rw [multiToBytes_length, hL, hR])]
        simp

/-! ### Uncompressed requests -/

omit hctx in
theorem takeUncompressed_append {h : List Byte} {e : BElem} (hd : Denotes h e) :
    ∃ p, Rep p e ∧ ∀ rest, takeUncompressed fromBytesUnchecked (h ++ rest) = .ok (p, rest) := by
  obtain ⟨hl, p, hp, hr⟩ := hd
  refine ⟨p, hr, fun rest => ?_⟩
  unfold takeUncompressed
  rw [split_append hl]
  simp only [bind, Except.bind, hp]

/-- Bytes which are an uncompressed form of a query of the verifier. -/
def QueryForm (c : List Byte) (q : BElem × Byte × ZMod r) : Prop := ∃ h, Denotes h q.1 ∧ c = verifierQueryBytes codec h q.2.1 q.2.2

/-- Bytes which are an uncompressed form of a query of the prover. -/
def ProverForm (c : List Byte) (q : ProverQuery (ZMod r) BElem) : Prop := ∃ h, Denotes h q.commitment ∧ c = proverQueryBytes codec h q

omit hctx in
theorem queryForms_read {cs : List (List Byte)} {qs : List (BElem × Byte × ZMod r)} (h : List.Forall₂ QueryForm cs qs) :
    chunksExact 97 cs.flatten = cs ∧ cs.flatten.length % 97 = 0 ∧
    ∃ ps, cs.mapM (deserializeVerifierQuery codec (takeUncompressed fromBytesUnchecked)) = .ok ps ∧
      List.Forall₂ (VQueryRel Rep) ps (qs.map toQuery) := by
  have hl : ∀ c ∈ cs, c.length = 97 := by
    intro c hc
    obtain ⟨i, hi, rfl⟩ := List.getElem_of_mem hc
    obtain ⟨b, hb, e⟩ := h.get hi (h.length_eq ▸ hi)
    rw [List.get_eq_getElem] at e
    rw [e]
    unfold verifierQueryBytes
    rw [List.length_append, List.length_cons, codec.encS_len, hb.1]
  refine ⟨chunksExact_flatten (by norm_num) hl, ?_, ?_⟩
  · rw [List.length_flatten, List.map_congr_left hl, List.map_const', List.sum_replicate, smul_eq_mul, Nat.mul_mod_left]
  · clear hl
    induction h with
    | nil => exact ⟨[], rfl, .nil⟩
    | @cons c q cs qs hd _ ih =>
      obtain ⟨ps, h1, h2⟩ := ih
      obtain ⟨b, hb, rfl⟩ := hd
      obtain ⟨p, hp, ht⟩ := takeUncompressed_append hb
      refine ⟨⟨p, ((q.2.1.val : ℕ) : ZMod r), q.2.2⟩ :: ps, ?_, .cons ⟨hp, rfl, rfl⟩ h2⟩
      rw [List.mapM_cons, C49_verifier_query codec ht, h1]
      rfl

omit hctx in
theorem proverForms_read {cs : List (List Byte)} {qs : List (ProverQuery (ZMod r) BElem)} (h : List.Forall₂ ProverForm cs qs)
    (hq : ∀ q ∈ qs, Formatted q) :
    chunksExact 8289 cs.flatten = cs ∧ cs.flatten.length % 8289 = 0 ∧
    ∃ ps, cs.mapM (deserializeProofQuery codec (takeUncompressed fromBytesUnchecked)) = .ok ps ∧ List.Forall₂ (PQueryRel Rep) ps qs := by
  have hl : ∀ c ∈ cs, c.length = 8289 := by
    intro c hc
    obtain ⟨i, hi, rfl⟩ := List.getElem_of_mem hc
    obtain ⟨b, hb, e⟩ := h.get hi (h.length_eq ▸ hi)
    have := proverQueryBytes_length codec (head := b.take 32) (by rw [List.length_take, hb.1]; rfl)
      (hq (qs.get ⟨i, h.length_eq ▸ hi⟩) (List.get_mem _ _))
    rw [List.get_eq_getElem] at e
    rw [e]
    unfold proverQueryBytes at this ⊢
    rw [List.length_append, List.length_take, hb.1] at this
    rw [List.length_append, hb.1]
    omega
  refine ⟨chunksExact_flatten (by norm_num) hl, ?_, ?_⟩
  · rw [List.length_flatten, List.map_congr_left hl, List.map_const', List.sum_replicate, smul_eq_mul, Nat.mul_mod_left]
  · clear hl
    induction h with
    | nil => exact ⟨[], rfl, .nil⟩
    | @cons c q cs qs hd _ ih =>
      obtain ⟨ps, h1, h2⟩ := ih fun q hm => hq q (by simp [hm])
      obtain ⟨b, hb, rfl⟩ := hd
      obtain ⟨p, hp, ht⟩ := takeUncompressed_append hb
      have h3 := C49_prover_query codec (q := ⟨p, q.poly, q.point, q.result⟩) ht (hq q (by simp))
      refine ⟨⟨p, q.poly, q.point, q.result⟩ :: ps, ?_, .cons ⟨hp, rfl, rfl, rfl⟩ h2⟩
      have h4 : proverQueryBytes codec b (⟨p, q.poly, q.point, q.result⟩ : ProverQuery (ZMod r) Point) = proverQueryBytes codec b q := rfl
      rw [h4] at h3
      rw [List.mapM_cons, h3, h1]
      rfl

/-- **C59** (uncompressed verifier): whichever point stands for each element, the uncompressed verifier answers like the compressed one. -/
theorem C59_verify_uncompressed (S : Sqrt (ZMod Bander.q)) {e : MultiProof (ZMod r) BElem} (hL : e.openProof.L.length = 8)
    (hR : e.openProof.R.length = 8) {pb : List Byte} (hp : ProofForm pb e) {cs : List (List Byte)} {qs : List (BElem × Byte × ZMod r)}
    (hq : List.Forall₂ QueryForm cs qs) :
    cVerifyProofUncompressed K H ctx (pb ++ cs.flatten) = cVerifyProof K H ctx S (multiToBytes codec e ++ qs.flatMap (queryBytes codec)) := by
  obtain ⟨hc, hW⟩ := context_rel hctx
  obtain ⟨p, h1, h2⟩ := multiFromBytesUncompressed_rel hp hL hR
  obtain ⟨h3, h4, ps, h5, h6⟩ := queryForms_read hq
  have hu : cVerifyProofUncompressed K H ctx (pb ++ cs.flatten) = (checkMulti (⟨codec, H⟩ : Oracle (ZMod r) BElem) e (crsOf crypto genPt) ctx.W
      (qs.map toQuery) (newTranscript (lbl "verkle"))).map Prod.fst := by
    unfold cVerifyProofUncompressed
    rw [split_append (hp.length hL hR)]
    simp only [bind, Except.bind, h4, h3, h5, h1, unwrap, (ark_sound K H).checkMulti_rel h2 hc ctx.W h6]
    cases checkMulti (⟨codec, H⟩ : Oracle (ZMod r) BElem) e (crsOf crypto genPt) ctx.W (qs.map toQuery) (newTranscript (lbl "verkle")) <;> rfl
  have hlen : (multiToBytes codec e).length = 576 := by rw [multiToBytes_length, hL, hR]
  obtain ⟨h7, h8⟩ := chunks_of_map (n := 65) (by norm_num) (l := qs) (f := queryBytes codec)
    fun q _ => verifierQueryBytes_length codec (codec.encE_len _) _ _
  have hv := C49_verifier codec hL hR qs
  have hb := C59_verify K H hctx S (multiToBytes codec e ++ qs.flatMap (queryBytes codec))
  have hm := multiFromBytes_rel S (multiToBytes codec e) 256
  have hqr := RRel.mapM (S := VQueryRel Rep) (f := deserializeVerifierQuery codec (takePoint S))
    (g := deserializeVerifierQuery codec (takeGroupElement codec)) (forall₂_same (qs.map (queryBytes codec)))
    fun x x' _ hx => by subst hx; exact verifierQuery_rel (takePoint_rel S x)
  unfold verifierInput at hv
  rw [split_append hlen] at hv
  simp only [bind, Except.bind, h8, h7] at hv
  rw [hu]
  unfold cVerifyProof
  rw [split_append hlen]
  simp only [bind, Except.bind, h8, h7, ne_eq, not_true_eq_false, if_false]
  simp only [ne_eq, not_true_eq_false, if_false] at hv
  revert hm hqr hv
  generalize pMultiFromBytes S (multiToBytes codec e) 256 = P1
  generalize multiFromBytes codec (multiToBytes codec e) 256 = P2
  generalize (qs.map (queryBytes codec)).mapM (deserializeVerifierQuery codec (takePoint S)) = Q1
  generalize (qs.map (queryBytes codec)).mapM (deserializeVerifierQuery codec (takeGroupElement codec)) = Q2
  intro hm hqr hv
  rcases P2 with m2 | p2
  · cases hv
  rcases p2 with _ | p2
  · cases hv
  rcases Q2 with m2 | q2
  · cases hv
  simp only [unwrap] at hv
  injection hv with hv
  injection hv with hv
  injection hv with hv1 hv2
  subst hv1
  subst hv2
  rcases P1 with m1 | p1
  · exact hm.elim
  rcases Q1 with m1 | q1
  · exact hqr.elim
  cases hm with
  | some hm =>
    simp only [unwrap]
    rw [(ark_sound K H).checkMulti_rel hm hc ctx.W hqr]
    cases checkMulti (⟨codec, H⟩ : Oracle (ZMod r) BElem) p2 (crsOf crypto genPt) ctx.W (qs.map toQuery) (newTranscript (lbl "verkle")) <;> rfl

/-- **C59** (uncompressed prover): for formatted queries, whichever points stand for the commitments, the uncompressed prover writes an uncompressed
form of the very proof which the compressed prover writes, and panics when that one panics. -/
theorem C59_create_uncompressed (S : Sqrt (ZMod Bander.q)) (order : List ℕ → List ℕ) {cs : List (List Byte)}
    {qs : List (ProverQuery (ZMod r) BElem)} (hq : List.Forall₂ ProverForm cs qs) (hf : ∀ q ∈ qs, Formatted q) :
    RRel (fun out bs => ∃ e : MultiProof (ZMod r) BElem, e.openProof.L.length = 8 ∧ e.openProof.R.length = 8 ∧ bs = multiToBytes codec e ∧
        ProofForm out e) (cCreateProofUncompressed K H ctx order cs.flatten)
      (cCreateProof K H ctx S order (qs.flatMap fun q => proverQueryBytes codec (codec.encE q.commitment) q)) := by
  obtain ⟨hc, hW⟩ := context_rel hctx
  obtain ⟨h3, h4, ps, h5, h6⟩ := proverForms_read hq hf
  obtain ⟨h7, h8⟩ := chunks_of_map (n := 8257) (by norm_num) (l := qs) (f := fun q => proverQueryBytes codec (codec.encE q.commitment) q)
    fun q h => proverQueryBytes_length codec (codec.encE_len _) (hf q h)
  have hv := C49_prover codec hf
  have hqr := RRel.mapM (S := PQueryRel Rep) (f := deserializeProofQuery codec (takePoint S))
    (g := deserializeProofQuery codec (takeGroupElement codec))
    (forall₂_same (qs.map fun q => proverQueryBytes codec (codec.encE q.commitment) q))
    fun x x' _ hx => by subst hx; exact proofQuery_rel (takePoint_rel S x)
  unfold proverQueries at hv
  rw [h7, h8] at hv
  unfold cCreateProofUncompressed cCreateProof
  rw [h3, h4, h7, h8, h5]
  simp only [bind, Except.bind, ne_eq, not_true_eq_false, if_false] at hv ⊢
  revert hqr hv
  generalize (qs.map fun q => proverQueryBytes codec (codec.encE q.commitment) q).mapM (deserializeProofQuery codec (takePoint S)) = Q1
  generalize (qs.map fun q => proverQueryBytes codec (codec.encE q.commitment) q).mapM
    (deserializeProofQuery codec (takeGroupElement codec)) = Q2
  intro hqr hv
  rcases Q2 with m2 | q2
  · cases hv
  injection hv with hv
  injection hv with hv
  subst hv
  rcases Q1 with m1 | q1
  · exact hqr.elim
  dsimp only
  rw [points_eq hqr, points_eq h6]
  have ho1 := (ark_sound K H).openMulti_rel hc ctx.W (newTranscript (lbl "verkle")) h6 (order (q2.map ProverQuery.point))
  have ho2 := (ark_sound K H).openMulti_rel hc ctx.W (newTranscript (lbl "verkle")) hqr (order (q2.map ProverQuery.point))
  have h8 := @open_eight H ctx.W (newTranscript (lbl "verkle"))
  revert ho1 ho2
  generalize pOpenMulti (K.ops H) ctx.crs ctx.W (newTranscript (lbl "verkle")) q1 (order (q2.map ProverQuery.point)) = P1
  generalize pOpenMulti (K.ops H) ctx.crs ctx.W (newTranscript (lbl "verkle")) ps (order (q2.map ProverQuery.point)) = P2
  cases hP : openMulti (⟨codec, H⟩ : Oracle (ZMod r) BElem) (crsOf crypto genPt) ctx.W (newTranscript (lbl "verkle")) q2
    (order (q2.map ProverQuery.point)) with
  | error m =>
    intro ho1 ho2
    rcases P1 with m1 | p1
    · rcases P2 with m2 | p2
      · exact ho1.trans ho2.symm
      · exact ho1.elim
    · exact ho2.elim
  | ok x =>
    intro ho1 ho2
    obtain ⟨e, t'⟩ := x
    obtain ⟨hL, hR⟩ := h8 hP
    rcases P1 with m1 | p1
    · exact ho2.elim
    rcases P2 with m2 | p2
    · exact ho1.elim
    dsimp only
    obtain ⟨out, h9, h10⟩ := uncompressed_rel ho1.1
    rw [toBytes_rel ho2.1, h9]
    dsimp only
    rw [copyTo_ok (bs := out) (h10.length hL hR), copyTo_ok (bs := multiToBytes codec e) (by rw [multiToBytes_length, hL, hR])]
    exact ⟨e, hL, hR, rfl, h10⟩

/-- **C59** (honest use): for true openings of formatted queries, what the C prover writes is accepted by the C verifier for the same statements,
in the compressed format and in the uncompressed one, unless the challenge falls on the domain. -/
theorem C59_honest (S : Sqrt (ZMod Bander.q)) {order : List ℕ → List ℕ} (ho : ∀ l, (order l).Nodup ∧ ∀ p, p ∈ order l ↔ p ∈ l)
    {qs : List (ProverQuery (ZMod r) BElem)} (hne : qs ≠ []) (hf : ∀ q ∈ qs, Formatted q) (ht : ∀ q ∈ qs, TrueOpening (crsOf crypto genPt) q) :
    (∀ bs, cCreateProof K H ctx S order (qs.flatMap fun q => proverQueryBytes codec (codec.encE q.commitment) q) = .ok bs →
      (∀ p, multiToBytes codec p = bs → ∀ i : ℕ, i < 256 →
        challengeT (⟨codec, H⟩ : Oracle (ZMod r) BElem) (lbl "verkle") (qs.map ProverQuery.toVerifier) p.gx ≠ (i : ZMod r)) →
      cVerifyProof K H ctx S (bs ++ qs.flatMap fun q => queryBytes codec (q.commitment, asU8 q.point, q.result)) = .ok true) ∧
    ∀ cs vs out, List.Forall₂ ProverForm cs qs → List.Forall₂ QueryForm vs (qs.map fun q => (q.commitment, asU8 q.point, q.result)) →
      cCreateProofUncompressed K H ctx order cs.flatten = .ok out →
      (∀ p, ProofForm out p → ∀ i : ℕ, i < 256 →
        challengeT (⟨codec, H⟩ : Oracle (ZMod r) BElem) (lbl "verkle") (qs.map ProverQuery.toVerifier) p.gx ≠ (i : ZMod r)) →
      cVerifyProofUncompressed K H ctx (out ++ vs.flatten) = .ok true := by
  have hord : ∀ qs : List (ProverQuery (ZMod r) BElem), IsOrder qs (order (qs.map ProverQuery.point)) := fun qs =>
    ⟨(ho _).1, fun p => ((ho _).2 p).trans List.mem_map⟩
  have h1 : ∀ bs, cCreateProof K H ctx S order (qs.flatMap fun q => proverQueryBytes codec (codec.encE q.commitment) q) = .ok bs →
      (∀ p, multiToBytes codec p = bs → ∀ i : ℕ, i < 256 →
        challengeT (⟨codec, H⟩ : Oracle (ZMod r) BElem) (lbl "verkle") (qs.map ProverQuery.toVerifier) p.gx ≠ (i : ZMod r)) →
      cVerifyProof K H ctx S (bs ++ qs.flatMap fun q => queryBytes codec (q.commitment, asU8 q.point, q.result)) = .ok true := by
    intro bs hb htt
    exact (C59_verify K H hctx S _ _).2 (C49_end_to_end (⟨codec, H⟩ : Oracle (ZMod r) BElem) crypto genPt hord C52_scalar_field.2.1 hne hf ht
      ((C59_create K H hctx S order _ _).1 hb) htt)
  refine ⟨h1, fun cs vs out hcs hvs hb htt => ?_⟩
  have h2 := C59_create_uncompressed K H hctx S order hcs hf
  rw [hb] at h2
  cases hb' : cCreateProof K H ctx S order (qs.flatMap fun q => proverQueryBytes codec (codec.encE q.commitment) q) with
  | error m => rw [hb'] at h2; exact h2.elim
  | ok bs =>
    rw [hb'] at h2
    obtain ⟨e, hL, hR, rfl, hform⟩ := h2
    rw [C59_verify_uncompressed K H hctx S hL hR hform hvs, List.flatMap_map]
    refine h1 _ hb' fun p hp => ?_
    have hinj : p.gx = e.gx := by
      unfold multiToBytes at hp
      have := (List.append_inj hp (by rw [codec.encE_len, codec.encE_len])).1
      have h3 := codec.dec_encE p.gx
      rw [this, codec.dec_encE] at h3
      exact (Option.some.inj h3).symm
    rw [hinj]
    exact htt e hform

/-- **C59** (honest use): both provers write a proof when no challenge is zero. -/
theorem C59_proof_created (S : Sqrt (ZMod Bander.q)) {order : List ℕ → List ℕ} (ho : ∀ l, (order l).Nodup ∧ ∀ p, p ∈ order l ↔ p ∈ l)
    {qs : List (ProverQuery (ZMod r) BElem)} (hne : qs ≠ []) (hf : ∀ q ∈ qs, Formatted q) (ht : ∀ q ∈ qs, TrueOpening (crsOf crypto genPt) q)
    (hH : ∀ s, H s ≠ 0) :
    (∃ bs, cCreateProof K H ctx S order (qs.flatMap fun q => proverQueryBytes codec (codec.encE q.commitment) q) = .ok bs) ∧
    ∀ cs, List.Forall₂ ProverForm cs qs → ∃ out, cCreateProofUncompressed K H ctx order cs.flatten = .ok out := by
  obtain ⟨bs, h1, -⟩ := C49_proof_created (⟨codec, H⟩ : Oracle (ZMod r) BElem) crypto genPt
    (order := fun qs => order (qs.map ProverQuery.point)) (fun qs => ⟨(ho _).1, fun p => ((ho _).2 p).trans List.mem_map⟩)
    C52_scalar_field.2.1 hne hf ht hH
  have h2 := (C59_create K H hctx S order _ _).2 h1
  refine ⟨⟨bs, h2⟩, fun cs hcs => ?_⟩
  have h3 := C59_create_uncompressed K H hctx S order hcs hf
  rw [h2] at h3
  cases hc : cCreateProofUncompressed K H ctx order cs.flatten with
  | error m => rw [hc] at h3; exact h3.elim
  | ok out => exact ⟨out, rfl⟩

end

/-- C59: the uncompressed reader does not check that what it reads are points of the group, or of the curve at all. -/
theorem C59_unchecked : ∃ bs p, bs.length = 1120 ∧ multiFromBytesUncompressed bs 256 = .ok (some p) ∧
    (¬ ∃ e, MultiRel Rep p e) ∧ ¬ OnCurve coeffA coeffD (p.gx.x / p.gx.z) (p.gx.y / p.gx.z) := by
  have hz : Coordinates (serFq (0 : ZMod Bander.q) ++ serFq (0 : ZMod Bander.q)) ⟨0, 0, 0, 1⟩ := by
    have h3 := deFq_serFq q_lt (0 : ZMod Bander.q) []
    rw [List.append_nil] at h3
    refine ⟨by rw [List.length_append, serFq_length], ?_⟩
    unfold fromBytesUnchecked
    rw [List.take_left' (serFq_length _), List.drop_left' (serFq_length _), h3]
    simp
  have hall : ∀ n : ℕ, List.Forall₂ Coordinates (List.replicate n (serFq (0 : ZMod Bander.q) ++ serFq (0 : ZMod Bander.q)))
      (List.replicate n (⟨0, 0, 0, 1⟩ : Point)) := by
    intro n
    induction n with
    | zero => exact .nil
    | succ n ih => exact .cons hz ih
  have hnot : ¬ OnCurve coeffA coeffD ((0 : ZMod Bander.q) / 1) (0 / 1) := by
    unfold OnCurve
    simp
  refine ⟨_, _, ?_, multiFromBytesUncompressed_append hz (hall 8) (hall 8) (by simp) (by simp) 0, ?_, hnot⟩
  · simp only [List.length_append, List.length_flatten, List.map_replicate, List.sum_replicate, serFq_length, codec.encS_len]
    rfl
  · rintro ⟨e, -, h⟩
    exact hnot h.1.on

/-! ### C60 -/

section
variable {ctx : Context}

theorem mapM_unwrap {α β : Type} (m : String) (f : α → Option β) : ∀ l : List α,
    (l.mapM fun x => unwrap m (f x)) = unwrap m (l.mapM f)
  | [] => rfl
  | x :: l => by
    rw [List.mapM_cons, List.mapM_cons, mapM_unwrap m f l]
    cases f x with
    | none => rfl
    | some y => cases l.mapM f <;> rfl

theorem chunks_drop (input : List Byte) : ∃ body extra, extra.length < 32 ∧ body.length % 32 = 0 ∧ input = body ++ extra ∧
    chunksExact 32 input = chunksExact 32 body := by
  have hd := Nat.div_add_mod input.length 32
  have hm := Nat.mod_lt input.length (y := 32) (by norm_num)
  refine ⟨input.take (32 * (input.length / 32)), input.drop (32 * (input.length / 32)), by rw [List.length_drop]; omega,
    by rw [List.length_take, Nat.min_eq_left (by omega), Nat.mul_mod_right], (List.take_append_drop _ _).symm, ?_⟩
  unfold chunksExact
  rw [List.length_take, Nat.min_eq_left (by omega), Nat.mul_div_cancel_left _ (by norm_num)]
  apply List.map_congr_left
  intro i hi
  have hi := List.mem_range.1 hi
  rw [List.drop_take, List.take_take, Nat.min_eq_left]
  omega

/-- **C60** (commitments): on the encodings of any scalars, whatever their number, followed by less than a scalar, the C function writes
the compressed commitment to the vector of the first 256; on anything else it aborts. -/
theorem C60_msm_partial (h : Context.Ok ctx) (input : List Byte) :
    (∀ (v : List (ZMod r)) (extra : List Byte), extra.length < 32 → input = v.flatMap codec.encS ++ extra →
      cMultiScalarMul ctx input = .ok (codec.encE (Spec.commit crypto (padded v)))) ∧
    ((¬ ∃ (v : List (ZMod r)) (extra : List Byte), extra.length < 32 ∧ input = v.flatMap codec.encS ++ extra) →
      ∃ m, cMultiScalarMul ctx input = .error m) := by
  obtain ⟨body, extra, h1, h2, h3, h4⟩ := chunks_drop input
  have h5 : cMultiScalarMul ctx input = (unwrap "called unwrap on Err" (readScalars body)).bind fun inputs =>
      (ctx.P.commitLagrange inputs).bind fun data => data.toBytes := by
    unfold cMultiScalarMul readScalars
    rw [h4, mapM_unwrap]
    rfl
  constructor
  · intro v extra' h6 h7
    have hlen : (v.flatMap codec.encS).length = v.length * 32 := by
      rw [List.length_flatMap, List.map_congr_left (g := fun _ => 32) fun x _ => codec.encS_len x, List.map_const', List.sum_replicate]
      rfl
    have h8 : body = v.flatMap codec.encS := by
      have hl := congrArg List.length (h3.symm.trans h7)
      rw [List.length_append, List.length_append, hlen] at hl
      exact (List.append_inj (h3.symm.trans h7) (by rw [hlen]; omega)).1
    rw [h5, h8, readScalars_enc]
    obtain ⟨p, hp, hr⟩ := h.commit_any v
    show (ctx.P.commitLagrange v).bind _ = _
    rw [hp]
    exact hr.toBytes
  · intro hno
    rw [h5]
    cases hs : readScalars body with
    | none => exact ⟨_, rfl⟩
    | some v => exact absurd ⟨v, extra, h1, by rw [h3, readScalars_some h2 hs]⟩ hno

/-- C60: what the Rust interface refuses, the C function accepts: a cut-off scalar and a 257th scalar are ignored. -/
theorem C60_full_claim_false (h : Context.Ok ctx) :
    (∃ input, commitToScalars ctx input = .ok none ∧ input.length % 32 ≠ 0 ∧ ∃ bs, cMultiScalarMul ctx input = .ok bs) ∧
    ∃ v w : List (ZMod r), v ≠ w ∧ v.length = 257 ∧ w.length = 257 ∧ commitToScalars ctx (v.flatMap codec.encS) = .ok none ∧
      ∃ bs, cMultiScalarMul ctx (v.flatMap codec.encS) = .ok bs ∧ cMultiScalarMul ctx (w.flatMap codec.encS) = .ok bs := by
  have hlen : ∀ v : List (ZMod r), (v.flatMap codec.encS).length = v.length * 32 := by
    intro v
    rw [List.length_flatMap, List.map_congr_left (g := fun _ => 32) fun x _ => codec.encS_len x, List.map_const', List.sum_replicate]
    rfl
  constructor
  · refine ⟨([5] : List (ZMod r)).flatMap codec.encS ++ [7], (C50_commit h).2 _ ?_, ?_, _, (C60_msm_partial h _).1 [5] [7] (by simp) rfl⟩
    · rintro ⟨v, -, hv⟩
      have := congrArg List.length hv
      rw [List.length_append, hlen, hlen, List.length_singleton, List.length_singleton] at this
      omega
    · rw [List.length_append, hlen]
      decide
  · have h257 : ∀ x : ZMod r, (List.replicate 256 (1 : ZMod r) ++ [x]).length = 257 := fun x => by
      rw [List.length_append, List.length_replicate, List.length_singleton]
    refine ⟨List.replicate 256 1 ++ [1], List.replicate 256 1 ++ [2], ?_, h257 1, h257 2, (C50_commit h).2 _ ?_, _,
      (C60_msm_partial h _).1 _ [] (by simp) (List.append_nil _).symm, ?_⟩
    · intro he
      have := List.append_cancel_left he
      injection this with this
      revert this
      decide +kernel
    · rintro ⟨v, hv, he⟩
      have := congrArg List.length he
      rw [hlen, hlen, List.length_append, List.length_replicate, List.length_singleton] at this
      omega
    · rw [(C60_msm_partial h _).1 (List.replicate 256 1 ++ [2]) [] (by simp) (List.append_nil _).symm]
      have hpad : padded (List.replicate 256 1 ++ [2]) = padded (List.replicate 256 1 ++ [1]) := by
        funext i
        unfold padded
        rw [List.getD_append _ _ _ _ (by rw [List.length_replicate]; exact i.isLt), List.getD_append _ _ _ _ (by rw [List.length_replicate]; exact i.isLt)]
      rw [hpad]

/-- **C60** (agreement): where the Rust interface commits, the C function writes the compressed form of the same commitment. -/
theorem C60_same (h : Context.Ok ctx) {input bs : List Byte} (hb : commitToScalars ctx input = .ok (some bs)) :
    ∃ c, serializeCommitment bs = .ok c ∧ cMultiScalarMul ctx input = .ok c := by
  by_cases hv : ∃ v : List (ZMod r), v.length ≤ 256 ∧ input = v.flatMap codec.encS
  · obtain ⟨v, hv, rfl⟩ := hv
    obtain ⟨bs', h1, h2⟩ := (C50_commit h).1 v hv
    rw [hb] at h1
    injection h1 with h1
    injection h1 with h1
    subst h1
    exact ⟨_, (C54_hash h2).2, (C60_msm_partial h _).1 v [] (by simp) (List.append_nil _).symm⟩
  · rw [(C50_commit h).2 input hv] at hb
    cases hb

/-- **C60** (Pedersen hash): with no null pointer the C function writes the 32 bytes of the hash of EIP-6800 of address and index; with a null pointer
it writes nothing. -/
theorem C60_pedersen (h : Context.Ok ctx) (c : Option Context) (a i : Option (Bytes 32)) (out : Bool) :
    (∀ address index, c = some ctx → a = some address → i = some index → out = true → cPedersenHash c a i out =
      .ok (some (Eip.hash64 crypto codec ⟨address.1 ++ index.1, by rw [List.length_append, address.2, index.2]⟩).1)) ∧
    (c = none ∨ a = none ∨ i = none ∨ out = false → cPedersenHash c a i out = .ok none) := by
  constructor
  · rintro address index rfl rfl rfl rfl
    obtain ⟨x, y, z, hash, -, -, -, -, h1, h2, -⟩ := C50_tree_key h address index
    show (getTreeKeyHash ctx address index).bind _ = _
    rw [h1, h2]
    rfl
  · rintro (h | h | h | h) <;> subst h
    · rfl
    · cases c <;> rfl
    · cases c <;> cases a <;> rfl
    · cases c <;> cases a <;> cases i <;> rfl

end

/-! ### The hypotheses can be met -/

/-- Negation, `/repo/banderwagon/src/trait_impls/ops.rs:43-49`. -/
def negPoint (p : Point) : Point := ⟨-p.x, p.y, -p.t, p.z⟩

theorem negPoint_rep {p : Point} {e : BElem} (h : Rep p e) : Rep (negPoint p) (-e) := by
  refine h.neg ⟨h.1.1, ?_, ?_⟩ (neg_div _ _) rfl
  · show -p.t * p.z = -p.x * p.y
    rw [neg_mul, neg_mul, h.1.t]
  · show OnCurve coeffA coeffD (-p.x / p.z) (p.y / p.z)
    have := h.1.on
    unfold OnCurve at this ⊢
    rwa [neg_div, neg_sq]

/-- Repeated addition. -/
def mulNat (p : Point) : ℕ → Point
  | 0 => zeroPoint
  | n + 1 => hwcdAdd (mulNat p n) p

theorem hwcd_rep {p p' : Point} {e e' : BElem} (h : Rep p e) (h' : Rep p' e') : Rep (hwcdAdd p p') (e + e') :=
  Arith.represents ⟨hwcdAdd, hwcd_spec⟩ h h'

theorem mulNat_rep {p : Point} {e : BElem} (h : Rep p e) : ∀ n : ℕ, Rep (mulNat p n) (n • e)
  | 0 => by rw [zero_nsmul]; exact Represents.zero
  | n + 1 => by rw [succ_nsmul]; exact hwcd_rep (mulNat_rep h n) h

theorem smul_rep (c : ZMod r) {p : Point} {e : BElem} (h : Rep p e) : Rep (mulNat p c.val) (c • e) := by
  have : c • e = c.val • e := by rw [← Nat.cast_smul_eq_nsmul (ZMod r), ZMod.natCast_zmod_val]
  rw [this]
  exact mulNat_rep h _

/-- There are operations which meet the contract: the addition formulas for extended coordinates and what can be built from them. -/
theorem exists_ark : ∃ K : Ark, K.A.add = hwcdAdd := by
  refine ⟨⟨⟨hwcdAdd, hwcd_spec⟩, fun p p' => hwcdAdd p (negPoint p'), fun c p => mulNat p c.val,
    fun s ps => (List.zipWith (fun c p => mulNat p c.val) s ps).foldr hwcdAdd zeroPoint, ?_, ?_, ?_⟩, rfl⟩
  · intro p p' e e' h h'
    rw [sub_eq_add_neg]
    exact hwcd_rep h (negPoint_rep h')
  · intro c p e h
    exact smul_rep c h
  · intro s ps es hl h
    clear hl
    unfold lin
    induction h generalizing s with
    | nil => rw [List.zipWith_nil_right, List.zipWith_nil_right]; exact Represents.zero
    | cons hd _ ih =>
      cases s with
      | nil => exact Represents.zero
      | cons c s =>
        rw [List.zipWith_cons_cons, List.zipWith_cons_cons, List.foldr_cons, List.sum_cons]
        exact hwcd_rep (smul_rep c hd) (ih s)

theorem thousand (i : ℕ) (hi : i < 256) : (1000 : ZMod r) ≠ (i : ZMod r) := by
  intro h
  have h2 := (ZMod.natCast_eq_natCast_iff' 1000 i r).1 (by exact_mod_cast h)
  have hr : 1000 < r := by decide +kernel
  rw [Nat.mod_eq_of_lt hr, Nat.mod_eq_of_lt (by omega)] at h2
  omega

/-- The opening of a vector at a point. -/
noncomputable def openingOf (v : List (ZMod r)) (z : ℕ) : ProverQuery (ZMod r) BElem :=
  ⟨(List.zipWith (· • ·) v (crsOf crypto (genPt : BElem)).gens).sum, v, z, v.getD z 0⟩

theorem openingOf_ok {v : List (ZMod r)} {z : ℕ} (hv : v.length = 256) (hz : z < 256) :
    Formatted (openingOf v z) ∧ TrueOpening (crsOf crypto genPt) (openingOf v z) :=
  ⟨⟨hv, hz⟩, hv.le, hz, rfl, rfl⟩

/-- The openings of the vector of ones at 3, and of the vector `1, 2, …, 256` at 200. -/
noncomputable def sampleQueries : List (ProverQuery (ZMod r) BElem) :=
  [openingOf (List.replicate 256 1) 3, openingOf ((List.range 256).map fun i : ℕ => (((i + 1 : ℕ)) : ZMod r)) 200]

theorem sampleQueries_ok : (∀ q ∈ sampleQueries, Formatted q) ∧ ∀ q ∈ sampleQueries, TrueOpening (crsOf crypto genPt) q := by
  have h : ∀ q ∈ sampleQueries, Formatted q ∧ TrueOpening (crsOf crypto genPt) q := by
    intro q hq
    unfold sampleQueries at hq
    rw [List.mem_cons, List.mem_singleton] at hq
    rcases hq with rfl | rfl
    · exact openingOf_ok List.length_replicate (by norm_num)
    · exact openingOf_ok (by rw [List.length_map, List.length_range]) (by norm_num)
  exact ⟨fun q hq => (h q hq).1, fun q hq => (h q hq).2⟩

/-- Both formats, with the extended addition formulas and a constant hash: the proof of the two openings is created and accepted. -/
example : ∃ (K : Ark) (ctx : ProofContext) (S : Sqrt (ZMod Bander.q)) (bs : List Byte), ProofContext.new = .ok ctx ∧
    cCreateProof K (fun _ => 1000) ctx S List.dedup (sampleQueries.flatMap fun q => proverQueryBytes codec (codec.encE q.commitment) q) = .ok bs ∧
    cVerifyProof K (fun _ => 1000) ctx S (bs ++ sampleQueries.flatMap fun q => queryBytes codec (q.commitment, asU8 q.point, q.result)) =
      .ok true ∧
    ∃ cs vs out, List.Forall₂ ProverForm cs sampleQueries ∧
      List.Forall₂ QueryForm vs (sampleQueries.map fun q => (q.commitment, asU8 q.point, q.result)) ∧
      cCreateProofUncompressed K (fun _ => 1000) ctx List.dedup cs.flatten = .ok out ∧
      cVerifyProofUncompressed K (fun _ => 1000) ctx (out ++ vs.flatten) = .ok true := by
  obtain ⟨K, -⟩ := exists_ark
  obtain ⟨ctx, hctx, -⟩ := C59_context
  obtain ⟨hf, ht⟩ := sampleQueries_ok
  have hne : sampleQueries ≠ [] := List.cons_ne_nil _ _
  have ho : ∀ l : List ℕ, l.dedup.Nodup ∧ ∀ p, p ∈ l.dedup ↔ p ∈ l := fun l => ⟨l.nodup_dedup, fun p => List.mem_dedup⟩
  have h1000 : (1000 : ZMod r) ≠ 0 := by simpa using thousand 0 (by norm_num)
  obtain ⟨⟨bs, hb⟩, hu⟩ := C59_proof_created K (fun _ => (1000 : ZMod r)) hctx (someSqrt _) ho hne hf ht fun _ => h1000
  obtain ⟨hv, hvu⟩ := C59_honest K (fun _ => (1000 : ZMod r)) hctx (someSqrt _) ho hne hf ht
  have hcs : ∀ qs : List (ProverQuery (ZMod r) BElem), ∃ cs, List.Forall₂ ProverForm cs qs := by
    intro qs
    induction qs with
    | nil => exact ⟨[], .nil⟩
    | cons q qs ih =>
      obtain ⟨cs, h⟩ := ih
      obtain ⟨b, hb⟩ := exists_denotes q.commitment
      exact ⟨_ :: cs, .cons ⟨b, hb, rfl⟩ h⟩
  have hvs : ∀ qs : List (BElem × Byte × ZMod r), ∃ cs, List.Forall₂ QueryForm cs qs := by
    intro qs
    induction qs with
    | nil => exact ⟨[], .nil⟩
    | cons q qs ih =>
      obtain ⟨cs, h⟩ := ih
      obtain ⟨b, hb⟩ := exists_denotes q.1
      exact ⟨_ :: cs, .cons ⟨b, hb, rfl⟩ h⟩
  obtain ⟨cs, hcs⟩ := hcs sampleQueries
  obtain ⟨vs, hvs⟩ := hvs (sampleQueries.map fun q => (q.commitment, asU8 q.point, q.result))
  obtain ⟨out, ho⟩ := hu cs hcs
  exact ⟨K, ctx, (someSqrt _), bs, hctx, hb, hv bs hb fun p _ i hi => thousand i hi, cs, vs, out, hcs, hvs, ho,
    hvu cs vs out hcs hvs ho fun p _ i hi => thousand i hi⟩

/-- Three scalars and a piece of a fourth. -/
example : ∃ ctx : Context, Context.Ok ctx ∧ cMultiScalarMul ctx (([1, 2, 3] : List (ZMod r)).flatMap codec.encS ++ [9, 9]) =
    .ok (codec.encE (Spec.commit crypto (padded [1, 2, 3]))) := by
  obtain ⟨ctx, h, -⟩ := exists_context
  exact ⟨ctx, h, (C60_msm_partial h _).1 [1, 2, 3] [9, 9] (by simp) rfl⟩

end Verif.Props
