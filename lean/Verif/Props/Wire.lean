import Verif.Wire.Lemmas
import Verif.Props.Proof

/-!
# Properties of the byte formats: C24, C25, C33
-/

set_option autoImplicit false

namespace Verif.Props
open Verif.Spec Verif.Trie Verif.Proof Verif.Wire BOrd
open scoped Classical

/-! ### C25 -/

/-- The bytes holding a list of stems and a list of packed bytes, as written by `VerificationHint::write`. -/
def hintBytes (stems : List Stem) (body : List Byte) : List Byte :=
  leBytes 4 stems.length ++ stems.flatMap Subtype.val ++ leBytes 4 body.length ++ body

/-- `bs` starts with the complete bytes of `stems` and `body`, followed by `rest`. -/
def Framed (bs : List Byte) (stems : List Stem) (body rest : List Byte) : Prop :=
  stems.length < 2 ^ 32 ∧ body.length < 2 ^ 32 ∧ bs = hintBytes stems body ++ rest

/-- C25, first half of the claim, is false: nine bytes on which the decoder panics. -/
theorem C25_panics : ∃ (bs : List Byte) (e : Panic), readHint bs = .error e :=
  ⟨[0, 0, 0, 0, 1, 0, 0, 0, 3], "unexpected ext status number", by decide +kernel⟩

/-- C25, second half of the claim, is false: bit 2 of a packed byte is ignored, and so is the order of the stems (and repeated
stems). -/
theorem C25_not_injective :
    (∃ (a b : List Byte) (h : VerificationHint), a ≠ b ∧ readHint a = .ok (some (h, [])) ∧ readHint b = .ok (some (h, []))
      ∧ a.length = b.length ∧ h.depths ≠ []) ∧
    ∃ (a b c : List Byte) (h : VerificationHint), a ≠ b ∧ a.length ≠ c.length ∧ readHint a = .ok (some (h, [])) ∧
      readHint b = .ok (some (h, [])) ∧ readHint c = .ok (some (h, [])) := by
  refine ⟨⟨[0, 0, 0, 0, 1, 0, 0, 0, 10], [0, 0, 0, 0, 1, 0, 0, 0, 14], ⟨[1], [.present], []⟩, by decide, by decide +kernel,
    by decide +kernel, rfl, by decide⟩,
    ⟨[2, 0, 0, 0] ++ List.replicate 31 1 ++ List.replicate 31 2 ++ [0, 0, 0, 0],
     [2, 0, 0, 0] ++ List.replicate 31 2 ++ List.replicate 31 1 ++ [0, 0, 0, 0],
     [3, 0, 0, 0] ++ List.replicate 31 1 ++ List.replicate 31 2 ++ List.replicate 31 2 ++ [0, 0, 0, 0],
     ⟨[], [], [⟨List.replicate 31 1, rfl⟩, ⟨List.replicate 31 2, rfl⟩]⟩, by decide, by decide, by decide +kernel, by decide +kernel,
     by decide +kernel⟩⟩

/-- C25 (what holds, 1).  Exactly when decoding panics: the input frames a hint with a packed byte whose two low bits are both
set.  Exactly when it is an error: the input is too short for the lengths it announces.  Otherwise it is a value, and the
bytes left over are those behind the frame. -/
theorem C25_outcome_partial (bs : List Byte) :
    ((∃ e, readHint bs = .error e) ↔ ∃ stems body rest, Framed bs stems body rest ∧ ∃ b ∈ body, b.val % 4 = 3) ∧
    (readHint bs = .ok none ↔ ¬ ∃ stems body rest, Framed bs stems body rest) ∧
    (∀ h rest, readHint bs = .ok (some (h, rest)) ↔ ∃ stems body, Framed bs stems body rest ∧ (∀ b ∈ body, b.val % 4 ≠ 3) ∧
      h.depths.map Fin.val = body.map (fun b => b.val / 8) ∧
      h.extensionPresent.map statusNum = body.map (fun b => b.val % 4) ∧
      Ascending h.diffStemNoProof ∧ ∀ s, s ∈ h.diffStemNoProof ↔ s ∈ stems) := by
  have hdep : ∀ b : Byte, (depthOf b).val = b.val / 8 := fun b => by
    have := b.isLt
    rw [depthOf, Wire.asU8_val]; omega
  have hst : ∀ b : Byte, b.val % 4 ≠ 3 → statusNum (statusOf b) = b.val % 4 := fun b h3 => by
    unfold statusOf
    have h4 : b.val % 4 < 4 := Nat.mod_lt _ (by omega)
    generalize b.val % 4 = x at h3 h4
    interval_cases x <;> first | rfl | omega
  refine ⟨?_, ?_, fun h rest => ?_⟩
  · rw [readHint_error_iff]
    constructor
    · rintro ⟨s, b, r, h1, h2, h3, h4⟩; exact ⟨s, b, r, ⟨h1, h2, h3⟩, h4⟩
    · rintro ⟨s, b, r, ⟨h1, h2, h3⟩, h4⟩; exact ⟨s, b, r, h1, h2, h3, h4⟩
  · constructor
    · rintro hn ⟨s, b, r, h1, h2, rfl⟩
      have := readHint_frame h1 h2 r
      rw [show hintBytes s b ++ r = frame s b ++ r from rfl] at hn
      rw [hn] at this
      cases h : readPacked b <;> rw [h] at this <;> cases this
    · intro hf
      rcases readHint_cases bs with h | ⟨s, b, r, h1, h2, h3⟩
      · exact h
      · exact absurd ⟨s, b, r, h1, h2, h3⟩ hf
  · rw [readHint_ok_iff]
    constructor
    · rintro ⟨s, b, h1, h2, h3, h4, rfl⟩
      refine ⟨s, b, ⟨h1, h2, h3⟩, h4, ?_, ?_, BSet.asc_ofList s, fun x => BSet.mem_ofList x s⟩
      · simp [hdep]
      · simp only [List.map_map]
        exact List.map_congr_left fun x hx => hst x (h4 x hx)
    · rintro ⟨s, b, ⟨h1, h2, h3⟩, h4, h5, h6, h7, h8⟩
      refine ⟨s, b, h1, h2, h3, h4, ?_⟩
      obtain ⟨ds, es, ss⟩ := h
      have e1 : ds = b.map depthOf := by
        apply List.map_injective_iff.2 Fin.val_injective
        rw [show List.map Fin.val ds = _ from h5, List.map_map]
        exact List.map_congr_left fun x _ => (hdep x).symm
      have e2 : es = b.map statusOf := by
        have hinj : Function.Injective statusNum := fun x y h => by cases x <;> cases y <;> simp_all [statusNum]
        apply List.map_injective_iff.2 hinj
        rw [show List.map statusNum es = _ from h6, List.map_map]
        exact List.map_congr_left fun x hx => (hst x (h4 x hx)).symm
      have e3 : ss = BSet.ofList s := h7.ext (BSet.asc_ofList s) fun x => by rw [BSet.mem_ofList]; exact h8 x
      rw [e1, e2, e3]

/-- C25 (what holds, 2).  Two inputs that decode to the same hint agree up to bit 2 of the packed bytes, the order of the stems
and repetitions of stems. -/
theorem C25_same_hint_partial {bs bs' rest rest' : List Byte} {h : VerificationHint} (h1 : readHint bs = .ok (some (h, rest)))
    (h2 : readHint bs' = .ok (some (h, rest'))) :
    ∃ stems body stems' body', Framed bs stems body rest ∧ Framed bs' stems' body' rest' ∧
      body.map (fun b => b.val - b.val / 4 % 2 * 4) = body'.map (fun b => b.val - b.val / 4 % 2 * 4) ∧
      ∀ s, s ∈ stems ↔ s ∈ stems' := by
  obtain ⟨s, b, f, -, d, e, -, m⟩ := ((C25_outcome_partial bs).2.2 h rest).1 h1
  obtain ⟨s', b', f', -, d', e', -, m'⟩ := ((C25_outcome_partial bs').2.2 h rest').1 h2
  refine ⟨s, b, s', b', f, f', ?_, fun x => (m x).symm.trans (m' x)⟩
  rw [d] at d'
  rw [e] at e'
  have hl : b.length = b'.length := by simpa using congrArg List.length d'
  apply List.ext_getElem (by simp [hl])
  intro i h1 h2
  simp only [List.length_map] at h1 h2
  have q1 : b[i].val / 8 = b'[i].val / 8 := by
    have := List.getElem_of_eq d' (i := i) (by simpa using h1)
    simpa using this
  have q2 : b[i].val % 4 = b'[i].val % 4 := by
    have := List.getElem_of_eq e' (i := i) (by simpa using h1)
    simpa using this
  simp only [List.getElem_map]
  omega

/-- C25 (what holds, 3).  Among inputs with ascending stems and bit 2 of every packed byte clear (in particular all that the
encoder writes), the decoded hint determines the consumed bytes, and encoding it gives them back. -/
theorem C25_canonical_partial {stems : List Stem} {body rest : List Byte} {bs : List Byte} (hf : Framed bs stems body rest)
    (hs : Ascending stems) (hb : ∀ b ∈ body, b.val % 8 = 0 ∨ b.val % 8 = 1 ∨ b.val % 8 = 2) :
    ∃ h, readHint bs = .ok (some (h, rest)) ∧ writeHint h = .ok (hintBytes stems body) ∧
      ∀ bs' stems' body' rest', Framed bs' stems' body' rest' → Ascending stems' →
        (∀ b ∈ body', b.val % 8 = 0 ∨ b.val % 8 = 1 ∨ b.val % 8 = 2) → readHint bs' = .ok (some (h, rest')) →
        hintBytes stems' body' = hintBytes stems body := by
  have key : ∀ {stems : List Stem} {body : List Byte}, stems.length < 2 ^ 32 → body.length < 2 ^ 32 → Ascending stems →
      (∀ b ∈ body, b.val % 8 = 0 ∨ b.val % 8 = 1 ∨ b.val % 8 = 2) →
      writeHint ⟨body.map depthOf, body.map statusOf, BSet.ofList stems⟩ = .ok (hintBytes stems body) := by
    intro stems body l1 l2 hs hb
    have w : WfHint ⟨body.map depthOf, body.map statusOf, BSet.ofList stems⟩ :=
      ⟨by simp, by
        intro d hd
        obtain ⟨b, -, rfl⟩ := List.mem_map.1 hd
        have := b.isLt
        rw [depthOf, Wire.asU8_val]; omega, BSet.asc_ofList _, by rw [ofList_ascending hs]; exact l1, by simpa using l2⟩
    rw [writeHint_eq w, ofList_ascending hs]
    congr 1
    show frame stems _ = frame stems body
    congr 1
    simp only [List.zip_map', List.map_map]
    have hid : ∀ b ∈ body, (packed ∘ fun x => (depthOf x, statusOf x)) b = id b := fun b hmem =>
      packed_of (by have := hb b hmem; omega) (by have := hb b hmem; omega)
    rw [List.map_congr_left hid, List.map_id]
  obtain ⟨l1, l2, rfl⟩ := hf
  refine ⟨⟨body.map depthOf, body.map statusOf, BSet.ofList stems⟩, ?_, key l1 l2 hs hb, ?_⟩
  · exact readHint_ok_iff.2 ⟨stems, body, l1, l2, rfl, fun b hmem => by have := hb b hmem; omega, rfl⟩
  · rintro bs' stems' body' rest' ⟨l1', l2', rfl⟩ hs' hb' hr
    have hr' : readHint (hintBytes stems' body' ++ rest') =
        .ok (some (⟨body'.map depthOf, body'.map statusOf, BSet.ofList stems'⟩, rest')) :=
      readHint_ok_iff.2 ⟨stems', body', l1', l2', rfl, fun b hmem => by have := hb' b hmem; omega, rfl⟩
    rw [hr] at hr'
    have he := (Prod.mk.inj (Option.some.inj (Except.ok.inj hr'))).1
    have k1 := key l1 l2 hs hb
    rw [he, key l1' l2' hs' hb'] at k1
    exact Except.ok.inj k1

/-- C25 (what holds, 4).  The encoder panics exactly if a depth exceeds 32, and a depth of 32, which five bits cannot hold, is written as
0.  (The depths of the model's proofs are at most 31.) -/
theorem C25_encoder_partial (h : VerificationHint) :
    ((∃ e, writeHint h = .error e) ↔ ∃ p ∈ h.depths.zip h.extensionPresent, 32 < p.1.val) ∧
    writeHint ⟨h.depths.map fun d => if d = 32 then 0 else d, h.extensionPresent, h.diffStemNoProof⟩ = writeHint h := by
  have key : ∀ l : List (Byte × ExtPresent), (∃ e, writePacked l = .error e) ↔ ∃ p ∈ l, 32 < p.1.val := by
    intro l
    induction l with
    | nil => simp [writePacked]
    | cons p l ih =>
      obtain ⟨d, e⟩ := p
      unfold writePacked packByte
      by_cases hd : 32 < d.val
      · rw [if_pos hd]
        exact ⟨fun _ => ⟨_, List.mem_cons_self, hd⟩, fun _ => ⟨_, rfl⟩⟩
      · rw [if_neg hd]
        simp only [List.mem_cons, exists_eq_or_imp, hd, false_or, ← ih]
        cases hw : writePacked l <;> simp [bind, Except.bind]
  have h32 : ∀ (d : Byte) (e : ExtPresent), packByte (if d = 32 then 0 else d) e = packByte d e := by
    intro d e
    by_cases hd : d = 32
    · subst hd; cases e <;> rfl
    · rw [if_neg hd]
  have same : ∀ (ds : List Byte) (es : List ExtPresent),
      writePacked ((ds.map fun d => if d = 32 then 0 else d).zip es) = writePacked (ds.zip es) := by
    intro ds
    induction ds with
    | nil => intro es; rfl
    | cons d ds ih =>
      intro es
      cases es with
      | nil => rfl
      | cons e es =>
        simp only [List.map_cons, List.zip_cons_cons, writePacked]
        rw [ih es, h32]
  refine ⟨?_, ?_⟩
  · rw [← key]
    unfold writeHint
    cases hw : writePacked (h.depths.zip h.extensionPresent) <;> simp [bind, Except.bind]
  · unfold writeHint
    simp only [same, List.length_map]

/-- Depth 32 is written like depth 0, depth 33 is not written. -/
example : writeHint ⟨[32], [.present], []⟩ = writeHint ⟨[0], [.present], []⟩ ∧ ∃ e, writeHint ⟨[33], [.present], []⟩ = .error e :=
  ⟨rfl, ⟨_, rfl⟩⟩

/-- Two ascending stems and three packed bytes. -/
example : ∃ bs, Framed bs [⟨List.replicate 31 1, rfl⟩, ⟨List.replicate 31 2, rfl⟩] [8, 17, 26] [7, 7] ∧
    Ascending [(⟨List.replicate 31 1, rfl⟩ : Stem), ⟨List.replicate 31 2, rfl⟩] ∧
    ∀ b ∈ ([8, 17, 26] : List Byte), b.val % 8 = 0 ∨ b.val % 8 = 1 ∨ b.val % 8 = 2 :=
  ⟨_, ⟨by norm_num, by norm_num, rfl⟩, List.pairwise_cons.2 ⟨fun s hs => by
      rw [List.mem_singleton.1 hs]; rfl, List.pairwise_singleton ..⟩, by simp⟩

/-! ### C33 -/

section
variable {F G : Type} (K : WireCodec F G)

theorem clog_le {deg : ℕ} (h : deg ≤ 2 ^ 64) : Nat.clog 2 deg ≤ 64 := Nat.clog_le_of_le_pow h

/-- C33.  Decoding the encoding of an inner product proof or a multipoint proof for vectors of length `deg` returns the proof;
the encodings have `2 log₂ deg + 1` and `2 log₂ deg + 2` blocks of 32 bytes (544 and 576 bytes for 256). -/
theorem C33_roundtrip {deg : ℕ} (hd : deg < 2 ^ 64) :
    (∀ p : IpaProof F G, p.L.length = Nat.clog 2 deg → p.R.length = Nat.clog 2 deg →
      (ipaToBytes K p).length = 32 * (2 * Nat.clog 2 deg + 1) ∧ ipaFromBytes K (ipaToBytes K p) deg = .ok (some p)) ∧
    (∀ p : MultiProof F G, p.openProof.L.length = Nat.clog 2 deg → p.openProof.R.length = Nat.clog 2 deg →
      (multiToBytes K p).length = 32 * (2 * Nat.clog 2 deg + 2) ∧ multiFromBytes K (multiToBytes K p) deg = .ok (some p)) := by
  have hsz : (Nat.clog 2 deg * 2 + 1) * 32 < 2 ^ 32 := by
    have := clog_le hd.le
    norm_num
    omega
  exact ⟨fun p hL hR => ⟨by rw [ipaToBytes_length, hL, hR]; ring, ipa_roundtrip K p deg hL hR hsz⟩,
    fun p hL hR => ⟨by rw [multiToBytes_length, hL, hR]; ring, multi_roundtrip K p deg hL hR hsz⟩⟩

/-- C33 (what holds of the last part).  An input shorter than 4 GiB of another length is never decoded to a proof, and a
decoded input of the right length consists of the 32-byte blocks of the components, each decoded from its own block. -/
theorem C33_length_checked_partial {deg : ℕ} {bs : List Byte} (hb : bs.length < 2 ^ 32) :
    (bs.length ≠ 32 * (2 * Nat.clog 2 deg + 1) → ∀ p, ipaFromBytes K bs deg ≠ .ok (some p)) ∧
    (bs.length ≠ 32 * (2 * Nat.clog 2 deg + 2) → ∀ p, multiFromBytes K bs deg ≠ .ok (some p)) ∧
    (∀ p, multiFromBytes K bs deg = .ok (some p) → ∃ g l r s, bs = g ++ l.flatten ++ r.flatten ++ s ∧
      (∀ c ∈ g :: s :: l ++ r, c.length = 32) ∧ K.decE g = some p.gx ∧
      List.Forall₂ (fun c x => K.decE c = some x) l p.openProof.L ∧ List.Forall₂ (fun c x => K.decE c = some x) r p.openProof.R ∧
      K.decS s = some p.openProof.a ∧ p.openProof.L.length = Nat.clog 2 deg ∧ p.openProof.R.length = Nat.clog 2 deg) := by
  refine ⟨fun hne p h => ?_, fun hne p h => ?_, fun p h => ?_⟩
  · have := (ipaFromBytes_ok K h).1
    rw [Nat.mod_eq_of_lt hb] at this
    exact hne this
  · obtain ⟨h32, -, h2⟩ := multiFromBytes_ok K h
    have := (ipaFromBytes_ok K h2).1
    rw [Nat.mod_eq_of_lt (by rw [List.length_drop]; omega), List.length_drop] at this
    apply hne; omega
  · obtain ⟨h32, hg, h2⟩ := multiFromBytes_ok K h
    obtain ⟨hlen, a, b, c, d, he, ha, hb', hc, hal, hbl, haf, hbf, hs⟩ := ipaFromBytes_ok K h2
    have hflat : ∀ l : List (List Byte), (∀ x ∈ l, x.length = 32) → l.flatten.length = 32 * l.length := by
      intro l hl
      rw [List.length_flatten, List.map_congr_left (g := fun _ => 32) hl]
      simp [mul_comm]
    have hd : d = [] := by
      rw [Nat.mod_eq_of_lt (by rw [List.length_drop]; omega)] at hlen
      rw [he] at hlen
      simp only [List.length_append, hflat a ha, hflat b hb', hc, hal, hbl] at hlen
      exact List.length_eq_zero_iff.1 (by omega)
    subst hd
    refine ⟨bs.take 32, a, b, c, ?_, ?_, hg, haf, hbf, hs, ?_, ?_⟩
    · rw [List.append_nil] at he
      rw [List.append_assoc, List.append_assoc, ← List.append_assoc a.flatten, ← he, List.take_append_drop]
    · intro x hx
      simp only [List.cons_append, List.mem_cons, List.mem_append] at hx
      rcases hx with rfl | rfl | hx | hx
      · simp [h32]
      · exact hc
      · exact ha x hx
      · exact hb' x hx
    · rw [← haf.length_eq, hal]
    · rw [← hbf.length_eq, hbl]

theorem readElems_total {n : ℕ} : ∀ {cs : List (List Byte)}, n ≤ cs.length →
    readElems K n cs = .ok none ∨ ∃ xs r, readElems K n cs = .ok (some (xs, r)) ∧ r.length + n = cs.length := by
  induction n with
  | zero => intro cs _; exact .inr ⟨[], cs, rfl, rfl⟩
  | succ n ih =>
    intro cs h
    cases cs with
    | nil => simp at h
    | cons c cs =>
      unfold readElems
      cases hc : K.decE c with
      | none => exact .inl rfl
      | some x =>
        rcases ih (cs := cs) (by simpa using h) with e | ⟨xs, r, e, hl⟩
        · exact .inl (by simp only [e, bind, Except.bind])
        · exact .inr ⟨x :: xs, r, by simp only [e, bind, Except.bind], by simp only [List.length_cons]; omega⟩

/-- C33 (what holds of the last part).  A wrong length is not reported but panics: the decoder of inner product proofs panics exactly
if the length, reduced to 32 bits, is not that of a proof, and the decoder of multipoint proofs exactly if the first point is cut off, or
can be decoded and is followed by such an input. -/
theorem C33_panics_partial {deg : ℕ} (hd : deg < 2 ^ 64) (bs : List Byte) :
    ((∃ e, ipaFromBytes K bs deg = .error e) ↔ bs.length % 2 ^ 32 ≠ 32 * (2 * Nat.clog 2 deg + 1)) ∧
    ((∃ e, multiFromBytes K bs deg = .error e) ↔ bs.length < 32 ∨
      (∃ g, K.decE (bs.take 32) = some g) ∧ (bs.length - 32) % 2 ^ 32 ≠ 32 * (2 * Nat.clog 2 deg + 1)) := by
  have key : ∀ bs : List Byte, (∃ e, ipaFromBytes K bs deg = .error e) ↔ bs.length % 2 ^ 32 ≠ 32 * (2 * Nat.clog 2 deg + 1) := by
    intro bs
    unfold ipaFromBytes
    by_cases h : (Nat.clog 2 deg * 2 + 1) * 32 ≠ bs.length % 2 ^ 32
    · rw [if_pos h]
      exact ⟨fun _ => by omega, fun _ => ⟨_, rfl⟩⟩
    · rw [if_neg h]
      push Not at h
      have h32 : ¬ bs.length % 32 ≠ 0 := by omega
      rw [if_neg h32]
      have hc : (chunksExact 32 bs).length = bs.length / 32 := by simp [chunksExact]
      have hge : 2 * Nat.clog 2 deg + 1 ≤ (chunksExact 32 bs).length := by
        rw [hc]
        have := Nat.mod_le bs.length (2 ^ 32)
        omega
      refine ⟨fun he => ?_, fun he => absurd (by omega) he⟩
      exfalso
      obtain ⟨e, he⟩ := he
      rcases readElems_total K (n := Nat.clog 2 deg) (cs := chunksExact 32 bs) (by omega) with e1 | ⟨l, cs, e1, l1⟩
      · simp [e1, bind, Except.bind] at he
      · rcases readElems_total K (n := Nat.clog 2 deg) (cs := cs) (by omega) with e2 | ⟨l', cs', e2, l2⟩
        · simp [e1, e2, bind, Except.bind] at he
        · cases cs' with
          | nil => simp at l2; omega
          | cons c cs' =>
            simp only [e1, e2, bind, Except.bind] at he
            cases hs : K.decS c <;> simp [hs] at he
  refine ⟨key bs, ?_⟩
  unfold multiFromBytes
  by_cases h : bs.length < 32
  · rw [if_pos h]
    exact ⟨fun _ => .inl h, fun _ => ⟨_, rfl⟩⟩
  · rw [if_neg h]
    cases hg : K.decE (bs.take 32) with
    | none => simp [h]
    | some g =>
      have := key (bs.drop 32)
      rw [List.length_drop] at this
      simp only [h, false_or, Option.some.injEq, exists_eq', true_and, ← this]
      cases hi : ipaFromBytes K (bs.drop 32) deg with
      | error e => simp [bind, Except.bind]
      | ok o => cases o <;> simp [bind, Except.bind]

/-- C33.  If single points and scalars have only one encoding, a decoded input shorter than 4 GiB is the encoding of the
decoded proof. -/
theorem C33_canonical (hE : ∀ c x, c.length = 32 → K.decE c = some x → K.encE x = c)
    (hS : ∀ c x, c.length = 32 → K.decS c = some x → K.encS x = c) {deg : ℕ} {bs : List Byte} (hb : bs.length < 2 ^ 32)
    {p : MultiProof F G} (h : multiFromBytes K bs deg = .ok (some p)) : bs = multiToBytes K p := by
  obtain ⟨g, l, r, s, rfl, hc, hg, hl, hr, hs, -, -⟩ := (C33_length_checked_partial K hb).2.2 p h
  have key : ∀ {l : List (List Byte)} {x : List G}, (∀ c ∈ l, c.length = 32) →
      List.Forall₂ (fun c x => K.decE c = some x) l x → x.flatMap K.encE = l.flatten := by
    intro l x hlen hf
    induction hf with
    | nil => rfl
    | cons hd _ ih =>
      rw [List.flatMap_cons, List.flatten_cons, hE _ _ (hlen _ (by simp)) hd, ih fun c hc => hlen c (by simp [hc])]
  rw [multiToBytes, ipaToBytes, hE g _ (hc g (by simp)) hg, hS s _ (hc s (by simp)) hs, key (fun c h => hc c (by simp [h])) hl,
    key (fun c h => hc c (by simp [h])) hr]
  simp

theorem ipa_trailing (p : IpaProof F G) (hL : p.L.length = 8) (hR : p.R.length = 8) {t : ℕ} {z : List Byte} (hz : z.length = 32)
    (ht : (17 * 32 + t * 32) % 2 ^ 32 = 17 * 32) :
    ipaFromBytes K (ipaToBytes K p ++ (List.replicate t z).flatten) 256 = .ok (some p) := by
  have hl : (ipaToBytes K p ++ (List.replicate t z).flatten).length = 17 * 32 + t * 32 := by
    rw [List.length_append, ipaToBytes_length, hL, hR, List.length_flatten, List.map_replicate, List.sum_replicate, hz]; rfl
  have hch : chunksExact 32 (ipaToBytes K p ++ (List.replicate t z).flatten) =
      p.L.map K.encE ++ (p.R.map K.encE ++ (K.encS p.a :: List.replicate t z)) := by
    have := chunksExact_flatMap (α := (G ⊕ F) ⊕ Unit) (Sum.elim (Sum.elim K.encE K.encS) fun _ => z) (n := 32)
      (by omega) (by rintro ((x | x) | x); exacts [K.encE_len x, K.encS_len x, hz])
      (p.L.map (Sum.inl ∘ Sum.inl) ++ p.R.map (Sum.inl ∘ Sum.inl) ++ [Sum.inl (Sum.inr p.a)] ++ List.replicate t (Sum.inr ()))
    have hc : (Sum.elim (Sum.elim K.encE K.encS) fun (_ : Unit) => z) ∘ Sum.inl ∘ Sum.inl = K.encE := rfl
    simpa [ipaToBytes, List.flatMap_append, List.flatMap_map, List.map_append, List.map_replicate, List.flatMap_def, hc] using this
  unfold ipaFromBytes
  rw [hl, clog256, ht, if_neg (by norm_num), if_neg (by omega), hch]
  have h1 := readElems_map K p.L (p.R.map K.encE ++ (K.encS p.a :: List.replicate t z))
  have h2 := readElems_map K p.R (K.encS p.a :: List.replicate t z)
  rw [hL] at h1
  rw [hR] at h2
  simp only [h1, h2, bind, Except.bind, K.dec_encS]

/-- C33, last part of the claim, is false: the length is compared as a `u32`, so a proof followed by 2³² further bytes is
decoded, the further bytes being ignored. -/
theorem C33_overlong_accepted (p : IpaProof F G) (hL : p.L.length = 8) (hR : p.R.length = 8) :
    ∀ z : List Byte, z.length = 32 →
      ipaFromBytes K (ipaToBytes K p ++ (List.replicate (2 ^ 27) z).flatten) 256 = .ok (some p) :=
  fun _ hz => ipa_trailing K p hL hR hz (by norm_num)

end

/-- A codec for the toy parameters: little-endian numbers below 101. -/
def toyWire : WireCodec (ZMod 101) (ZMod 101) where
  encE x := leBytes 32 x.val
  decE bs := if leNat bs < 101 then some (leNat bs : ZMod 101) else none
  encS x := leBytes 32 x.val
  decS bs := if leNat bs < 101 then some (leNat bs : ZMod 101) else none
  encE_len x := leBytes_length 32 _
  encS_len x := leBytes_length 32 _
  dec_encE x := by
    have h : leNat (leBytes 32 x.val) = x.val := by
      rw [leNat_leBytes]
      exact Nat.mod_eq_of_lt (lt_of_lt_of_le (ZMod.val_lt x) (by norm_num))
    simp only [h, if_pos (ZMod.val_lt x), ZMod.natCast_val, ZMod.cast_id', id]
  dec_encS x := by
    have h : leNat (leBytes 32 x.val) = x.val := by
      rw [leNat_leBytes]
      exact Nat.mod_eq_of_lt (lt_of_lt_of_le (ZMod.val_lt x) (by norm_num))
    simp only [h, if_pos (ZMod.val_lt x), ZMod.natCast_val, ZMod.cast_id', id]

theorem toyWire_canonical {c : List Byte} {x : ZMod 101} (hc : c.length = 32) (h : toyWire.decE c = some x) :
    toyWire.encE x = c := by
  simp only [toyWire] at h ⊢
  split at h
  · rename_i hlt
    have hx := Option.some.inj h
    rw [← hx, ZMod.val_natCast_of_lt hlt]
    exact leBytes_leNat' hc
  · cases h

example : ∃ p : MultiProof (ZMod 101) (ZMod 101), p.openProof.L.length = Nat.clog 2 256 ∧ p.openProof.R.length = Nat.clog 2 256 ∧
    p.openProof.L ≠ p.openProof.R := by
  refine ⟨⟨⟨List.replicate 8 5, List.replicate 8 6, 7⟩, 9⟩, ?_, ?_, ?_⟩
  · rw [clog256]; rfl
  · rw [clog256]; rfl
  · decide +kernel

/-- The hypotheses of `C33_canonical` hold for the toy codec and a 576-byte input. -/
example : ∃ (bs : List Byte) (p : MultiProof (ZMod 101) (ZMod 101)), bs.length = 576 ∧
    multiFromBytes toyWire bs 256 = .ok (some p) ∧
    (∀ c x, c.length = 32 → toyWire.decE c = some x → toyWire.encE x = c) ∧
    (∀ c x, c.length = 32 → toyWire.decS c = some x → toyWire.encS x = c) := by
  have h := (C33_roundtrip toyWire (deg := 256) (by norm_num)).2 ⟨⟨List.replicate 8 5, List.replicate 8 6, 7⟩, 9⟩
    (by rw [clog256]; rfl) (by rw [clog256]; rfl)
  exact ⟨_, _, by rw [h.1, clog256], h.2, fun _ _ => toyWire_canonical, fun _ _ => toyWire_canonical⟩

/-! ### C24 -/

section
variable {F G : Type} [Field F] [AddCommGroup G] [Module F G]

/-- All labels that one key can contribute. -/
noncomputable def keyLabels (m : KV) (k : Key) : List (Path × Byte) :=
  (List.range 31).map (fun i => (k.stem.1.take i, k.stem.1.getD i 0)) ++
    [(termPath m k.stem, 0), (termPath m k.stem, 1), (termPath m k.stem, halfIdx k.suffix),
      (termPath m k.stem ++ [halfIdx k.suffix], lowIdx k.suffix), (termPath m k.stem ++ [halfIdx k.suffix], highIdx k.suffix)]

theorem label_mem {m : KV} {keys : List Key} {x : Path × Byte} (h : Label m (· ∈ keys) x) : x ∈ keys.flatMap (keyLabels m) := by
  have hself : ∀ {p : Path} {k : Key}, TermStem m p k.stem → termPath m k.stem = p := fun hu => hu.termPath hu.2.2.2
  rw [List.mem_flatMap]
  cases h with
  | branch p z k hk hb hp =>
    refine ⟨k, hk, List.mem_append_left _ (List.mem_map.2 ⟨p.length, ?_, ?_⟩)⟩
    · have := hp.length_le
      rw [k.stem.2, List.length_append, List.length_singleton] at this
      rw [List.mem_range]; omega
    · obtain ⟨t, ht⟩ := hp
      rw [← ht]
      simp [List.getD_eq_getElem?_getD]
  | ext p z u k hk hu hp hz =>
    refine ⟨k, hk, List.mem_append_right _ ?_⟩
    rw [← hu.termPath hp]
    rcases hz with rfl | rfl <;> simp
  | half p k hk hu => exact ⟨k, hk, List.mem_append_right _ (by rw [← hself hu]; simp)⟩
  | low p k hk hu => exact ⟨k, hk, List.mem_append_right _ (by rw [← hself hu]; simp)⟩
  | high p k hk hu => exact ⟨k, hk, List.mem_append_right _ (by rw [← hself hu]; simp)⟩

theorem labels_length {m : KV} {keys : List Key} {L : List (Path × Byte)} (hL : Ascending L)
    (hm : ∀ x, x ∈ L ↔ Label m (· ∈ keys) x) : L.length ≤ 36 * keys.length := by
  have h1 := (List.subperm_of_subset hL.nodup (l₂ := keys.flatMap (keyLabels m)) fun x hx => label_mem ((hm x).1 hx)).length_le
  rw [List.length_flatMap, List.map_congr_left (g := fun _ => 36) fun k _ => by simp [keyLabels]] at h1
  simpa [mul_comm] using h1

theorem foreign_length {m : KV} {keys : List Key} {d : BSet Stem} (hd : Ascending d)
    (hm : ∀ u, u ∈ d ↔ ForeignStem m (· ∈ keys) u) : d.length ≤ keys.length := by
  let g : Key → Stem := fun k => if h : ∃ u, TermStem m (termPath m k.stem) u then h.choose else k.stem
  have h1 := (List.subperm_of_subset (Ascending.nodup hd) (l₂ := keys.map g) fun u hu => by
    obtain ⟨p, hp, ⟨k, hk, hpk⟩, -⟩ := (hm u).1 hu
    refine List.mem_map.2 ⟨k, hk, ?_⟩
    have hp' : TermStem m (termPath m k.stem) u := by rw [hp.termPath hpk]; exact hp
    have hex : ∃ u, TermStem m (termPath m k.stem) u := ⟨u, hp'⟩
    show (if h : ∃ u, TermStem m (termPath m k.stem) u then h.choose else k.stem) = u
    rw [dif_pos hex]
    exact hex.choose_spec.unique hp').length_le
  simpa using h1

theorem dedup_length {α : Type} [DecidableEq α] : ∀ l : List α, (Proof.dedup l).length ≤ l.length
  | [] => le_refl _
  | [a] => le_refl _
  | a :: b :: l => by
    have := dedup_length (b :: l)
    rw [Proof.dedup]
    split
    · simp only [List.length_cons] at this ⊢; omega
    · simp only [List.length_cons] at this ⊢; omega

variable [DecidableEq F] [DecidableEq G]

/-- C24.  Every proof created for a trie and a list of keys (so few that 36 per key is below 2³²: the counts are written as
`u32`) is written without panic, and reading the bytes gives the proof back, all bytes being consumed.  The opening proof has
eight `L` and eight `R` points, as produced for vectors of length 256 (C28, C32). -/
theorem C24_proof_roundtrip (C : Crypto F G) (K : WireCodec F G) (openAll : List (ProverQuery F G) → Res (MultiProof F G))
    (check : MultiProof F G → List (VerifierQuery F G) → Res Bool)
    (hO : ∀ qs p, openAll qs = .ok p → p.openProof.L.length = 8 ∧ p.openProof.R.length = 8)
    (l : List (Key × Value)) {db : MemoryDb F G} (hb : build C l = .ok db) {keys : List Key} (hk : 36 * keys.length < 2 ^ 32)
    {p : VerkleProof G (MultiProof F G)}
    (hp : createVerkleProof (⟨MultiProof F G, openAll, check⟩ : Opener F G) db keys = .ok (.ok p)) :
    ∃ bs, writeProof K p = .ok bs ∧ readProof K bs = .ok (some p) := by
  rw [build_iff] at hb
  subst hb
  have hne : keys ≠ [] := by
    rintro rfl
    simp [createVerkleProof] at hp
  obtain ⟨L, d, he, hL, hLm, hd, hdm⟩ := createProverQueries_spec C (lastWrite l) hne
  have hlen := labels_length hL hLm
  simp only [createVerkleProof, if_neg hne, he, bind, Except.bind] at hp
  cases hq : L.map (labelQuery C (lastWrite l)) with
  | nil => rw [hq] at hp; simp at hp
  | cons q qs =>
    rw [hq] at hp
    simp only at hp
    cases ho : openAll (q :: qs) with
    | error e => rw [ho] at hp; simp at hp
    | ok pf =>
      rw [ho] at hp
      simp only [Except.ok.injEq] at hp
      subst hp
      have hcl : (commsSorted q.commitment (q :: qs)).length < 2 ^ 32 := by
        have h1 := dedup_length (((q :: qs).filter fun r => decide (r.commitment ≠ q.commitment)).map ProverQuery.commitment)
        have h2 := List.length_filter_le (fun r => decide (r.commitment ≠ q.commitment)) (q :: qs)
        have h3 : (q :: qs).length = L.length := by rw [← hq, List.length_map]
        rw [List.length_map] at h1
        unfold commsSorted
        omega
      refine readProof_writeProof K _ ⟨?_, ?_, hd, ?_, ?_⟩ hcl (hO _ _ ho).1 (hO _ _ ho).2
      · simp [honestHint]
      · intro b hbm
        obtain ⟨s, -, rfl⟩ := List.mem_map.1 hbm
        have := termLen_le (lastWrite l) s
        rw [Wire.asU8_val]; omega
      · have := foreign_length hd hdm
        show d.length < _
        omega
      · have h1 : (stemsOf keys).length ≤ keys.length := by
          have := (List.subperm_of_subset (BSet.asc_ofList (keys.map Key.stem)).nodup (l₂ := keys.map Key.stem)
            fun s hs => (BSet.mem_ofList s _).1 hs).length_le
          rwa [List.length_map] at this
        simp only [honestHint, List.length_map]
        omega

end

/-- An opening proof of the right size. -/
def demoPf : MultiProof (ZMod 101) (ZMod 101) := ⟨⟨List.replicate 8 5, List.replicate 8 6, 7⟩, 9⟩

def wireKeys : List Key := [keyOf [9, 8] 0, keyOf [1, 2, 3] 200, keyOf [7] 1]

/-- The hypotheses of C24 hold for a trie with a branch below the root and keys of which one runs into a foreign stem. -/
example : ∃ db p, build toy proofHist = .ok db ∧ 36 * wireKeys.length < 2 ^ 32 ∧ p.comms ≠ [] ∧ p.hint.diffStemNoProof ≠ [] ∧
    createVerkleProof (⟨MultiProof (ZMod 101) (ZMod 101), fun _ => .ok demoPf, fun _ _ => .ok true⟩ : Opener _ _) db wireKeys
      = .ok (.ok p) := by
  have h : (build toy proofHist >>= fun db => createVerkleProof (⟨MultiProof (ZMod 101) (ZMod 101), fun _ => .ok demoPf,
      fun _ _ => .ok true⟩ : Opener _ _) db wireKeys).toOption.any (fun r => match r with
        | .ok p => !p.comms.isEmpty && !p.hint.diffStemNoProof.isEmpty
        | .error _ => false) = true := by decide +kernel
  cases hb : build toy proofHist with
  | error e => rw [hb] at h; simp [bind, Except.bind, Except.toOption] at h
  | ok db =>
    rw [hb] at h
    simp only [bind, Except.bind] at h
    cases hc : createVerkleProof (⟨MultiProof (ZMod 101) (ZMod 101), fun _ => .ok demoPf, fun _ _ => .ok true⟩ : Opener _ _) db
        wireKeys with
    | error e => rw [hc] at h; simp [Except.toOption] at h
    | ok r =>
      rw [hc] at h
      cases r with
      | error e => simp [Except.toOption] at h
      | ok p => exact ⟨db, p, rfl, by simp [wireKeys], by rintro e; simp [Except.toOption, e] at h,
          by rintro e; simp [Except.toOption, e] at h, hc⟩

end Verif.Props
