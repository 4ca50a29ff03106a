import Verif.Wire.Model
import Mathlib.Tactic.IntervalCases
import Mathlib.Tactic.Ring

/-!
# Lemmas about the byte formats
-/

set_option autoImplicit false

namespace Verif.Wire
open Proof

/-! ### Numbers and framing -/

theorem leBytes_length : ∀ n x, (leBytes n x).length = n
  | 0, _ => rfl
  | n + 1, x => by simp [leBytes, leBytes_length n]

theorem asU8_val (n : ℕ) : (asU8 n).val = n % 256 := by simp [asU8]

theorem leNat_leBytes : ∀ n x, leNat (leBytes n x) = x % 256 ^ n
  | 0, x => by simp [leBytes, leNat, Nat.mod_one]
  | n + 1, x => by
    rw [leBytes, leNat, leNat_leBytes n, asU8_val, pow_succ, mul_comm (256 ^ n), Nat.mod_mul]

theorem leNat_lt : ∀ l : List Byte, leNat l < 256 ^ l.length
  | [] => by simp [leNat]
  | b :: l => by
    have := leNat_lt l
    have := b.isLt
    rw [leNat, List.length_cons, pow_succ]
    omega

theorem leBytes_leNat : ∀ l : List Byte, leBytes l.length (leNat l) = l
  | [] => rfl
  | b :: l => by
    have hb := b.isLt
    rw [List.length_cons, leBytes, leNat]
    congr 1
    · apply Fin.ext; rw [asU8_val]; omega
    · rw [show (b.val + 256 * leNat l) / 256 = leNat l by omega, leBytes_leNat l]

theorem leBytes_leNat' {n : ℕ} {l : List Byte} (h : l.length = n) : leBytes n (leNat l) = l := h ▸ leBytes_leNat l

theorem readExact_iff {n : ℕ} {bs a r : List Byte} : readExact n bs = some (a, r) ↔ a.length = n ∧ bs = a ++ r := by
  unfold readExact
  split
  · rename_i h
    constructor
    · intro he
      simp only [Option.some.injEq, Prod.mk.injEq] at he
      obtain ⟨rfl, rfl⟩ := he
      simp [h]
    · rintro ⟨rfl, rfl⟩
      simp
  · rename_i h
    constructor
    · intro he; cases he
    · rintro ⟨rfl, rfl⟩; simp at h

theorem readExact_append {n : ℕ} {a : List Byte} (h : a.length = n) (r : List Byte) : readExact n (a ++ r) = some (a, r) :=
  readExact_iff.2 ⟨h, rfl⟩

/-- A length prefix of four bytes. -/
theorem readExact_le4 (x : ℕ) (r : List Byte) : readExact 4 (leBytes 4 x ++ r) = some (leBytes 4 x, r) :=
  readExact_append (leBytes_length 4 x) r

theorem leNat_le4 {x : ℕ} (h : x < 2 ^ 32) : leNat (leBytes 4 x) = x := by
  rw [leNat_leBytes]; exact Nat.mod_eq_of_lt (by norm_num; omega)

theorem le4_of {l : List Byte} (h : l.length = 4) : l = leBytes 4 (leNat l) ∧ leNat l < 2 ^ 32 := by
  refine ⟨(leBytes_leNat' h).symm, ?_⟩
  have := leNat_lt l
  rw [h] at this
  norm_num at this ⊢
  exact this

/-! ### Stems -/

theorem readStems_iff : ∀ (n : ℕ) (bs : List Byte) (s s' : BSet Stem) (r : List Byte),
    readStems n bs s = some (s', r) ↔
      ∃ l : List Stem, l.length = n ∧ bs = l.flatMap Subtype.val ++ r ∧ s' = l.foldl (fun s x => BSet.insert x s) s
  | 0, bs, s, s', r => by
    simp only [readStems, Option.some.injEq, Prod.mk.injEq, List.length_eq_zero_iff]
    constructor
    · rintro ⟨rfl, rfl⟩; exact ⟨[], rfl, rfl, rfl⟩
    · rintro ⟨l, rfl, h1, h2⟩; exact ⟨h2.symm, h1⟩
  | n + 1, bs, s, s', r => by
    unfold readStems
    split
    · rename_i h
      rw [readStems_iff n]
      constructor
      · rintro ⟨l, hl, hb, hs⟩
        refine ⟨⟨bs.take 31, by simp [h]⟩ :: l, by simp [hl], ?_, ?_⟩
        · rw [List.flatMap_cons, List.append_assoc, ← hb]; exact (List.take_append_drop 31 bs).symm
        · simpa using hs
      · rintro ⟨l, hl, hb, hs⟩
        cases l with
        | nil => cases hl
        | cons x l =>
          have hx : bs = x.val ++ (l.flatMap Subtype.val ++ r) := by simpa using hb
          have h1 : bs.take 31 = x.val := by rw [hx]; exact List.take_left' x.property
          have h2 : bs.drop 31 = l.flatMap Subtype.val ++ r := by rw [hx]; exact List.drop_left' x.property
          refine ⟨l, by simpa using hl, h2, ?_⟩
          have : (⟨bs.take 31, by simp [h]⟩ : Stem) = x := Subtype.ext h1
          rw [this]; simpa using hs
    · rename_i h
      constructor
      · intro he; cases he
      · rintro ⟨l, hl, hb, -⟩
        cases l with
        | nil => cases hl
        | cons x l =>
          exfalso; apply h
          have hx : bs = x.val ++ (l.flatMap Subtype.val ++ r) := by simpa using hb
          rw [hx, List.length_append, x.property]; omega

theorem foldl_insert_nil (l : List Stem) : l.foldl (fun s x => BSet.insert x s) [] = BSet.ofList l := rfl

theorem ofList_ascending {l : List Stem} (h : Ascending l) : BSet.ofList l = l :=
  (BSet.asc_ofList l).ext h fun x => BSet.mem_ofList x l

/-! ### Packed bytes -/

/-- The status read off the low two bits. -/
def statusOf (b : Byte) : ExtPresent :=
  match b.val % 4 with
  | 0 => .none
  | 1 => .differentStem
  | _ => .present

theorem readStatus_eq (b : Byte) : readStatus b = if b.val % 4 = 3 then .error "unexpected ext status number" else .ok (statusOf b) := by
  have h : 3 &&& b.val = b.val % 4 := by rw [Nat.and_comm]; exact Nat.and_two_pow_sub_one_eq_mod b.val 2
  unfold readStatus statusOf
  rw [h]
  have h4 : b.val % 4 < 4 := Nat.mod_lt _ (by omega)
  generalize b.val % 4 = x at h4
  interval_cases x <;> rfl

/-- The depth read off the high five bits. -/
def depthOf (b : Byte) : Byte := asU8 (b.val / 8)

theorem shift3 (b : Byte) : asU8 (b.val >>> 3) = depthOf b := by rw [Nat.shiftRight_eq_div_pow]; rfl

theorem readPacked_ok : ∀ l : List Byte, (∀ b ∈ l, b.val % 4 ≠ 3) → readPacked l = .ok (l.map depthOf, l.map statusOf)
  | [], _ => rfl
  | b :: l, h => by
    rw [readPacked, readStatus_eq, if_neg (h b (by simp)), readPacked_ok l fun c hc => h c (by simp [hc]), shift3]
    rfl

theorem readPacked_error : ∀ l : List Byte, (∃ b ∈ l, b.val % 4 = 3) → ∃ e, readPacked l = .error e
  | [], h => by simp at h
  | b :: l, h => by
    rw [readPacked, readStatus_eq]
    by_cases hb : b.val % 4 = 3
    · rw [if_pos hb]; exact ⟨_, rfl⟩
    · rw [if_neg hb]
      obtain ⟨e, he⟩ := readPacked_error l (by
        obtain ⟨c, hc, h3⟩ := h
        rcases List.mem_cons.1 hc with rfl | hc
        · exact absurd h3 hb
        · exact ⟨c, hc, h3⟩)
      rw [he]; exact ⟨e, rfl⟩

/-! ### The hint -/

/-- The bytes holding `stems` and the packed bytes `body`. -/
def frame (stems : List Stem) (body : List Byte) : List Byte :=
  leBytes 4 stems.length ++ stems.flatMap Subtype.val ++ leBytes 4 body.length ++ body

theorem readHint_frame {stems : List Stem} {body : List Byte} (hs : stems.length < 2 ^ 32) (hb : body.length < 2 ^ 32)
    (rest : List Byte) : readHint (frame stems body ++ rest) =
      (readPacked body).map fun r => some (⟨r.1, r.2, BSet.ofList stems⟩, rest) := by
  unfold readHint frame
  simp only [List.append_assoc]
  rw [readExact_le4]
  simp only [leNat_le4 hs]
  have : readStems stems.length (stems.flatMap Subtype.val ++ (leBytes 4 body.length ++ (body ++ rest))) [] =
      some (BSet.ofList stems, leBytes 4 body.length ++ (body ++ rest)) := (readStems_iff _ _ _ _ _).2 ⟨stems, rfl, rfl, rfl⟩
  rw [this]
  simp only
  rw [readExact_le4]
  simp only [leNat_le4 hb]
  rw [readExact_append rfl]
  simp only
  cases readPacked body <;> rfl

/-- Reading either fails for want of bytes or meets a framed hint. -/
theorem readHint_cases (bs : List Byte) : readHint bs = .ok none ∨
    ∃ (stems : List Stem) (body rest : List Byte), stems.length < 2 ^ 32 ∧ body.length < 2 ^ 32 ∧ bs = frame stems body ++ rest := by
  unfold readHint
  cases h1 : readExact 4 bs with
  | none => left; rfl
  | some p1 =>
    obtain ⟨n, b1⟩ := p1
    obtain ⟨hn, rfl⟩ := readExact_iff.1 h1
    cases h2 : readStems (leNat n) b1 [] with
    | none => left; simp only [h2]
    | some p2 =>
      obtain ⟨st, b2⟩ := p2
      obtain ⟨stems, hl, rfl, hst⟩ := (readStems_iff _ _ _ _ _).1 h2
      cases h3 : readExact 4 b2 with
      | none => left; simp only [h2, h3]
      | some p3 =>
        obtain ⟨k, b3⟩ := p3
        obtain ⟨hk, rfl⟩ := readExact_iff.1 h3
        cases h4 : readExact (leNat k) b3 with
        | none => left; simp only [h2, h3, h4]
        | some p4 =>
          obtain ⟨body, rest⟩ := p4
          obtain ⟨hbl, rfl⟩ := readExact_iff.1 h4
          right
          refine ⟨stems, body, rest, ?_, ?_, ?_⟩
          · rw [hl]; exact (le4_of hn).2
          · rw [hbl]; exact (le4_of hk).2
          · unfold frame
            rw [hl, hbl, ← (le4_of hn).1, ← (le4_of hk).1]
            simp only [List.append_assoc]

theorem readHint_ok_iff {bs rest : List Byte} {h : VerificationHint} : readHint bs = .ok (some (h, rest)) ↔
    ∃ (stems : List Stem) (body : List Byte), stems.length < 2 ^ 32 ∧ body.length < 2 ^ 32 ∧ bs = frame stems body ++ rest ∧
      (∀ b ∈ body, b.val % 4 ≠ 3) ∧ h = ⟨body.map depthOf, body.map statusOf, BSet.ofList stems⟩ := by
  constructor
  · intro hr
    rcases readHint_cases bs with hn | ⟨stems, body, rest', hs, hb, rfl⟩
    · rw [hn] at hr; cases hr
    · rw [readHint_frame hs hb] at hr
      by_cases hbad : ∃ b ∈ body, b.val % 4 = 3
      · obtain ⟨e, he⟩ := readPacked_error body hbad
        rw [he] at hr; cases hr
      · have hok : ∀ b ∈ body, b.val % 4 ≠ 3 := fun b hb h3 => hbad ⟨b, hb, h3⟩
        rw [readPacked_ok body hok] at hr
        simp only [Except.map, Except.ok.injEq, Option.some.injEq, Prod.mk.injEq] at hr
        obtain ⟨rfl, rfl⟩ := hr
        exact ⟨stems, body, hs, hb, rfl, hok, rfl⟩
  · rintro ⟨stems, body, hs, hb, rfl, hok, rfl⟩
    rw [readHint_frame hs hb, readPacked_ok body hok]; rfl

theorem readHint_error_iff {bs : List Byte} : (∃ e, readHint bs = .error e) ↔
    ∃ (stems : List Stem) (body rest : List Byte), stems.length < 2 ^ 32 ∧ body.length < 2 ^ 32 ∧ bs = frame stems body ++ rest ∧
      ∃ b ∈ body, b.val % 4 = 3 := by
  constructor
  · rintro ⟨e, he⟩
    rcases readHint_cases bs with hn | ⟨stems, body, rest, hs, hb, rfl⟩
    · rw [hn] at he; cases he
    · refine ⟨stems, body, rest, hs, hb, rfl, ?_⟩
      by_contra hbad
      rw [readHint_frame hs hb, readPacked_ok body fun b hb h3 => hbad ⟨b, hb, h3⟩] at he
      cases he
  · rintro ⟨stems, body, rest, hs, hb, rfl, hbad⟩
    obtain ⟨e, he⟩ := readPacked_error body hbad
    exact ⟨e, by rw [readHint_frame hs hb, he]; rfl⟩

/-- The byte of a depth at most 31 and a status. -/
def packed (p : Byte × ExtPresent) : Byte := asU8 (statusNum p.2 + 8 * p.1.val)

theorem packByte_eq {d : Byte} {e : ExtPresent} (hd : d.val ≤ 31) : packByte d e = .ok (packed (d, e)) := by
  unfold packByte packed
  rw [if_neg (by omega)]
  have h1 : (d.val <<< 3) % 256 = 8 * d.val := by rw [Nat.shiftLeft_eq]; omega
  rw [h1]
  congr 2
  have h2 : statusNum e ||| 8 * d.val = 2 ^ 3 * d.val + statusNum e := by
    rw [Nat.or_comm, show 8 * d.val = 2 ^ 3 * d.val by norm_num, Nat.two_pow_add_eq_or_of_lt (by cases e <;> simp [statusNum])]
  rw [h2]; simp only; omega

theorem statusNum_lt (e : ExtPresent) : statusNum e < 3 := by cases e <;> simp [statusNum]

theorem packed_val {p : Byte × ExtPresent} (hd : p.1.val ≤ 31) : (packed p).val = statusNum p.2 + 8 * p.1.val := by
  have := statusNum_lt p.2
  rw [packed, asU8_val]; omega

theorem writePacked_eq : ∀ l : List (Byte × ExtPresent), (∀ p ∈ l, p.1.val ≤ 31) → writePacked l = .ok (l.map packed)
  | [], _ => rfl
  | (d, e) :: l, h => by
    rw [writePacked, packByte_eq (h (d, e) (by simp)), writePacked_eq l fun p hp => h p (by simp [hp])]
    rfl

theorem depthOf_packed {p : Byte × ExtPresent} (hd : p.1.val ≤ 31) : depthOf (packed p) = p.1 := by
  have := statusNum_lt p.2
  apply Fin.ext
  rw [depthOf, asU8_val, packed_val hd]; omega

theorem statusOf_packed {p : Byte × ExtPresent} (hd : p.1.val ≤ 31) : statusOf (packed p) = p.2 := by
  have h : (packed p).val % 4 = statusNum p.2 := by
    have := statusNum_lt p.2
    rw [packed_val hd]; omega
  unfold statusOf
  rw [h]
  cases p.2 <;> rfl

theorem packed_mod {p : Byte × ExtPresent} (hd : p.1.val ≤ 31) : (packed p).val % 4 ≠ 3 := by
  have := statusNum_lt p.2
  rw [packed_val hd]; omega

/-- What the encoder relies on. -/
structure WfHint (h : VerificationHint) : Prop where
  len : h.depths.length = h.extensionPresent.length
  depth : ∀ d ∈ h.depths, d.val ≤ 31
  asc : Ascending h.diffStemNoProof
  stems : h.diffStemNoProof.length < 2 ^ 32
  count : h.depths.length < 2 ^ 32

theorem writeHint_eq {h : VerificationHint} (w : WfHint h) :
    writeHint h = .ok (frame h.diffStemNoProof ((h.depths.zip h.extensionPresent).map packed)) := by
  unfold writeHint
  rw [writePacked_eq _ fun p hp => w.depth p.1 (List.of_mem_zip hp).1]
  simp only [bind, Except.bind, frame, List.length_map, List.length_zip, ← w.len, min_self]

theorem readHint_writeHint {h : VerificationHint} (w : WfHint h) :
    ∃ bs, writeHint h = .ok bs ∧ ∀ rest, readHint (bs ++ rest) = .ok (some (h, rest)) := by
  refine ⟨_, writeHint_eq w, fun rest => ?_⟩
  have hd : ∀ p ∈ h.depths.zip h.extensionPresent, p.1.val ≤ 31 := fun p hp => w.depth p.1 (List.of_mem_zip hp).1
  refine readHint_ok_iff.2 ⟨_, _, w.stems, ?_, rfl, ?_, ?_⟩
  · rw [List.length_map, List.length_zip, ← w.len, min_self]; exact w.count
  · intro b hb
    obtain ⟨p, hp, rfl⟩ := List.mem_map.1 hb
    exact packed_mod (hd p hp)
  · have h1 : ((h.depths.zip h.extensionPresent).map packed).map depthOf = h.depths := by
      rw [List.map_map, List.map_congr_left (f := depthOf ∘ packed) (g := Prod.fst) fun p hp => depthOf_packed (hd p hp)]
      exact List.map_fst_zip (by rw [w.len])
    have h2 : ((h.depths.zip h.extensionPresent).map packed).map statusOf = h.extensionPresent := by
      rw [List.map_map, List.map_congr_left (f := statusOf ∘ packed) (g := Prod.snd) fun p hp => statusOf_packed (hd p hp)]
      exact List.map_snd_zip (by rw [w.len])
    rw [h1, h2, ofList_ascending w.asc]

/-- A packed byte with bit 2 clear is the one written for what it decodes to. -/
theorem packed_of {b : Byte} (h3 : b.val % 4 ≠ 3) (h2 : b.val / 4 % 2 = 0) : packed (depthOf b, statusOf b) = b := by
  have hb := b.isLt
  have hd : (depthOf b).val = b.val / 8 := by rw [depthOf, asU8_val]; omega
  have hs : statusNum (statusOf b) = b.val % 4 := by
    unfold statusOf
    have h4 : b.val % 4 < 4 := Nat.mod_lt _ (by omega)
    generalize b.val % 4 = x at h3 h4
    interval_cases x <;> first | rfl | omega
  apply Fin.ext
  rw [packed, asU8_val, hs, hd]; omega

/-! ### Chunks and opening proofs -/

theorem chunksExact_flatMap {α : Type} (f : α → List Byte) {n : ℕ} (hn : 0 < n) (hf : ∀ x, (f x).length = n) (l : List α) :
    chunksExact n (l.flatMap f) = l.map f := by
  have hlen : (l.flatMap f).length = l.length * n := by
    rw [List.length_flatMap, List.map_congr_left (g := fun _ => n) fun x _ => hf x]; simp
  unfold chunksExact
  rw [hlen, Nat.mul_div_cancel _ hn]
  have key : ∀ (l : List α) (i : ℕ) (hi : i < l.length), ((l.flatMap f).drop (i * n)).take n = f l[i] := by
    intro l
    induction l with
    | nil => intro i hi; simp at hi
    | cons x l ih =>
      intro i hi
      rw [List.flatMap_cons]
      cases i with
      | zero => simp only [Nat.zero_mul, List.drop_zero]; exact List.take_left' (hf x)
      | succ i =>
        rw [show (i + 1) * n = n + i * n by ring, ← List.drop_drop, List.drop_left' (hf x)]
        exact ih i (by simpa using hi)
  apply List.ext_getElem (by simp)
  intro i h1 h2
  simp only [List.length_map, List.length_range] at h1
  simp only [List.getElem_map, List.getElem_range]
  exact key l i h1

section
variable {F G : Type} (K : WireCodec F G)

theorem readElems_map : ∀ (l : List G) (cs : List (List Byte)),
    readElems K l.length (l.map K.encE ++ cs) = .ok (some (l, cs))
  | [], cs => rfl
  | x :: l, cs => by
    simp only [List.length_cons, List.map_cons, List.cons_append, readElems, K.dec_encE, readElems_map l cs, bind, Except.bind]

theorem chunks_ipa (p : IpaProof F G) : chunksExact 32 (ipaToBytes K p) = p.L.map K.encE ++ (p.R.map K.encE ++ [K.encS p.a]) := by
  have := chunksExact_flatMap (α := G ⊕ F) (Sum.elim K.encE K.encS) (n := 32) (by omega)
    (by rintro (x | x); exacts [K.encE_len x, K.encS_len x]) (p.L.map Sum.inl ++ p.R.map Sum.inl ++ [Sum.inr p.a])
  simpa [ipaToBytes, List.flatMap_append, List.flatMap_map, List.map_append] using this

theorem flatMap_encE_length (l : List G) : (l.flatMap K.encE).length = 32 * l.length := by
  rw [List.length_flatMap, List.map_congr_left (g := fun _ => 32) fun x _ => K.encE_len x]; simp [mul_comm]

theorem ipaToBytes_length (p : IpaProof F G) : (ipaToBytes K p).length = 32 * (p.L.length + p.R.length + 1) := by
  rw [ipaToBytes, List.length_append, List.length_append, flatMap_encE_length, flatMap_encE_length, K.encS_len]; ring

theorem ipa_roundtrip (p : IpaProof F G) (deg : ℕ) (hL : p.L.length = Nat.clog 2 deg) (hR : p.R.length = Nat.clog 2 deg)
    (hsz : (Nat.clog 2 deg * 2 + 1) * 32 < 2 ^ 32) : ipaFromBytes K (ipaToBytes K p) deg = .ok (some p) := by
  unfold ipaFromBytes
  have hl : (ipaToBytes K p).length = (Nat.clog 2 deg * 2 + 1) * 32 := by rw [ipaToBytes_length, hL, hR]; ring
  rw [hl, Nat.mod_eq_of_lt hsz, if_neg (by simp), if_neg (by simp), chunks_ipa]
  have h1 := readElems_map K p.L (p.R.map K.encE ++ [K.encS p.a])
  have h2 := readElems_map K p.R [K.encS p.a]
  rw [hL] at h1
  rw [hR] at h2
  simp only [h1, h2, bind, Except.bind, K.dec_encS]

theorem multiToBytes_length (p : MultiProof F G) :
    (multiToBytes K p).length = 32 * (p.openProof.L.length + p.openProof.R.length + 2) := by
  rw [multiToBytes, List.length_append, K.encE_len, ipaToBytes_length]; ring

theorem multi_roundtrip (p : MultiProof F G) (deg : ℕ) (hL : p.openProof.L.length = Nat.clog 2 deg)
    (hR : p.openProof.R.length = Nat.clog 2 deg) (hsz : (Nat.clog 2 deg * 2 + 1) * 32 < 2 ^ 32) :
    multiFromBytes K (multiToBytes K p) deg = .ok (some p) := by
  unfold multiFromBytes
  rw [if_neg (by rw [multiToBytes_length]; omega)]
  have h1 : (multiToBytes K p).take 32 = K.encE p.gx := List.take_left' (K.encE_len _)
  have h2 : (multiToBytes K p).drop 32 = ipaToBytes K p.openProof := List.drop_left' (K.encE_len _)
  rw [h1, h2, K.dec_encE]
  simp only [ipa_roundtrip K p.openProof deg hL hR hsz, bind, Except.bind]

theorem readComms_map : ∀ (l : List G) (rest : List Byte), readComms K l.length (l.flatMap K.encE ++ rest) = some (l, rest)
  | [], rest => rfl
  | x :: l, rest => by
    simp only [List.length_cons, List.flatMap_cons, List.append_assoc, readComms, readExact_append (K.encE_len x), K.dec_encE,
      readComms_map l rest, bind, Option.bind, pure]

theorem clog256 : Nat.clog 2 256 = 8 := by
  rw [show 256 = 2 ^ 8 by norm_num, Nat.clog_pow 2 8 (by norm_num)]

theorem readProof_writeProof (p : VerkleProof G (MultiProof F G)) (w : WfHint p.hint) (hc : p.comms.length < 2 ^ 32)
    (hL : p.proof.openProof.L.length = 8) (hR : p.proof.openProof.R.length = 8) :
    ∃ bs, writeProof K p = .ok bs ∧ readProof K bs = .ok (some p) := by
  obtain ⟨bs, hw, hr⟩ := readHint_writeHint w
  refine ⟨bs ++ leBytes 4 p.comms.length ++ p.comms.flatMap K.encE ++ multiToBytes K p.proof, ?_, ?_⟩
  · simp only [writeProof, hw, bind, Except.bind]
  · have := hr (leBytes 4 p.comms.length ++ (p.comms.flatMap K.encE ++ multiToBytes K p.proof))
    simp only [readProof, List.append_assoc, this, bind, Except.bind, readExact_le4, leNat_le4 hc, readComms_map,
      multi_roundtrip K p.proof 256 (by rw [clog256, hL]) (by rw [clog256, hR]) (by rw [clog256]; norm_num)]

/-! ### What a decoded opening proof consists of -/

theorem flatten_chunksExact {n : ℕ} (hn : 0 < n) : ∀ (k : ℕ) (bs : List Byte), bs.length = k * n →
    (chunksExact n bs).flatten = bs ∧ (chunksExact n bs).length = k ∧ ∀ c ∈ chunksExact n bs, c.length = n
  | 0, bs, h => by
    have : bs = [] := List.length_eq_zero_iff.1 (by simpa using h)
    subst this
    simp [chunksExact]
  | k + 1, bs, h => by
    have hle : n ≤ bs.length := by rw [h, Nat.succ_mul]; omega
    have hd : (bs.drop n).length = k * n := by rw [List.length_drop, h, Nat.succ_mul]; omega
    obtain ⟨h1, h2, h3⟩ := flatten_chunksExact hn k (bs.drop n) hd
    have hc : chunksExact n bs = bs.take n :: chunksExact n (bs.drop n) := by
      unfold chunksExact
      rw [h, hd, Nat.mul_div_cancel _ hn, Nat.mul_div_cancel _ hn, List.range_succ_eq_map, List.map_cons, List.map_map]
      congr 1
      · simp
      · apply List.map_congr_left
        intro i _
        simp only [Function.comp, List.drop_drop]
        congr 2
        rw [Nat.succ_mul]; ring
    rw [hc]
    refine ⟨?_, by rw [List.length_cons, h2], ?_⟩
    · rw [List.flatten_cons, h1, List.take_append_drop]
    · intro c hmem
      rcases List.mem_cons.1 hmem with rfl | hmem
      · simp [hle]
      · exact h3 c hmem

theorem readElems_ok : ∀ (n : ℕ) (cs : List (List Byte)) (l : List G) (r : List (List Byte)),
    readElems K n cs = .ok (some (l, r)) →
      ∃ a, cs = a ++ r ∧ a.length = n ∧ l.length = n ∧ List.Forall₂ (fun c x => K.decE c = some x) a l
  | 0, cs, l, r, h => by
    simp only [readElems, Except.ok.injEq, Option.some.injEq, Prod.mk.injEq] at h
    obtain ⟨rfl, rfl⟩ := h
    exact ⟨[], rfl, rfl, rfl, .nil⟩
  | n + 1, [], l, r, h => by simp [readElems] at h
  | n + 1, c :: cs, l, r, h => by
    simp only [readElems] at h
    cases hx : K.decE c with
    | none => rw [hx] at h; simp at h
    | some x =>
      rw [hx] at h
      cases hr : readElems K n cs with
      | error e => rw [hr] at h; simp [bind, Except.bind] at h
      | ok o =>
        cases o with
        | none => rw [hr] at h; simp [bind, Except.bind] at h
        | some p =>
          obtain ⟨xs, r'⟩ := p
          rw [hr] at h
          simp only [bind, Except.bind, Except.ok.injEq, Option.some.injEq, Prod.mk.injEq] at h
          obtain ⟨rfl, rfl⟩ := h
          obtain ⟨a, rfl, ha, hl, hf⟩ := readElems_ok n cs xs r' hr
          exact ⟨c :: a, rfl, by simp [ha], by simp [hl], .cons hx hf⟩

/-- A decoded inner product proof: what the length was, and that every component is decoded from its own 32 bytes. -/
theorem ipaFromBytes_ok {bs : List Byte} {deg : ℕ} {p : IpaProof F G} (h : ipaFromBytes K bs deg = .ok (some p)) :
    bs.length % 2 ^ 32 = 32 * (2 * Nat.clog 2 deg + 1) ∧
      ∃ a b c d, bs = a.flatten ++ b.flatten ++ c ++ d ∧ (∀ x ∈ a, x.length = 32) ∧ (∀ x ∈ b, x.length = 32) ∧ c.length = 32 ∧
        a.length = Nat.clog 2 deg ∧ b.length = Nat.clog 2 deg ∧
        List.Forall₂ (fun c x => K.decE c = some x) a p.L ∧ List.Forall₂ (fun c x => K.decE c = some x) b p.R ∧
        K.decS c = some p.a := by
  unfold ipaFromBytes at h
  split at h
  · cases h
  · rename_i h1
    split at h
    · cases h
    · rename_i h2
      have h1 : bs.length % 2 ^ 32 = 32 * (2 * Nat.clog 2 deg + 1) := by
        have := not_not.1 h1
        rw [← this]; ring
      refine ⟨h1, ?_⟩
      obtain ⟨k, hk⟩ : ∃ k, bs.length = k * 32 := ⟨bs.length / 32, by omega⟩
      obtain ⟨hf, -, hc⟩ := flatten_chunksExact (n := 32) (by omega) k bs hk
      cases hr : readElems K (Nat.clog 2 deg) (chunksExact 32 bs) with
      | error e => rw [hr] at h; simp [bind, Except.bind] at h
      | ok o =>
        cases o with
        | none => rw [hr] at h; simp [bind, Except.bind] at h
        | some q =>
          obtain ⟨l, cs⟩ := q
          rw [hr] at h
          simp only [bind, Except.bind] at h
          cases hr2 : readElems K (Nat.clog 2 deg) cs with
          | error e => rw [hr2] at h; simp at h
          | ok o =>
            cases o with
            | none => rw [hr2] at h; simp at h
            | some q =>
              obtain ⟨r, cs'⟩ := q
              rw [hr2] at h
              simp only at h
              cases cs' with
              | nil => simp at h
              | cons c cs' =>
                simp only at h
                cases hs : K.decS c with
                | none => rw [hs] at h; simp at h
                | some y =>
                  rw [hs] at h
                  simp only [Except.ok.injEq, Option.some.injEq] at h
                  subst h
                  obtain ⟨a, ha, hal, -, haf⟩ := readElems_ok K _ _ _ _ hr
                  obtain ⟨b, rfl, hbl, -, hbf⟩ := readElems_ok K _ _ _ _ hr2
                  rw [ha] at hf hc
                  refine ⟨a, b, c, cs'.flatten, ?_, fun x hx => hc x (by simp [hx]), fun x hx => hc x (by simp [hx]),
                    hc c (by simp), hal, hbl, haf, hbf, hs⟩
                  rw [← hf]
                  simp

theorem multiFromBytes_ok {bs : List Byte} {deg : ℕ} {p : MultiProof F G} (h : multiFromBytes K bs deg = .ok (some p)) :
    32 ≤ bs.length ∧ K.decE (bs.take 32) = some p.gx ∧ ipaFromBytes K (bs.drop 32) deg = .ok (some p.openProof) := by
  unfold multiFromBytes at h
  split at h
  · cases h
  · rename_i hl
    cases hx : K.decE (bs.take 32) with
    | none => rw [hx] at h; simp at h
    | some g =>
      rw [hx] at h
      simp only at h
      cases hr : ipaFromBytes K (bs.drop 32) deg with
      | error e => rw [hr] at h; simp [bind, Except.bind] at h
      | ok o =>
        cases o with
        | none => rw [hr] at h; simp [bind, Except.bind] at h
        | some q =>
          rw [hr] at h
          simp only [bind, Except.bind, Except.ok.injEq, Option.some.injEq] at h
          subst h
          exact ⟨by omega, rfl, rfl⟩

end
end Verif.Wire
