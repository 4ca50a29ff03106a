import Verif.Props.CrsSeed
import Verif.Props.Witness
import Verif.Bander.CrsHex

/-!
# C53, C64: the reference string as hexadecimal strings

Sources: `/repo/ipa-multipoint/src/crs.rs:12-16,52-72`, `/repo/ipa-multipoint/src/default_crs.rs`.
-/

set_option autoImplicit false

namespace Verif.Props
open Proof Bander Wire

/-- The characters written by `hex::encode`. -/
def LowerHex (c : Char) : Prop := ('0' ≤ c ∧ c ≤ '9') ∨ ('a' ≤ c ∧ c ≤ 'f')

instance (c : Char) : Decidable (LowerHex c) := by unfold LowerHex; infer_instance

theorem hexDigit_lower : ∀ n < 16, LowerHex (hexDigit n) := by decide

theorem hexVal_digit : ∀ n < 16, Ffi.hexVal (hexDigit n) = some n := by decide

/-- A digit is read by its value alone, and only digits are read. -/
theorem hexVal_lt {c : Char} {n : ℕ} (h : Ffi.hexVal c = some n) : n < 16 := by
  unfold Ffi.hexVal at h
  split_ifs at h <;> simp only [Option.some.injEq] at h <;> omega

theorem hexDecode_encode : ∀ bs : List Byte, Ffi.hexDecode (hexEncode bs) = some bs
  | [] => rfl
  | b :: bs => by
    have hb := b.2
    rw [hexEncode, Ffi.hexDecode, hexVal_digit _ (by omega), hexVal_digit _ (by omega), hexDecode_encode bs]
    simp only [Option.bind_eq_bind, Option.bind_some, Option.some.injEq, List.cons.injEq, and_true]
    apply Fin.ext
    simp only [asU8, Fin.val_ofNat]
    omega

theorem hexEncode_length : ∀ bs : List Byte, (hexEncode bs).length = 2 * bs.length
  | [] => rfl
  | b :: bs => by rw [hexEncode, List.length_cons, List.length_cons, hexEncode_length bs, List.length_cons]; omega

theorem hexEncode_lower : ∀ bs : List Byte, ∀ c ∈ hexEncode bs, LowerHex c
  | [], c, h => by cases h
  | b :: bs, c, h => by
    have hb := b.2
    rw [hexEncode, List.mem_cons, List.mem_cons] at h
    rcases h with rfl | rfl | h
    · exact hexDigit_lower _ (by omega)
    · exact hexDigit_lower _ (by omega)
    · exact hexEncode_lower bs c h

/-- `hex::decode` reads two digits a byte. -/
theorem hexDecode_length : ∀ (cs : List Char) (bs : List Byte), Ffi.hexDecode cs = some bs → cs.length = 2 * bs.length
  | [], bs, h => by cases h; rfl
  | [_], bs, h => by cases h
  | a :: b :: cs, bs, h => by
    rw [Ffi.hexDecode] at h
    simp only [Option.bind_eq_bind, Option.bind_eq_some_iff, Option.some.injEq] at h
    obtain ⟨x, -, y, -, bs', h3, rfl⟩ := h
    have := hexDecode_length cs bs' h3
    simp only [List.length_cons]
    omega

theorem hexEncode_append : ∀ bs bs' : List Byte, hexEncode (bs ++ bs') = hexEncode bs ++ hexEncode bs'
  | [], _ => rfl
  | b :: bs, bs' => by rw [List.cons_append, hexEncode, hexEncode_append bs bs']; rfl

theorem encode_reverse : ∀ k n : ℕ,
    hexEncode (leBytes k n).reverse = (List.range (2 * k)).map fun i => hexDigit (n / 16 ^ (2 * k - 1 - i) % 16)
  | 0, n => rfl
  | k + 1, n => by
    rw [leBytes, List.reverse_cons, hexEncode_append, encode_reverse k, show 2 * (k + 1) = 2 * k + 1 + 1 by ring, List.range_succ,
      List.range_succ, List.map_append, List.map_append, List.append_assoc]
    congr 1
    · refine List.map_congr_left fun i hi => ?_
      have hi := List.mem_range.1 hi
      rw [Nat.div_div_eq_div_mul, show 2 * k + 1 + 1 - 1 - i = 2 + (2 * k - 1 - i) by omega, pow_add]
      norm_num
    · have e1 : 2 * k + 1 + 1 - 1 - 2 * k = 1 := by omega
      have e2 : 2 * k + 1 + 1 - 1 - (2 * k + 1) = 0 := by omega
      simp only [List.map_cons, List.map_nil, e1, e2, hexEncode, asU8, Fin.val_ofNat, pow_one, pow_zero, Nat.div_one, List.cons_append,
        List.nil_append]
      rw [show n % 256 / 16 = n / 16 % 16 by omega, show n % 256 % 16 = n % 16 by omega]

/-- The digits of a number are the digits of its bytes. -/
theorem digits_encode (n : ℕ) : digits128 n = hexEncode (hexBytes n) := (encode_reverse 64 n).symm

theorem entry_encode {b : List Byte} (h : b.length = 64) : crsEntry (hexEncode b) = .ok b := by
  rw [crsEntry, hexDecode_encode]
  change (if b.length = 64 then _ else _) = _
  rw [if_pos h]

theorem entries_encode : ∀ {bs : List (List Byte)}, (∀ b ∈ bs, b.length = 64) → (bs.map hexEncode).mapM crsEntry = .ok bs
  | [], _ => rfl
  | b :: bs, h => by
    rw [List.map_cons, List.mapM_cons, entry_encode (h b (by simp)), entries_encode fun b hb => h b (List.mem_cons_of_mem _ hb)]
    rfl

/-- C53.  Through strings: for every reference string of valid points, `to_hex` writes one string of 128 lower case digits a
point, `Q` last, and `from_hex` reads them as the same points in affine form. -/
theorem C53_hex_roundtrip (crs : Crs Bander.q) (hn : crs.n = crs.G.length) (v : ∀ p ∈ crs.Q :: crs.G, Valid coeffA coeffD p) :
    ∃ ss crs', crs.toHex = .ok ss ∧ ss.length = crs.n + 1 ∧ (∀ s ∈ ss, s.length = 128 ∧ ∀ c ∈ s, LowerHex c) ∧
      Crs.fromHex ss = .ok crs' ∧ crs'.n = crs.n ∧
      List.Forall₂ (fun p p' => p'.x = p.x / p.z ∧ p'.y = p.y / p.z ∧ p'.z = 1 ∧ p'.t = p'.x * p'.y) (crs.Q :: crs.G) (crs'.Q :: crs'.G) := by
  obtain ⟨bs, crs', h1, h2, h3, h4, h5⟩ := C53_roundtrip crs hn v
  refine ⟨bs.map hexEncode, crs', ?_, ?_, ?_, ?_, h4, h5⟩
  · rw [Crs.toHex, h1]
    rfl
  · simp only [Crs.toBytes, bind, Except.bind] at h1
    split at h1
    · cases h1
    · rename_i l hl
      have hl := ((mapM_ok_iff _ _).1 hl).length_eq
      split at h1
      · cases h1
      · injection h1 with h1
        rw [← h1, List.length_map, List.length_append, ← hl, hn]
        rfl
  · intro s hs
    obtain ⟨b, hb, rfl⟩ := List.mem_map.1 hs
    exact ⟨by rw [hexEncode_length, h2 b hb], hexEncode_lower b⟩
  · rw [Crs.fromHex, entries_encode h2]
    exact h3

theorem deFq_ok {b : List Byte} (h : b.length = 32) : (∃ x, deFq (q := Bander.q) b = some x) ↔ leNat b < Bander.q := by
  rw [deFq, readExact, if_pos h.ge]
  dsimp only
  rw [List.take_of_length_le h.le]
  split_ifs with h1
  · exact ⟨fun _ => h1, fun _ => ⟨_, rfl⟩⟩
  · simp [h1]

theorem unchecked_ok {b : List Byte} (h : b.length = 64) : (∃ p, fromBytesUnchecked (q := Bander.q) b = .ok p) ↔
    leNat (b.take 32) < Bander.q ∧ leNat (b.drop 32) < Bander.q := by
  rw [← deFq_ok (by rw [List.length_take]; omega), ← deFq_ok (by rw [List.length_drop]; omega), fromBytesUnchecked]
  cases deFq (q := Bander.q) (b.take 32) <;> cases deFq (q := Bander.q) (b.drop 32) <;> simp

theorem entry_ok {s : List Char} {b : List Byte} : crsEntry s = .ok b ↔ Ffi.hexDecode s = some b ∧ b.length = 64 := by
  rw [crsEntry]
  cases hd : Ffi.hexDecode s with
  | none => simp [unwrap, bind, Except.bind]
  | some c =>
    change (if c.length = 64 then Except.ok c else _) = _ ↔ _
    split_ifs with hc
    · simp only [Except.ok.injEq, Option.some.injEq]
      exact ⟨fun h => ⟨h, h ▸ hc⟩, fun h => h.1⟩
    · simp only [Option.some.injEq, false_iff]
      rintro ⟨rfl, h⟩
      exact hc h

theorem fromBytes_ok (bs : List (List Byte)) : (∃ crs : Crs Bander.q, Crs.fromBytes bs = .ok crs) ↔
    bs ≠ [] ∧ ∀ b ∈ bs, ∃ p, fromBytesUnchecked (q := Bander.q) b = .ok p := by
  rcases List.eq_nil_or_concat' bs with rfl | ⟨l, b, rfl⟩
  · simp [Crs.fromBytes]
  rw [Crs.fromBytes, List.getLast?_concat, List.dropLast_concat]
  dsimp only
  constructor
  · rintro ⟨crs, h⟩
    cases h1 : fromBytesUnchecked (q := Bander.q) b with
    | error e => rw [h1] at h; cases h
    | ok Q =>
      cases h2 : l.mapM (fromBytesUnchecked (q := Bander.q)) with
      | error e => rw [h1, h2] at h; cases h
      | ok G =>
        refine ⟨by simp, fun c hc => ?_⟩
        rcases List.mem_append.1 hc with hc | hc
        · obtain ⟨i, hi, rfl⟩ := List.mem_iff_getElem.1 hc
          have h3 := (mapM_ok_iff _ _).1 h2
          exact ⟨_, h3.get hi (h3.length_eq ▸ hi)⟩
        · rw [List.mem_singleton.1 hc]
          exact ⟨Q, h1⟩
  · rintro ⟨-, h⟩
    obtain ⟨Q, h1⟩ := h b (by simp)
    obtain ⟨G, h2, -⟩ := mapM_forall₂ (R := fun _ _ => True) (f := fromBytesUnchecked (q := Bander.q)) (l := l) fun c hc => by
      obtain ⟨p, hp⟩ := h c (List.mem_append_left _ hc)
      exact ⟨p, hp, trivial⟩
    exact ⟨⟨G.length, G, Q⟩, by rw [h1, h2]; rfl⟩

/-- C53.  What `from_hex` accepts, for every list of strings: it returns exactly when there is at least one string and every
string consists of 128 hexadecimal digits (of either case) whose two halves are canonical coordinates.  It never checks that the
points lie on the curve. -/
theorem C53_hex_accepts (ss : List (List Char)) :
    (∃ crs : Crs Bander.q, Crs.fromHex ss = .ok crs) ↔ ss ≠ [] ∧ ∀ s ∈ ss, ∃ bs, HexPairs s bs ∧ bs.length = 64 ∧
      leNat (bs.take 32) < Bander.q ∧ leNat (bs.drop 32) < Bander.q := by
  simp only [← hexDecode_iff]
  rw [Crs.fromHex]
  constructor
  · rintro ⟨crs, h⟩
    cases h1 : ss.mapM crsEntry with
    | error e => rw [h1] at h; cases h
    | ok bs =>
      rw [h1] at h
      obtain ⟨h2, h3⟩ := (fromBytes_ok bs).1 ⟨crs, h⟩
      have h4 := (mapM_ok_iff _ _).1 h1
      refine ⟨?_, fun s hs => ?_⟩
      · rintro rfl
        cases h4
        exact h2 rfl
      · obtain ⟨i, hi, rfl⟩ := List.mem_iff_getElem.1 hs
        have hi' : i < bs.length := h4.length_eq ▸ hi
        obtain ⟨h5, h6⟩ := entry_ok.1 (h4.get hi hi')
        exact ⟨_, h5, h6, (unchecked_ok h6).1 (h3 _ (List.getElem_mem hi'))⟩
  · rintro ⟨h1, h2⟩
    obtain ⟨bs, h3, h4⟩ := mapM_forall₂ (R := fun s b => Ffi.hexDecode s = some b ∧ b.length = 64) (f := crsEntry) (l := ss) fun s hs => by
      obtain ⟨b, h3, h4, -⟩ := h2 s hs
      exact ⟨b, entry_ok.2 ⟨h3, h4⟩, h3, h4⟩
    rw [h3]
    refine (fromBytes_ok bs).2 ⟨?_, fun b hb => ?_⟩
    · rintro rfl
      cases h4
      exact h1 rfl
    · obtain ⟨i, hi, rfl⟩ := List.mem_iff_getElem.1 hb
      have hi' : i < ss.length := h4.length_eq ▸ hi
      obtain ⟨h5, h6⟩ := h4.get hi' hi
      obtain ⟨b', h7, -, h8⟩ := h2 _ (List.getElem_mem hi')
      have h5 : Ffi.hexDecode ss[i] = some bs[i] := h5
      rw [h5] at h7
      injection h7 with h7
      subst h7
      exact (unchecked_ok h6).2 h8

/-- C53, C64.  `CRS::default()`, from the text of the table: it does not panic, it is the string generated from the seed, and
`to_hex` gives the text of the table back. -/
theorem C64_default_hex (S : Sqrt (ZMod Bander.q)) : ∃ crs : Crs Bander.q, Crs.fromHex (crsHex.map digits128) = .ok crs ∧
    Crs.new coeffA coeffD S Sha256.hash arkGenerator 256 crsSeed = .ok crs ∧ crs.toHex = .ok (crsHex.map digits128) := by
  obtain ⟨crs, h1, h2, h3⟩ := C64_seed S
  have e : crsHex.map digits128 = (crsHex.map hexBytes).map hexEncode := by
    rw [List.map_map]
    exact List.map_congr_left fun n _ => digits_encode n
  refine ⟨crs, ?_, h1, ?_⟩
  · rw [e, Crs.fromHex, entries_encode]
    · exact h3
    · intro b hb
      obtain ⟨n, -, rfl⟩ := List.mem_map.1 hb
      rw [hexBytes, List.length_reverse, leBytes_length]
  · rw [Crs.toHex, h2, e]
    rfl

end Verif.Props
