import Verif.Ffi.JsonText
import Verif.Props.Json
import Mathlib.Data.Nat.Digits.Defs

/-!
# C88: the text of execution witnesses is read exactly
-/

set_option autoImplicit false
set_option linter.unusedSectionVars false

namespace Verif.Props
open Verif Verif.Spec Verif.Trie Verif.Proof Verif.Ipa Verif.Wire Verif.Ffi

/-! ### The grammar -/

/-- Whitespace. -/
def Blank (w : List Char) : Prop := ∀ c ∈ w, c ∈ [' ', '\n', '\t', '\r']

/-- Four hexadecimal digits. -/
def Hex4 (ds : List Char) (n : ℕ) : Prop :=
  ∃ a b c d w x y z, ds = [a, b, c, d] ∧ IsDigit a w ∧ IsDigit b x ∧ IsDigit c y ∧ IsDigit d z ∧ n = w * 16 ^ 3 + x * 16 ^ 2 + y * 16 + z

/-- One character in a string: itself, an escape, or its UTF-16 in hexadecimal. -/
inductive SpellsChar : List Char → Char → Prop
  | plain {c : Char} : c ≠ '"' → c ≠ '\\' → 32 ≤ c.toNat → SpellsChar [c] c
  | short {e c : Char} : (e, c) ∈ [('"', '"'), ('\\', '\\'), ('/', '/'), ('b', Char.ofNat 8), ('f', Char.ofNat 12), ('n', '\n'), ('r', '\r'),
      ('t', '\t')] → SpellsChar ['\\', e] c
  | unicode {ds : List Char} {c : Char} : Hex4 ds c.toNat → SpellsChar ('\\' :: 'u' :: ds) c
  | pair {ds es : List Char} {c : Char} : 0x10000 ≤ c.toNat → Hex4 ds (0xD800 + (c.toNat - 0x10000) / 1024) →
      Hex4 es (0xDC00 + (c.toNat - 0x10000) % 1024) → SpellsChar ('\\' :: 'u' :: ds ++ '\\' :: 'u' :: es) c

/-- The inside of a string. -/
inductive StrText : List Char → List Char → Prop
  | nil : StrText [] []
  | cons {p s : List Char} {c : Char} {cs : List Char} : SpellsChar p c → StrText s cs → StrText (p ++ s) (c :: cs)

/-- One character in a string or part of one, as in the grammar of RFC 8259, which does not ask surrogates to be in pairs. -/
inductive RawUnit : List Char → Prop
  | plain {c : Char} : c ≠ '"' → c ≠ '\\' → 32 ≤ c.toNat → RawUnit [c]
  | short {e : Char} : e ∈ ['"', '\\', '/', 'b', 'f', 'n', 'r', 't'] → RawUnit ['\\', e]
  | unicode {ds : List Char} {n : ℕ} : Hex4 ds n → RawUnit ('\\' :: 'u' :: ds)

/-- The inside of a string as in the grammar of RFC 8259. -/
inductive RawText : List Char → Prop
  | nil : RawText []
  | cons {p s : List Char} : RawUnit p → RawText s → RawText (p ++ s)

/-- The inside of a string, and the string if it is one in Unicode. -/
inductive NameText : List Char → Option (List Char) → Prop
  | str {s cs : List Char} : StrText s cs → NameText s (some cs)
  | bad {s : List Char} : RawText s → (∀ cs, ¬StrText s cs) → NameText s none

/-- One or more decimal digits. -/
def Decimals (ds : List Char) : Prop := ds ≠ [] ∧ ∀ c ∈ ds, 48 ≤ c.toNat ∧ c.toNat ≤ 57

/-- Decimal digits with no zero before them. -/
def NatText (ds : List Char) : Prop := Decimals ds ∧ (ds.head? = some '0' → ds.length = 1)

/-- Nothing, or a point and digits. -/
def FracText (fr : List Char) : Prop := fr = [] ∨ ∃ t, fr = '.' :: t ∧ Decimals t

/-- Nothing, or an exponent. -/
def ExpText (ex : List Char) : Prop :=
  ex = [] ∨ ∃ e s t, ex = e :: (s ++ t) ∧ (e = 'e' ∨ e = 'E') ∧ (s = [] ∨ s = ['+'] ∨ s = ['-']) ∧ Decimals t

/-- Numbers. -/
inductive NumText : List Char → JValue → Prop
  | nat {ds : List Char} : NatText ds → NumText ds (.num (Nat.ofDigits 10 (ds.reverse.map fun c => c.toNat - 48)))
  | other {sg ds fr ex : List Char} : (sg = [] ∨ sg = ['-']) → NatText ds → FracText fr → ExpText ex → ¬(sg = [] ∧ fr = [] ∧ ex = []) →
      NumText (sg ++ ds ++ fr ++ ex) .other

mutual

/-- A JSON value, with no whitespace around it (RFC 8259). -/
inductive ValueText : List Char → JValue → Prop
  | null : ValueText "null".toList .null
  | tt : ValueText "true".toList (.bool true)
  | ff : ValueText "false".toList (.bool false)
  | num {s : List Char} {j : JValue} : NumText s j → ValueText s j
  | str {s cs : List Char} : NameText s (some cs) → ValueText ('"' :: s ++ ['"']) (.str cs)
  | badStr {s : List Char} : NameText s none → ValueText ('"' :: s ++ ['"']) .other
  | arrNil {w : List Char} : Blank w → ValueText ('[' :: w ++ [']']) (.arr [])
  | arr {s : List Char} {l : List JValue} : ItemsText s l → ValueText ('[' :: s ++ [']']) (.arr l)
  | objNil {w : List Char} : Blank w → ValueText ('{' :: w ++ ['}']) (.obj [])
  | obj {s : List Char} {l : List (List Char × JValue)} : FieldsText s (l.map fun f => (some f.1, f.2)) → ValueText ('{' :: s ++ ['}']) (.obj l)
  | badObj {s : List Char} {l : List (Option (List Char) × JValue)} : FieldsText s l → (∃ f ∈ l, f.1 = none) → ValueText ('{' :: s ++ ['}']) .other

/-- Values between commas. -/
inductive ItemsText : List Char → List JValue → Prop
  | one {w s u : List Char} {v : JValue} : Blank w → ValueText s v → Blank u → ItemsText (w ++ s ++ u) [v]
  | cons {w s u t : List Char} {v : JValue} {l : List JValue} : Blank w → ValueText s v → Blank u → ItemsText t l →
      ItemsText (w ++ s ++ u ++ ',' :: t) (v :: l)

/-- Fields between commas. -/
inductive FieldsText : List Char → List (Option (List Char) × JValue) → Prop
  | one {w k x y s u : List Char} {n : Option (List Char)} {v : JValue} : Blank w → NameText k n → Blank x → Blank y → ValueText s v → Blank u →
      FieldsText (w ++ '"' :: (k ++ '"' :: (x ++ ':' :: (y ++ s ++ u)))) [(n, v)]
  | cons {w k x y s u t : List Char} {n : Option (List Char)} {v : JValue} {l : List (Option (List Char) × JValue)} : Blank w → NameText k n → Blank x → Blank y →
      ValueText s v → Blank u → FieldsText t l →
      FieldsText (w ++ '"' :: (k ++ '"' :: (x ++ ':' :: (y ++ s ++ u ++ ',' :: t)))) ((n, v) :: l)

end

/-- A text: a value with whitespace around it. -/
def JsonText (t : List Char) (j : JValue) : Prop := ∃ w s u, Blank w ∧ ValueText s j ∧ Blank u ∧ t = w ++ s ++ u

/-! ### Whitespace -/

theorem isBlank_iff (c : Char) : Json.isBlank c = true ↔ c ∈ [' ', '\n', '\t', '\r'] := by
  simp [Json.isBlank, or_assoc]

theorem skip_append {w : List Char} (hw : Blank w) (s : List Char) : Json.skip (w ++ s) = Json.skip s := by
  unfold Json.skip
  induction w with
  | nil => rfl
  | cons c w ih =>
    have h1 : Json.isBlank c = true := (isBlank_iff c).2 (hw c (by simp))
    rw [List.cons_append, List.dropWhile_cons_of_pos h1]
    exact ih fun d hd => hw d (by simp [hd])

theorem skip_cons {c : Char} (hc : Json.isBlank c = false) (s : List Char) : Json.skip (c :: s) = c :: s :=
  List.dropWhile_cons_of_neg (by simp [hc])

theorem skip_decomp (s : List Char) : ∃ w, Blank w ∧ s = w ++ Json.skip s :=
  ⟨s.takeWhile Json.isBlank, fun c hc => (isBlank_iff c).1 (by simpa using List.all_takeWhile (p := Json.isBlank) (l := s) |> List.all_eq_true.1 |> fun h => h c hc), (List.takeWhile_append_dropWhile).symm⟩

theorem skip_blank {w : List Char} (hw : Blank w) : Json.skip w = [] := by
  have := skip_append hw []
  simpa [Json.skip] using this

/-! ### Strings -/

theorem hex4_iff (s : List Char) (n : ℕ) (r : List Char) : Json.hex4 s = some (n, r) ↔ ∃ ds, s = ds ++ r ∧ Hex4 ds n := by
  constructor
  · intro h
    unfold Json.hex4 at h
    split at h
    · next a b c d r' =>
      cases ha : hexVal a with
      | none => simp [ha] at h
      | some w =>
      cases hb : hexVal b with
      | none => simp [ha, hb] at h
      | some x =>
      cases hc : hexVal c with
      | none => simp [ha, hb, hc] at h
      | some y =>
      cases hd : hexVal d with
      | none => simp [ha, hb, hc, hd] at h
      | some z =>
      simp only [ha, hb, hc, hd, bind, Option.bind, Option.some.injEq, Prod.mk.injEq] at h
      obtain ⟨rfl, rfl⟩ := h
      exact ⟨[a, b, c, d], rfl, a, b, c, d, w, x, y, z, rfl, (hexVal_iff _ _).1 ha, (hexVal_iff _ _).1 hb, (hexVal_iff _ _).1 hc,
        (hexVal_iff _ _).1 hd, by ring⟩
    · cases h
  · rintro ⟨ds, rfl, a, b, c, d, w, x, y, z, rfl, ha, hb, hc, hd, rfl⟩
    simp only [List.cons_append, List.nil_append, Json.hex4, (hexVal_iff _ _).2 ha, (hexVal_iff _ _).2 hb, (hexVal_iff _ _).2 hc,
      (hexVal_iff _ _).2 hd, bind, Option.bind, Option.some.injEq, Prod.mk.injEq, and_true]
    ring

theorem Hex4.lt {ds : List Char} {n : ℕ} (h : Hex4 ds n) : n < 0x10000 := by
  obtain ⟨a, b, c, d, w, x, y, z, -, ha, hb, hc, hd, rfl⟩ := h
  have := digit_lt ha
  have := digit_lt hb
  have := digit_lt hc
  have := digit_lt hd
  omega

theorem ofNat_toNat' {n : ℕ} (h : n.isValidChar) : (Char.ofNat n).toNat = n := by
  unfold Char.ofNat
  rw [dif_pos h]
  rfl

theorem char_not_surrogate (c : Char) : c.toNat < 0xD800 ∨ 0xDFFF < c.toNat ∧ c.toNat < 0x110000 := c.valid

theorem unicodeEscape_sound {s : List Char} {c : Char} {r : List Char} (h : Json.unicodeEscape s = some (c, r)) :
    ∃ p, s = p ++ r ∧ SpellsChar ('\\' :: 'u' :: p) c := by
  unfold Json.unicodeEscape at h
  cases h4 : Json.hex4 s with
  | none => simp [h4] at h
  | some q =>
  obtain ⟨n, r1⟩ := q
  obtain ⟨ds, rfl, hds⟩ := (hex4_iff s n r1).1 h4
  have hn := hds.lt
  simp only [h4, bind, Option.bind] at h
  split at h
  · cases h
  next hlo =>
  split at h
  · next hhi =>
    split at h
    · next r2 =>
      cases h5 : Json.hex4 r2 with
      | none => simp [h5] at h
      | some q =>
      obtain ⟨m, r3⟩ := q
      obtain ⟨es, rfl, hes⟩ := (hex4_iff r2 m r3).1 h5
      simp only [h5] at h
      split at h
      · next hm =>
        simp only [Option.some.injEq, Prod.mk.injEq] at h
        obtain ⟨rfl, rfl⟩ := h
        have hv : (Char.ofNat ((n - 0xD800) * 1024 + (m - 0xDC00) + 0x10000)).toNat = (n - 0xD800) * 1024 + (m - 0xDC00) + 0x10000 :=
          ofNat_toNat' (Or.inr ⟨by omega, by omega⟩)
        refine ⟨ds ++ '\\' :: 'u' :: es, by simp, ?_⟩
        refine SpellsChar.pair (by rw [hv]; omega) ?_ ?_
        · rw [hv]
          have : 0xD800 + ((n - 0xD800) * 1024 + (m - 0xDC00) + 0x10000 - 0x10000) / 1024 = n := by omega
          rw [this]
          exact hds
        · rw [hv]
          have : 0xDC00 + ((n - 0xD800) * 1024 + (m - 0xDC00) + 0x10000 - 0x10000) % 1024 = m := by omega
          rw [this]
          exact hes
      · cases h
    · cases h
  · next hhi =>
    simp only [Option.some.injEq, Prod.mk.injEq] at h
    obtain ⟨rfl, rfl⟩ := h
    refine ⟨ds, rfl, .unicode ?_⟩
    rw [ofNat_toNat' ?_]
    · exact hds
    · unfold Nat.isValidChar
      omega

theorem unicodeEscape_one {ds : List Char} {c : Char} (h : Hex4 ds c.toNat) (r : List Char) : Json.unicodeEscape (ds ++ r) = some (c, r) := by
  have hc := char_not_surrogate c
  unfold Json.unicodeEscape
  simp only [(hex4_iff _ _ _).2 ⟨ds, rfl, h⟩, bind, Option.bind]
  rw [if_neg (by omega), if_neg (by omega), Char.ofNat_toNat]

theorem unicodeEscape_pair {ds es : List Char} {c : Char} (h0 : 0x10000 ≤ c.toNat) (h1 : Hex4 ds (0xD800 + (c.toNat - 0x10000) / 1024))
    (h2 : Hex4 es (0xDC00 + (c.toNat - 0x10000) % 1024)) (r : List Char) :
    Json.unicodeEscape (ds ++ '\\' :: 'u' :: es ++ r) = some (c, r) := by
  have hc := char_not_surrogate c
  unfold Json.unicodeEscape
  rw [List.append_assoc]
  simp only [(hex4_iff _ _ _).2 ⟨ds, rfl, h1⟩, bind, Option.bind]
  rw [if_neg (by omega), if_pos (by omega)]
  simp only [List.cons_append, (hex4_iff _ _ _).2 ⟨es, rfl, h2⟩]
  rw [if_pos (by omega)]
  have : (0xD800 + (c.toNat - 0x10000) / 1024 - 0xD800) * 1024 + (0xDC00 + (c.toNat - 0x10000) % 1024 - 0xDC00) + 0x10000 = c.toNat := by omega
  rw [this, Char.ofNat_toNat]

theorem lookup_short (e c : Char) : Json.shortEscapes.lookup e = some c ↔
    (e, c) ∈ [('"', '"'), ('\\', '\\'), ('/', '/'), ('b', Char.ofNat 8), ('f', Char.ofNat 12), ('n', '\n'), ('r', '\r'), ('t', '\t')] := by
  unfold Json.shortEscapes
  constructor
  · intro h
    simp only [List.lookup] at h
    repeat' split at h
    all_goals first | (cases h; done) | skip
    all_goals simp_all
    all_goals exact h.symm
  · intro h
    simp only [List.mem_cons, Prod.mk.injEq, List.not_mem_nil, or_false] at h
    rcases h with ⟨rfl, rfl⟩ | ⟨rfl, rfl⟩ | ⟨rfl, rfl⟩ | ⟨rfl, rfl⟩ | ⟨rfl, rfl⟩ | ⟨rfl, rfl⟩ | ⟨rfl, rfl⟩ | ⟨rfl, rfl⟩ <;> rfl

theorem escape_sound {s : List Char} {c : Char} {r : List Char} (h : Json.escape s = some (c, r)) :
    ∃ p, s = p ++ r ∧ SpellsChar ('\\' :: p) c := by
  cases s with
  | nil => cases h
  | cons e s =>
    simp only [Json.escape] at h
    split at h
    · next he =>
      obtain ⟨p, rfl, hp⟩ := unicodeEscape_sound h
      exact ⟨'u' :: p, by rw [he]; rfl, hp⟩
    · simp only [Option.map_eq_some_iff, Prod.mk.injEq] at h
      obtain ⟨d, hd, rfl, rfl⟩ := h
      exact ⟨[e], rfl, .short ((lookup_short _ _).1 hd)⟩

theorem parseStr_sound : ∀ (n : ℕ) (s cs r : List Char), Json.parseStr n s = some (cs, r) → ∃ p, s = p ++ '"' :: r ∧ StrText p cs
  | 0, _, _, _, h => by simp [Json.parseStr] at h
  | _ + 1, [], _, _, h => by simp [Json.parseStr] at h
  | n + 1, c :: s, cs, r, h => by
    unfold Json.parseStr at h
    split at h
    · next hc =>
      simp only [Option.some.injEq, Prod.mk.injEq] at h
      obtain ⟨rfl, rfl⟩ := h
      exact ⟨[], by rw [hc]; rfl, .nil⟩
    next hq =>
    split at h
    · next hc =>
      cases he : Json.escape s with
      | none => simp [he] at h
      | some q =>
      obtain ⟨d, s1⟩ := q
      obtain ⟨p, rfl, hp⟩ := escape_sound he
      cases hs : Json.parseStr n s1 with
      | none => simp [he, hs] at h
      | some q =>
      obtain ⟨ds, s2⟩ := q
      simp only [he, hs, bind, Option.bind, Option.some.injEq, Prod.mk.injEq] at h
      obtain ⟨rfl, rfl⟩ := h
      obtain ⟨p', rfl, hp'⟩ := parseStr_sound n s1 _ _ hs
      exact ⟨('\\' :: p) ++ p', by rw [hc]; simp, .cons hp hp'⟩
    next hb =>
    split at h
    · cases h
    next h32 =>
      cases hs : Json.parseStr n s with
      | none => simp [hs] at h
      | some q =>
      obtain ⟨ds, s2⟩ := q
      simp only [hs, bind, Option.bind, Option.some.injEq, Prod.mk.injEq] at h
      obtain ⟨rfl, rfl⟩ := h
      obtain ⟨p', rfl, hp'⟩ := parseStr_sound n s _ _ hs
      exact ⟨[c] ++ p', by simp, .cons (.plain hq hb (by omega)) hp'⟩

theorem parseStr_char {p : List Char} {c : Char} (h : SpellsChar p c) (n : ℕ) (s : List Char) :
    Json.parseStr (n + 1) (p ++ s) = (Json.parseStr n s).map fun q => (c :: q.1, q.2) := by
  have hopt : ∀ o : Option (List Char × List Char), (o.bind fun q => some (c :: q.1, q.2)) = o.map fun q => (c :: q.1, q.2) := by
    rintro (_ | q) <;> rfl
  cases h with
  | plain h1 h2 h3 =>
    simp only [List.cons_append, List.nil_append, Json.parseStr]
    rw [if_neg h1, if_neg h2, if_neg (by omega)]
    exact hopt _
  | short h =>
    rename_i e
    have hu : e ≠ 'u' := by
      rintro rfl
      simp at h
    simp only [List.cons_append, List.nil_append, Json.parseStr]
    rw [if_neg (by decide), if_pos trivial]
    simp only [Json.escape, if_neg hu, (lookup_short _ _).2 h, Option.map_some, bind, Option.bind_some]
    exact hopt _
  | unicode h =>
    simp only [List.cons_append, Json.parseStr]
    rw [if_neg (by decide), if_pos trivial]
    simp only [Json.escape, if_true, unicodeEscape_one h, bind, Option.bind_some]
    exact hopt _
  | pair h0 h1 h2 =>
    simp only [List.cons_append, Json.parseStr]
    rw [if_neg (by decide), if_pos trivial]
    have := unicodeEscape_pair h0 h1 h2 s
    simp only [List.append_assoc, List.cons_append] at this ⊢
    simp only [Json.escape, if_true, this, bind, Option.bind_some]
    exact hopt _

theorem SpellsChar.pos {p : List Char} {c : Char} (h : SpellsChar p c) : 1 ≤ p.length := by cases h <;> simp

theorem parseStr_complete {p cs : List Char} (h : StrText p cs) : ∀ (n : ℕ) (r : List Char), p.length + 1 ≤ n →
    Json.parseStr n (p ++ '"' :: r) = some (cs, r) := by
  induction h with
  | nil =>
    rintro (_ | n) r hn
    · simp at hn
    · simp [Json.parseStr]
  | cons hc _ ih =>
    rintro (_ | n) r hn
    · simp at hn
    · rw [List.append_assoc, parseStr_char hc, ih n r (by have := hc.pos; simp at hn; omega)]
      rfl

theorem rawEscape_sound {s e r : List Char} (h : Json.rawEscape s = some (e, r)) : s = e ++ r ∧ RawUnit ('\\' :: e) := by
  cases s with
  | nil => cases h
  | cons c s =>
    simp only [Json.rawEscape] at h
    split at h
    · next hc =>
      split at h
      · next h4 =>
        simp only [Option.some.injEq, Prod.mk.injEq] at h
        obtain ⟨rfl, rfl⟩ := h
        obtain ⟨⟨n, r⟩, hq⟩ := Option.isSome_iff_exists.1 h4
        obtain ⟨ds, rfl, hds⟩ := (hex4_iff _ _ _).1 hq
        have hlen : ds.length = 4 := by
          obtain ⟨a, b, c, d, _, _, _, _, rfl, -⟩ := hds
          rfl
        refine ⟨by rw [hc]; simp, ?_⟩
        rw [List.take_append_of_le_length (by omega), List.take_of_length_le (by omega)]
        exact .unicode hds
      · cases h
    · split at h
      · next hs =>
        simp only [Option.some.injEq, Prod.mk.injEq] at h
        obtain ⟨rfl, rfl⟩ := h
        obtain ⟨d, hd⟩ := Option.isSome_iff_exists.1 hs
        have := (lookup_short _ _).1 hd
        refine ⟨rfl, .short ?_⟩
        simp only [List.mem_cons, Prod.mk.injEq, List.not_mem_nil, or_false] at this ⊢
        tauto
      · cases h

theorem rawStr_sound : ∀ (n : ℕ) (s p r : List Char), Json.rawStr n s = some (p, r) → s = p ++ '"' :: r ∧ RawText p
  | 0, _, _, _, h => by simp [Json.rawStr] at h
  | _ + 1, [], _, _, h => by simp [Json.rawStr] at h
  | n + 1, c :: s, p, r, h => by
    unfold Json.rawStr at h
    split at h
    · next hc =>
      simp only [Option.some.injEq, Prod.mk.injEq] at h
      obtain ⟨rfl, rfl⟩ := h
      exact ⟨by rw [hc]; rfl, .nil⟩
    next hq =>
    split at h
    · next hc =>
      cases he : Json.rawEscape s with
      | none => simp [he] at h
      | some q =>
      obtain ⟨e, s1⟩ := q
      obtain ⟨rfl, hp⟩ := rawEscape_sound he
      cases hs : Json.rawStr n s1 with
      | none => simp [he, hs] at h
      | some q =>
      obtain ⟨p', s2⟩ := q
      simp only [he, hs, bind, Option.bind, Option.some.injEq, Prod.mk.injEq] at h
      obtain ⟨rfl, rfl⟩ := h
      obtain ⟨rfl, hp'⟩ := rawStr_sound n s1 _ _ hs
      exact ⟨by rw [hc]; simp, .cons hp hp'⟩
    next hb =>
    split at h
    · cases h
    next h32 =>
      cases hs : Json.rawStr n s with
      | none => simp [hs] at h
      | some q =>
      obtain ⟨p', s2⟩ := q
      simp only [hs, bind, Option.bind, Option.some.injEq, Prod.mk.injEq] at h
      obtain ⟨rfl, rfl⟩ := h
      obtain ⟨rfl, hp'⟩ := rawStr_sound n s _ _ hs
      exact ⟨by simp, .cons (p := [c]) (.plain hq hb (by omega)) hp'⟩

theorem rawStr_unit {p : List Char} (h : RawUnit p) (n : ℕ) (s : List Char) :
    Json.rawStr (n + 1) (p ++ s) = (Json.rawStr n s).map fun q => (p ++ q.1, q.2) := by
  have hopt : ∀ o : Option (List Char × List Char), (o.bind fun q => some (p ++ q.1, q.2)) = o.map fun q => (p ++ q.1, q.2) := by
    rintro (_ | q) <;> rfl
  cases h with
  | plain h1 h2 h3 =>
    simp only [List.cons_append, List.nil_append, Json.rawStr]
    rw [if_neg h1, if_neg h2, if_neg (by omega)]
    exact hopt _
  | short h =>
    rename_i e
    have hu : e ≠ 'u' := by
      rintro rfl
      simp at h
    have hl : (Json.shortEscapes.lookup e).isSome = true := by
      simp only [List.mem_cons, List.not_mem_nil, or_false] at h
      rcases h with rfl | rfl | rfl | rfl | rfl | rfl | rfl | rfl <;> rfl
    simp only [List.cons_append, List.nil_append, Json.rawStr]
    rw [if_neg (by decide), if_pos trivial]
    simp only [Json.rawEscape, if_neg hu, hl, if_true, bind, Option.bind_some]
    exact hopt _
  | unicode h =>
    rename_i ds m
    have hlen : ds.length = 4 := by
      obtain ⟨a, b, c, d, _, _, _, _, rfl, -⟩ := h
      rfl
    have h4 : (Json.hex4 (ds ++ s)).isSome = true := by rw [(hex4_iff _ _ _).2 ⟨ds, rfl, h⟩]; rfl
    simp only [List.cons_append, Json.rawStr]
    rw [if_neg (by decide), if_pos trivial]
    simp only [Json.rawEscape, if_true, h4, bind, Option.bind_some]
    rw [List.take_append_of_le_length (by omega), List.take_of_length_le (by omega), List.drop_append_of_le_length (by omega),
      List.drop_of_length_le (by omega), List.nil_append]
    exact hopt _

theorem RawUnit.pos {p : List Char} (h : RawUnit p) : 1 ≤ p.length := by cases h <;> simp

theorem rawStr_complete {p : List Char} (h : RawText p) : ∀ (n : ℕ) (r : List Char), p.length + 1 ≤ n →
    Json.rawStr n (p ++ '"' :: r) = some (p, r) := by
  induction h with
  | nil =>
    rintro (_ | n) r hn
    · simp at hn
    · simp [Json.rawStr]
  | cons hc _ ih =>
    rintro (_ | n) r hn
    · simp at hn
    · rw [List.append_assoc, rawStr_unit hc, ih n r (by have := hc.pos; simp at hn; omega)]
      rfl

theorem RawText.append {p s : List Char} (hp : RawText p) (hs : RawText s) : RawText (p ++ s) := by
  induction hp with
  | nil => exact hs
  | cons h _ ih => rw [List.append_assoc]; exact .cons h ih

theorem SpellsChar.raw {p : List Char} {c : Char} (h : SpellsChar p c) : RawText p := by
  have one : ∀ {p}, RawUnit p → RawText p := fun {p} h => by simpa using RawText.cons h .nil
  cases h with
  | plain h1 h2 h3 => exact one (.plain h1 h2 h3)
  | short h =>
    refine one (.short ?_)
    simp only [List.mem_cons, Prod.mk.injEq, List.not_mem_nil, or_false] at h ⊢
    tauto
  | unicode h => exact one (.unicode h)
  | pair _ h1 h2 => exact (one (.unicode h1)).append (one (.unicode h2))

theorem StrText.raw {p cs : List Char} (h : StrText p cs) : RawText p := by
  induction h with
  | nil => exact .nil
  | cons h _ ih => exact h.raw.append ih

theorem NameText.raw {p : List Char} {o : Option (List Char)} (h : NameText p o) : RawText p := by
  cases h with
  | str h => exact h.raw
  | bad h => exact h

theorem decoded_iff {p : List Char} (hp : RawText p) (o : Option (List Char)) :
    (Json.parseStr (p.length + 1) (p ++ ['"'])).map Prod.fst = o ↔ NameText p o := by
  have h1 : ∀ cs, StrText p cs → (Json.parseStr (p.length + 1) (p ++ ['"'])).map Prod.fst = some cs := fun cs h => by
    rw [parseStr_complete h _ [] le_rfl]
    rfl
  constructor
  · rintro rfl
    cases h : Json.parseStr (p.length + 1) (p ++ ['"']) with
    | none =>
      refine .bad hp fun cs hcs => ?_
      have := h1 cs hcs
      rw [h] at this
      cases this
    | some q =>
      obtain ⟨cs, r⟩ := q
      obtain ⟨p', e, hp'⟩ := parseStr_sound _ _ _ _ h
      have e1 := rawStr_complete hp (p.length + p'.length + 1) [] (by omega)
      have e2 := rawStr_complete hp'.raw (p.length + p'.length + 1) r (by omega)
      rw [e, e2] at e1
      cases e1
      exact .str hp'
  · intro h
    cases h with
    | str h => exact h1 _ h
    | bad _ h =>
      cases h' : Json.parseStr (p.length + 1) (p ++ ['"']) with
      | none => rfl
      | some q =>
        obtain ⟨cs, r⟩ := q
        obtain ⟨p', e, hp'⟩ := parseStr_sound _ _ _ _ h'
        have e1 := rawStr_complete hp (p.length + p'.length + 1) [] (by omega)
        have e2 := rawStr_complete hp'.raw (p.length + p'.length + 1) r (by omega)
        rw [e, e2] at e1
        cases e1
        exact absurd hp' (h cs)

theorem stringAt_sound {s : List Char} {o : Option (List Char)} {r : List Char} (h : Json.stringAt s = some (o, r)) :
    ∃ p, s = p ++ '"' :: r ∧ NameText p o := by
  unfold Json.stringAt at h
  cases hs : Json.rawStr s.length s with
  | none => simp [hs] at h
  | some q =>
  obtain ⟨p, r'⟩ := q
  simp only [hs, bind, Option.bind, Option.some.injEq, Prod.mk.injEq] at h
  obtain ⟨h, rfl⟩ := h
  obtain ⟨e, hp⟩ := rawStr_sound _ _ _ _ hs
  exact ⟨p, e, (decoded_iff hp o).1 h⟩

theorem stringAt_complete {p : List Char} {o : Option (List Char)} (h : NameText p o) (r : List Char) :
    Json.stringAt (p ++ '"' :: r) = some (o, r) := by
  unfold Json.stringAt
  rw [rawStr_complete h.raw _ r (by simp)]
  simp only [bind, Option.bind, (decoded_iff h.raw o).2 h]

theorem named_some : ∀ (l : List (Option (List Char) × JValue)) (fs : List (List Char × JValue)),
    Json.named l = some fs ↔ l = fs.map fun f => (some f.1, f.2)
  | [], fs => by cases fs <;> simp [Json.named]
  | (k, v) :: l, fs => by
    have ih := named_some l
    cases k with
    | none => cases fs <;> simp [Json.named]
    | some k =>
      cases hl : Json.named l with
      | none =>
        cases fs with
        | nil => simp [Json.named, hl]
        | cons f fs =>
          have := (ih fs).2
          rw [hl] at this
          simp only [Json.named, hl, bind, Option.bind, reduceCtorEq, List.map_cons, List.cons.injEq, false_iff, not_and]
          exact fun _ h => absurd (this h) (by simp)
      | some fs' =>
        have h' := (ih fs').1 hl
        cases fs with
        | nil => simp [Json.named, hl]
        | cons f fs =>
          have := ih fs
          rw [hl] at this
          simp only [Json.named, hl, bind, Option.bind, Option.some.injEq, List.cons.injEq, List.map_cons, Prod.mk.injEq, ← this]
          constructor
          · rintro ⟨rfl, rfl⟩
            exact ⟨⟨rfl, rfl⟩, rfl⟩
          · rintro ⟨⟨rfl, rfl⟩, rfl⟩
            exact ⟨rfl, rfl⟩

theorem named_none : ∀ l : List (Option (List Char) × JValue), Json.named l = none ↔ ∃ f ∈ l, f.1 = none
  | [] => by simp [Json.named]
  | (k, v) :: l => by
    have ih := named_none l
    cases k with
    | none => simp [Json.named]
    | some k =>
      cases hl : Json.named l with
      | none =>
        rw [hl] at ih
        simpa [Json.named, hl] using ih
      | some fs =>
        rw [hl] at ih
        simp only [reduceCtorEq, false_iff, not_exists, not_and] at ih
        simp only [Json.named, hl, bind, Option.bind, reduceCtorEq, List.mem_cons, exists_eq_or_imp, false_or, false_iff, not_exists, not_and]
        exact ih

theorem objValue_ok {s : List Char} {l : List (Option (List Char) × JValue)} (h : FieldsText s l) :
    ValueText ('{' :: s ++ ['}']) (Json.objValue l) := by
  unfold Json.objValue
  cases hl : Json.named l with
  | none => exact .badObj h ((named_none l).1 hl)
  | some fs =>
    rw [named_some] at hl
    rw [hl] at h
    exact .obj h

/-! ### Numbers -/

theorem isDec_iff (c : Char) : Json.isDec c = true ↔ 48 ≤ c.toNat ∧ c.toNat ≤ 57 := by simp [Json.isDec]

theorem decValue_eq (ds : List Char) : Json.decValue ds = Nat.ofDigits 10 (ds.reverse.map fun c => c.toNat - 48) := by
  induction ds using List.reverseRecOn with
  | nil => rfl
  | append_singleton ds c ih =>
    unfold Json.decValue at ih ⊢
    rw [List.foldl_append, ih]
    simp [Nat.ofDigits_cons]
    ring

/-- What follows a value. -/
def Stops (r : List Char) : Prop := ∀ c, r.head? = some c → c ∈ [' ', '\n', '\t', '\r', ',', ']', '}']

theorem Stops.nil : Stops [] := by intro c h; cases h

theorem Stops.cons {c : Char} (hc : c ∈ [' ', '\n', '\t', '\r', ',', ']', '}']) (r : List Char) : Stops (c :: r) := by
  intro d hd
  cases hd
  exact hc

theorem Stops.blank {w r : List Char} (hw : Blank w) (hr : Stops r) : Stops (w ++ r) := by
  cases w with
  | nil => exact hr
  | cons c w =>
    refine .cons ?_ _
    have := hw c (by simp)
    simp only [List.mem_cons, List.not_mem_nil, or_false] at this ⊢
    tauto

/-- No digit comes next. -/
def NoDec (r : List Char) : Prop := ∀ c, r.head? = some c → Json.isDec c = false

theorem Stops.noDec {r : List Char} (h : Stops r) : NoDec r := by
  intro c hc
  have := h c hc
  simp only [List.mem_cons, List.not_mem_nil, or_false] at this
  rcases this with rfl | rfl | rfl | rfl | rfl | rfl | rfl <;> rfl

theorem take_digits : ∀ {t : List Char}, (∀ c ∈ t, 48 ≤ c.toNat ∧ c.toNat ≤ 57) → ∀ {r : List Char}, NoDec r →
    (t ++ r).takeWhile Json.isDec = t ∧ (t ++ r).dropWhile Json.isDec = r
  | [], _, r, hr => by
    cases r with
    | nil => exact ⟨rfl, rfl⟩
    | cons c r =>
      have := hr c rfl
      exact ⟨List.takeWhile_cons_of_neg (by simp [this]), List.dropWhile_cons_of_neg (by simp [this])⟩
  | c :: t, ht, r, hr => by
    have hc : Json.isDec c = true := (isDec_iff c).2 (ht c (by simp))
    obtain ⟨h1, h2⟩ := take_digits (t := t) (fun d hd => ht d (by simp [hd])) hr
    rw [List.cons_append, List.takeWhile_cons_of_pos hc, List.dropWhile_cons_of_pos hc, h1, h2]
    exact ⟨rfl, rfl⟩

theorem digits_taken (s : List Char) : ∀ c ∈ s.takeWhile Json.isDec, 48 ≤ c.toNat ∧ c.toNat ≤ 57 := fun c hc =>
  (isDec_iff c).1 (by simpa using List.all_takeWhile (p := Json.isDec) (l := s) |> List.all_eq_true.1 |> fun h => h c hc)

theorem fraction_sound {s : List Char} {b : Bool} {r : List Char} (h : Json.fraction s = some (b, r)) :
    ∃ fr, s = fr ++ r ∧ FracText fr ∧ (b = true ↔ fr ≠ []) := by
  unfold Json.fraction at h
  split at h
  · next t =>
    split at h
    · cases h
    next hne =>
    simp only [Option.some.injEq, Prod.mk.injEq] at h
    obtain ⟨rfl, rfl⟩ := h
    refine ⟨'.' :: t.takeWhile Json.isDec, by simp, Or.inr ⟨_, rfl, hne, digits_taken t⟩, by simp⟩
  · simp only [Option.some.injEq, Prod.mk.injEq] at h
    obtain ⟨rfl, rfl⟩ := h
    exact ⟨[], rfl, Or.inl rfl, by simp⟩

theorem fraction_complete {fr : List Char} (hf : FracText fr) {r : List Char} (hr : NoDec r) (hp : r.head? ≠ some '.') :
    Json.fraction (fr ++ r) = some (decide (fr ≠ []), r) := by
  rcases hf with rfl | ⟨t, rfl, h1, h2⟩
  · unfold Json.fraction
    split
    · next t heq =>
      exact absurd (by rw [← List.nil_append r, heq]; rfl) hp
    · rfl
  · obtain ⟨e1, e2⟩ := take_digits h2 hr
    simp only [List.cons_append, Json.fraction]
    rw [e1, e2, if_neg h1]
    simp

theorem expSign_decomp (r : List Char) : ∃ s, (s = [] ∨ s = ['+'] ∨ s = ['-']) ∧ r = s ++ Json.expSign r := by
  unfold Json.expSign
  split
  · exact ⟨['+'], by simp, rfl⟩
  · exact ⟨['-'], by simp, rfl⟩
  · exact ⟨[], by simp, rfl⟩

theorem expSign_append {s t : List Char} (hs : s = [] ∨ s = ['+'] ∨ s = ['-']) (ht : Decimals t) (r : List Char) :
    Json.expSign (s ++ (t ++ r)) = t ++ r := by
  rcases hs with rfl | rfl | rfl
  · obtain ⟨h1, h2⟩ := ht
    cases t with
    | nil => exact absurd rfl h1
    | cons c t =>
      have := h2 c (by simp)
      simp only [List.nil_append, List.cons_append]
      unfold Json.expSign
      split
      · next heq => cases heq; exact absurd this (by decide)
      · next heq => cases heq; exact absurd this (by decide)
      · rfl
  · rfl
  · rfl

theorem exponent_sound {s : List Char} {b : Bool} {r : List Char} (h : Json.exponent s = some (b, r)) :
    ∃ ex, s = ex ++ r ∧ ExpText ex ∧ (b = true ↔ ex ≠ []) := by
  unfold Json.exponent at h
  split at h
  · simp only [Option.some.injEq, Prod.mk.injEq] at h
    obtain ⟨rfl, rfl⟩ := h
    exact ⟨[], rfl, Or.inl rfl, by simp⟩
  · next c t =>
    split at h
    · next hc =>
      split at h
      · cases h
      next hne =>
      simp only [Option.some.injEq, Prod.mk.injEq] at h
      obtain ⟨rfl, rfl⟩ := h
      obtain ⟨sg, hsg, hdec⟩ := expSign_decomp t
      refine ⟨c :: (sg ++ (Json.expSign t).takeWhile Json.isDec), ?_, Or.inr ⟨c, sg, _, rfl, hc, hsg, hne, digits_taken _⟩, by simp⟩
      rw [List.cons_append, List.append_assoc, List.takeWhile_append_dropWhile, ← hdec]
    · simp only [Option.some.injEq, Prod.mk.injEq] at h
      obtain ⟨rfl, rfl⟩ := h
      exact ⟨[], rfl, Or.inl rfl, by simp⟩

theorem exponent_complete {ex : List Char} (hx : ExpText ex) {r : List Char} (hr : Stops r) :
    Json.exponent (ex ++ r) = some (decide (ex ≠ []), r) := by
  rcases hx with rfl | ⟨e, s, t, rfl, he, hs, ht⟩
  · cases r with
    | nil => rfl
    | cons c r =>
      have := hr c rfl
      have hc : ¬(c = 'e' ∨ c = 'E') := by
        rintro (rfl | rfl) <;> simp at this
      simp only [List.nil_append, Json.exponent, if_neg hc]
      rfl
  · obtain ⟨e1, e2⟩ := take_digits ht.2 hr.noDec
    rw [List.cons_append, List.append_assoc]
    simp only [Json.exponent]
    rw [if_pos he, expSign_append hs ht, e1, e2, if_neg ht.1]
    simp

theorem parseNat_sound {s ds r : List Char} (h : Json.parseNat s = some (ds, r)) : s = ds ++ r ∧ NatText ds := by
  unfold Json.parseNat at h
  have hd := digits_taken s
  have hs := (List.takeWhile_append_dropWhile (p := Json.isDec) (l := s)).symm
  split at h
  · cases h
  · next heq =>
    simp only [Option.some.injEq, Prod.mk.injEq] at h
    obtain ⟨rfl, rfl⟩ := h
    rw [heq] at hd hs
    exact ⟨hs, ⟨by simp, hd⟩, by simp⟩
  · cases h
  · next d ds' h1 h2 heq =>
    simp only [Option.some.injEq, Prod.mk.injEq] at h
    obtain ⟨rfl, rfl⟩ := h
    rw [heq] at hd hs
    refine ⟨hs, ⟨by simp, hd⟩, fun h0 => ?_⟩
    simp only [List.head?_cons, Option.some.injEq] at h0
    subst h0
    cases ds' with
    | nil => rfl
    | cons e ds' => exact (h2 _ _ rfl rfl).elim

theorem parseNat_complete {ds r : List Char} (h : NatText ds) (hr : NoDec r) : Json.parseNat (ds ++ r) = some (ds, r) := by
  obtain ⟨⟨h1, h2⟩, h3⟩ := h
  obtain ⟨e1, e2⟩ := take_digits h2 hr
  unfold Json.parseNat
  rw [e1, e2]
  split
  · exact absurd rfl h1
  · rfl
  · simp at h3
  · rfl

theorem parseNum_sound {s : List Char} {j : JValue} {r : List Char} (h : Json.parseNum s = some (j, r)) :
    ∃ p, s = p ++ r ∧ NumText p j := by
  unfold Json.parseNum at h
  obtain ⟨sg, hsg, hneg, hs⟩ : ∃ sg, (sg = [] ∨ sg = ['-']) ∧ (s.head? = some '-' ↔ sg ≠ []) ∧
      s = sg ++ (if s.head? = some '-' then s.tail else s) := by
    by_cases hn : s.head? = some '-'
    · refine ⟨['-'], by simp, by simp [hn], ?_⟩
      rw [if_pos hn]
      cases s with
      | nil => cases hn
      | cons c s => cases hn; rfl
    · exact ⟨[], by simp, by simp [hn], by rw [if_neg hn]; rfl⟩
  cases h1 : Json.parseNat (if s.head? = some '-' then s.tail else s) with
  | none => simp [h1] at h
  | some q =>
  obtain ⟨ds, r1⟩ := q
  cases h2 : Json.fraction r1 with
  | none => simp [h1, h2] at h
  | some q =>
  obtain ⟨f, r2⟩ := q
  cases h3 : Json.exponent r2 with
  | none => simp [h1, h2, h3] at h
  | some q =>
  obtain ⟨e, r3⟩ := q
  simp only [h1, h2, h3, bind, Option.bind, Option.some.injEq, Prod.mk.injEq] at h
  obtain ⟨rfl, rfl⟩ := h
  obtain ⟨hd1, hd2⟩ := parseNat_sound h1
  obtain ⟨fr, hf1, hf2, hf3⟩ := fraction_sound h2
  obtain ⟨ex, he1, he2, he3⟩ := exponent_sound h3
  rw [hd1, hf1, he1] at hs
  by_cases hall : sg = [] ∧ fr = [] ∧ ex = []
  · rw [if_neg (by rw [hneg, hf3, he3]; tauto)]
    obtain ⟨rfl, rfl, rfl⟩ := hall
    refine ⟨ds, by simpa using hs, ?_⟩
    rw [decValue_eq]
    exact .nat hd2
  · rw [if_pos (by rw [hneg, hf3, he3]; tauto)]
    exact ⟨_, by simpa using hs, .other hsg hd2 hf2 he2 hall⟩

theorem parseNum_complete {p : List Char} {j : JValue} (h : NumText p j) {r : List Char} (hr : Stops r) :
    Json.parseNum (p ++ r) = some (j, r) := by
  have main : ∀ {sg ds fr ex : List Char}, (sg = [] ∨ sg = ['-']) → NatText ds → FracText fr → ExpText ex →
      Json.parseNum (sg ++ (ds ++ (fr ++ (ex ++ r)))) =
        some (if sg ≠ [] ∨ fr ≠ [] ∨ ex ≠ [] then .other else .num (Json.decValue ds), r) := by
    intro sg ds fr ex hsg hds hfr hex
    have hn1 : NoDec (ex ++ r) ∧ (ex ++ r).head? ≠ some '.' := by
      rcases hex with rfl | ⟨e, s, t, rfl, he, -⟩
      · refine ⟨hr.noDec, fun h => ?_⟩
        have := hr _ h
        simp at this
      · constructor
        · intro c hc
          cases hc
          rcases he with rfl | rfl <;> rfl
        · rcases he with rfl | rfl <;> simp
    have hn2 : NoDec (fr ++ (ex ++ r)) := by
      rcases hfr with rfl | ⟨t, rfl, -⟩
      · exact hn1.1
      · intro c hc
        cases hc
        rfl
    have hneg : (sg ++ (ds ++ (fr ++ (ex ++ r)))).head? = some '-' ↔ sg ≠ [] := by
      rcases hsg with rfl | rfl
      · obtain ⟨⟨h1, h2⟩, -⟩ := hds
        cases ds with
        | nil => exact absurd rfl h1
        | cons c ds =>
          have := h2 c (by simp)
          simp only [List.nil_append, List.cons_append, List.head?_cons, Option.some.injEq, ne_eq, not_true_eq_false, iff_false]
          rintro rfl
          exact absurd this (by decide)
      · simp
    have htail : (if (sg ++ (ds ++ (fr ++ (ex ++ r)))).head? = some '-' then (sg ++ (ds ++ (fr ++ (ex ++ r)))).tail
        else sg ++ (ds ++ (fr ++ (ex ++ r)))) = ds ++ (fr ++ (ex ++ r)) := by
      by_cases h0 : sg = []
      · rw [if_neg (by rw [hneg]; simpa using h0), h0]
        rfl
      · rw [if_pos (hneg.2 h0)]
        rcases hsg with rfl | rfl
        · exact absurd rfl h0
        · rfl
    unfold Json.parseNum
    simp only [htail, parseNat_complete hds hn2, fraction_complete hfr hn1.1 hn1.2, exponent_complete hex hr, bind, Option.bind]
    congr 2
    simp only [hneg, decide_eq_true_eq]
  cases h with
  | nat hds =>
    have := main (sg := []) (fr := []) (ex := []) (Or.inl rfl) hds (Or.inl rfl) (Or.inl rfl)
    simpa [decValue_eq] using this
  | other hsg hds hfr hex hall =>
    have := main hsg hds hfr hex
    rw [if_pos (by tauto)] at this
    simpa using this

theorem NumText.head {p : List Char} {j : JValue} (h : NumText p j) : ∃ c t, p = c :: t ∧ (c = '-' ∨ 48 ≤ c.toNat ∧ c.toNat ≤ 57) := by
  cases h with
  | nat hds =>
    obtain ⟨⟨h1, h2⟩, -⟩ := hds
    cases p with
    | nil => exact absurd rfl h1
    | cons c t => exact ⟨c, t, rfl, Or.inr (h2 c (by simp))⟩
  | @other sg ds fr ex hsg hds =>
    rcases hsg with rfl | rfl
    · obtain ⟨⟨h1, h2⟩, -⟩ := hds
      cases ds with
      | nil => exact absurd rfl h1
      | cons c t => exact ⟨c, _, rfl, Or.inr (h2 c (by simp))⟩
    · exact ⟨'-', _, rfl, Or.inl rfl⟩

/-! ### Values -/

theorem take_drop {r : List Char} {n : ℕ} {l : List Char} (h : r.take n = l) : r = l ++ r.drop n := by rw [← h, List.take_append_drop]

theorem parse_sound : ∀ n : ℕ,
    (∀ s j r, Json.parseValue n s = some (j, r) → ∃ w p, Blank w ∧ s = w ++ p ++ r ∧ ValueText p j) ∧
    (∀ s l r, Json.parseItems n s = some (l, r) → ∃ p, s = p ++ ']' :: r ∧ ItemsText p l) ∧
    (∀ s l r, Json.parseFields n s = some (l, r) → ∃ p, s = p ++ '}' :: r ∧ FieldsText p l)
  | 0 => by
    refine ⟨?_, ?_, ?_⟩ <;> intro s j r h
    · simp [Json.parseValue] at h
    · simp [Json.parseItems] at h
    · simp [Json.parseFields] at h
  | n + 1 => by
    obtain ⟨ihv, ihi, ihf⟩ := parse_sound n
    refine ⟨?_, ?_, ?_⟩
    · intro s j r h
      obtain ⟨w, hw, hs⟩ := skip_decomp s
      suffices hp : ∃ p, Json.skip s = p ++ r ∧ ValueText p j by
        obtain ⟨p, h1, h2⟩ := hp
        exact ⟨w, p, hw, by rw [hs, h1, List.append_assoc], h2⟩
      unfold Json.parseValue at h
      cases hk : Json.skip s with
      | nil => simp [hk] at h
      | cons c t =>
      simp only [hk] at h
      split at h
      · next hc =>
        split at h
        · next ht =>
          simp only [Option.some.injEq, Prod.mk.injEq] at h
          obtain ⟨rfl, rfl⟩ := h
          exact ⟨"null".toList, by rw [hc]; exact congrArg _ (take_drop ht), .null⟩
        · cases h
      split at h
      · next hc =>
        split at h
        · next ht =>
          simp only [Option.some.injEq, Prod.mk.injEq] at h
          obtain ⟨rfl, rfl⟩ := h
          exact ⟨"true".toList, by rw [hc]; exact congrArg _ (take_drop ht), .tt⟩
        · cases h
      split at h
      · next hc =>
        split at h
        · next ht =>
          simp only [Option.some.injEq, Prod.mk.injEq] at h
          obtain ⟨rfl, rfl⟩ := h
          exact ⟨"false".toList, by rw [hc]; exact congrArg _ (take_drop ht), .ff⟩
        · cases h
      split at h
      · next hc =>
        simp only [Option.map_eq_some_iff, Prod.mk.injEq, Prod.exists] at h
        obtain ⟨o, r', h, rfl, rfl⟩ := h
        obtain ⟨p, rfl, hp⟩ := stringAt_sound h
        refine ⟨'"' :: p ++ ['"'], by rw [hc]; simp, ?_⟩
        cases o with
        | none => exact .badStr hp
        | some cs => exact .str hp
      split at h
      · next hc =>
        split at h
        · next he =>
          simp only [Option.some.injEq, Prod.mk.injEq] at h
          obtain ⟨rfl, rfl⟩ := h
          obtain ⟨w', hw', ht⟩ := skip_decomp t
          cases hk' : Json.skip t with
          | nil => simp [hk'] at he
          | cons d u =>
            rw [hk'] at he ht
            cases he
            exact ⟨'[' :: w' ++ [']'], by rw [hc, ht]; simp, .arrNil hw'⟩
        · simp only [Option.map_eq_some_iff, Prod.mk.injEq, Prod.exists] at h
          obtain ⟨l, r', h, rfl, rfl⟩ := h
          obtain ⟨p, rfl, hp⟩ := ihi _ _ _ h
          exact ⟨'[' :: p ++ [']'], by rw [hc]; simp, .arr hp⟩
      split at h
      · next hc =>
        split at h
        · next he =>
          simp only [Option.some.injEq, Prod.mk.injEq] at h
          obtain ⟨rfl, rfl⟩ := h
          obtain ⟨w', hw', ht⟩ := skip_decomp t
          cases hk' : Json.skip t with
          | nil => simp [hk'] at he
          | cons d u =>
            rw [hk'] at he ht
            cases he
            exact ⟨'{' :: w' ++ ['}'], by rw [hc, ht]; simp, .objNil hw'⟩
        · simp only [Option.map_eq_some_iff, Prod.mk.injEq, Prod.exists] at h
          obtain ⟨l, r', h, rfl, rfl⟩ := h
          obtain ⟨p, rfl, hp⟩ := ihf _ _ _ h
          exact ⟨'{' :: p ++ ['}'], by rw [hc]; simp, objValue_ok hp⟩
      · obtain ⟨p, h1, h2⟩ := parseNum_sound h
        exact ⟨p, h1, .num h2⟩
    · intro s l r h
      unfold Json.parseItems at h
      cases hv : Json.parseValue n s with
      | none => simp [hv] at h
      | some q =>
      obtain ⟨v, r1⟩ := q
      obtain ⟨w, p, hw, rfl, hp⟩ := ihv _ _ _ hv
      simp only [hv, bind, Option.bind] at h
      obtain ⟨u, hu, hr1⟩ := skip_decomp r1
      cases hk : Json.skip r1 with
      | nil => simp [hk] at h
      | cons c t =>
      rw [hk] at hr1
      simp only [hk] at h
      split at h
      · next hc =>
        simp only [Option.some.injEq, Prod.mk.injEq] at h
        obtain ⟨rfl, rfl⟩ := h
        exact ⟨w ++ p ++ u, by rw [hr1, hc]; simp, .one hw hp hu⟩
      split at h
      · next hc =>
        simp only [Option.map_eq_some_iff, Prod.mk.injEq, Prod.exists] at h
        obtain ⟨l', r', h, rfl, rfl⟩ := h
        obtain ⟨p', rfl, hp'⟩ := ihi _ _ _ h
        exact ⟨w ++ p ++ u ++ ',' :: p', by rw [hr1, hc]; simp, .cons hw hp hu hp'⟩
      · cases h
    · intro s l r h
      unfold Json.parseFields at h
      obtain ⟨w, hw, hs⟩ := skip_decomp s
      cases hk : Json.skip s with
      | nil => simp [hk] at h
      | cons q t =>
      rw [hk] at hs
      simp only [hk] at h
      split at h
      · next hq =>
        subst hq
        cases hstr : Json.stringAt t with
        | none => simp [hstr] at h
        | some q =>
        obtain ⟨k, t1⟩ := q
        obtain ⟨ks, rfl, hks⟩ := stringAt_sound hstr
        simp only [hstr, bind, Option.bind] at h
        obtain ⟨x, hx, ht1⟩ := skip_decomp t1
        cases hk1 : Json.skip t1 with
        | nil => simp [hk1] at h
        | cons q t2 =>
        rw [hk1] at ht1
        simp only [hk1] at h
        split at h
        · next hq =>
          subst hq
          cases hv : Json.parseValue n t2 with
          | none => simp [hv] at h
          | some q =>
          obtain ⟨v, r1⟩ := q
          obtain ⟨y, p, hy, rfl, hp⟩ := ihv _ _ _ hv
          simp only [hv] at h
          obtain ⟨u, hu, hr1⟩ := skip_decomp r1
          cases hk2 : Json.skip r1 with
          | nil => simp [hk2] at h
          | cons c t3 =>
          rw [hk2] at hr1
          simp only [hk2] at h
          split at h
          · next hc =>
            simp only [Option.some.injEq, Prod.mk.injEq] at h
            obtain ⟨rfl, rfl⟩ := h
            exact ⟨_, by rw [hs, ht1, hr1, hc]; simp, .one hw hks hx hy hp hu⟩
          split at h
          · next hc =>
            simp only [Option.map_eq_some_iff, Prod.mk.injEq, Prod.exists] at h
            obtain ⟨l', r', h, rfl, rfl⟩ := h
            obtain ⟨p', rfl, hp'⟩ := ihf _ _ _ h
            exact ⟨_, by rw [hs, ht1, hr1, hc]; simp, .cons hw hks hx hy hp hu hp'⟩
          · cases h
        · cases h
      · cases h

theorem blank_false {c : Char} (h : c ∉ [' ', '\n', '\t', '\r']) : Json.isBlank c = false := by
  cases hb : Json.isBlank c with
  | false => rfl
  | true => exact absurd ((isBlank_iff c).1 hb) h

/-- No value begins with whitespace or a closing bracket. -/
theorem ValueText.head {s : List Char} {j : JValue} (h : ValueText s j) :
    ∃ c t, s = c :: t ∧ Json.isBlank c = false ∧ c ≠ ']' ∧ c ≠ '}' := by
  cases h with
  | null => exact ⟨'n', _, rfl, by decide, by decide, by decide⟩
  | tt => exact ⟨'t', _, rfl, by decide, by decide, by decide⟩
  | ff => exact ⟨'f', _, rfl, by decide, by decide, by decide⟩
  | num h =>
    obtain ⟨c, t, rfl, hc⟩ := h.head
    refine ⟨c, t, rfl, ?_, ?_, ?_⟩
    · apply blank_false
      intro hm
      simp only [List.mem_cons, List.not_mem_nil, or_false] at hm
      rcases hm with rfl | rfl | rfl | rfl <;> exact absurd hc (by decide)
    · rintro rfl
      exact absurd hc (by decide)
    · rintro rfl
      exact absurd hc (by decide)
  | badStr => exact ⟨'"', _, rfl, by decide, by decide, by decide⟩
  | badObj => exact ⟨'{', _, rfl, by decide, by decide, by decide⟩
  | str => exact ⟨'"', _, rfl, by decide, by decide, by decide⟩
  | arrNil => exact ⟨'[', _, rfl, by decide, by decide, by decide⟩
  | arr => exact ⟨'[', _, rfl, by decide, by decide, by decide⟩
  | objNil => exact ⟨'{', _, rfl, by decide, by decide, by decide⟩
  | obj => exact ⟨'{', _, rfl, by decide, by decide, by decide⟩

theorem ItemsText.head {s : List Char} {l : List JValue} (h : ItemsText s l) (r : List Char) : (Json.skip (s ++ r)).head? ≠ some ']' := by
  cases h with
  | one hw hv hu =>
    obtain ⟨c, t, rfl, h1, h2, -⟩ := hv.head
    rw [List.append_assoc, List.append_assoc, skip_append hw, List.cons_append, skip_cons h1]
    simpa using h2
  | cons hw hv hu =>
    obtain ⟨c, t, rfl, h1, h2, -⟩ := hv.head
    rw [List.append_assoc, List.append_assoc, List.append_assoc, skip_append hw, List.cons_append, skip_cons h1]
    simpa using h2

theorem FieldsText.head {s : List Char} {l : List (Option (List Char) × JValue)} (h : FieldsText s l) (r : List Char) :
    (Json.skip (s ++ r)).head? ≠ some '}' := by
  cases h with
  | one hw =>
    rw [List.append_assoc, skip_append hw, List.cons_append, skip_cons (by decide)]
    simp
  | cons hw =>
    rw [List.append_assoc, skip_append hw, List.cons_append, skip_cons (by decide)]
    simp

mutual

theorem value_complete : ∀ {s : List Char} {j : JValue}, ValueText s j → ∀ {w r : List Char}, Blank w → Stops r → ∀ {n : ℕ}, 2 * s.length ≤ n →
    Json.parseValue n (w ++ (s ++ r)) = some (j, r)
  | _, _, .null, w, r, hw, hr, n, hn => by
    obtain ⟨n, rfl⟩ : ∃ m, n = m + 1 := ⟨n - 1, by simp at hn; omega⟩
    unfold Json.parseValue
    rw [skip_append hw]
    have e : "null".toList ++ r = 'n' :: 'u' :: 'l' :: 'l' :: r := rfl
    rw [e, skip_cons (by decide)]
    simp
  | _, _, .tt, w, r, hw, hr, n, hn => by
    obtain ⟨n, rfl⟩ : ∃ m, n = m + 1 := ⟨n - 1, by simp at hn; omega⟩
    unfold Json.parseValue
    rw [skip_append hw]
    have e : "true".toList ++ r = 't' :: 'r' :: 'u' :: 'e' :: r := rfl
    rw [e, skip_cons (by decide)]
    simp
  | _, _, .ff, w, r, hw, hr, n, hn => by
    obtain ⟨n, rfl⟩ : ∃ m, n = m + 1 := ⟨n - 1, by simp at hn; omega⟩
    unfold Json.parseValue
    rw [skip_append hw]
    have e : "false".toList ++ r = 'f' :: 'a' :: 'l' :: 's' :: 'e' :: r := rfl
    rw [e, skip_cons (by decide)]
    simp
  | s, _, .num h, w, r, hw, hr, n, hn => by
    obtain ⟨c, t, rfl, hc⟩ := h.head
    have hb : Json.isBlank c = false := by
      obtain ⟨c', t', e, h1, -⟩ := (ValueText.num h).head
      cases e
      exact h1
    obtain ⟨n, rfl⟩ : ∃ m, n = m + 1 := ⟨n - 1, by simp at hn; omega⟩
    have hpn := parseNum_complete h hr
    unfold Json.parseValue
    rw [skip_append hw, List.cons_append, skip_cons hb]
    rw [List.cons_append] at hpn
    have hne : ∀ d : Char, ¬(d = '-' ∨ 48 ≤ d.toNat ∧ d.toNat ≤ 57) → c ≠ d := fun d hd e => hd (e ▸ hc)
    simp only [if_neg (hne 'n' (by decide)), if_neg (hne 't' (by decide)), if_neg (hne 'f' (by decide)), if_neg (hne '"' (by decide)),
      if_neg (hne '[' (by decide)), if_neg (hne '{' (by decide))]
    exact hpn
  | _, _, .str (s := s) h, w, r, hw, hr, n, hn => by
    obtain ⟨n, rfl⟩ : ∃ m, n = m + 1 := ⟨n - 1, by simp at hn; omega⟩
    unfold Json.parseValue
    rw [skip_append hw, List.append_assoc, List.cons_append, skip_cons (by decide)]
    simp [stringAt_complete h, Json.strValue]
  | _, _, .badStr (s := s) h, w, r, hw, hr, n, hn => by
    obtain ⟨n, rfl⟩ : ∃ m, n = m + 1 := ⟨n - 1, by simp at hn; omega⟩
    unfold Json.parseValue
    rw [skip_append hw, List.append_assoc, List.cons_append, skip_cons (by decide)]
    simp [stringAt_complete h, Json.strValue]
  | _, _, .arrNil hb, w, r, hw, hr, n, hn => by
    obtain ⟨n, rfl⟩ : ∃ m, n = m + 1 := ⟨n - 1, by simp at hn; omega⟩
    unfold Json.parseValue
    rw [skip_append hw, List.append_assoc, List.cons_append, skip_cons (by decide)]
    simp [skip_append hb, skip_cons (c := ']') (by decide)]
  | _, _, .arr h, w, r, hw, hr, n, hn => by
    obtain ⟨n, rfl⟩ : ∃ m, n = m + 1 := ⟨n - 1, by simp at hn; omega⟩
    unfold Json.parseValue
    rw [skip_append hw, List.append_assoc, List.cons_append, skip_cons (by decide)]
    have h1 := h.head (']' :: r)
    have h2 := items_complete h (r := r) (n := n) (by simp at hn; omega)
    simp [h1, h2]
  | _, _, .objNil hb, w, r, hw, hr, n, hn => by
    obtain ⟨n, rfl⟩ : ∃ m, n = m + 1 := ⟨n - 1, by simp at hn; omega⟩
    unfold Json.parseValue
    rw [skip_append hw, List.append_assoc, List.cons_append, skip_cons (by decide)]
    simp [skip_append hb, skip_cons (c := '}') (by decide)]
  | _, _, .obj (l := l) h, w, r, hw, hr, n, hn => by
    obtain ⟨n, rfl⟩ : ∃ m, n = m + 1 := ⟨n - 1, by simp at hn; omega⟩
    unfold Json.parseValue
    rw [skip_append hw, List.append_assoc, List.cons_append, skip_cons (by decide)]
    have h1 := h.head ('}' :: r)
    have h2 := fields_complete h (r := r) (n := n) (by simp at hn; omega)
    have h3 := (named_some (l.map fun f => (some f.1, f.2)) l).2 rfl
    simp [h1, h2, Json.objValue, h3]
  | _, _, .badObj h hbad, w, r, hw, hr, n, hn => by
    obtain ⟨n, rfl⟩ : ∃ m, n = m + 1 := ⟨n - 1, by simp at hn; omega⟩
    unfold Json.parseValue
    rw [skip_append hw, List.append_assoc, List.cons_append, skip_cons (by decide)]
    have h1 := h.head ('}' :: r)
    have h2 := fields_complete h (r := r) (n := n) (by simp at hn; omega)
    have h3 := (named_none _).2 hbad
    simp [h1, h2, Json.objValue, h3]

theorem items_complete : ∀ {s : List Char} {l : List JValue}, ItemsText s l → ∀ {r : List Char} {n : ℕ}, 2 * s.length + 1 ≤ n →
    Json.parseItems n (s ++ ']' :: r) = some (l, r)
  | _, _, .one (w := w) (s := s) (u := u) hw hv hu, r, n, hn => by
    obtain ⟨n, rfl⟩ : ∃ m, n = m + 1 := ⟨n - 1, by omega⟩
    have h1 := value_complete hv hw (Stops.blank hu (Stops.cons (c := ']') (by simp) r)) (n := n) (by simp at hn; omega)
    unfold Json.parseItems
    have e : w ++ s ++ u ++ ']' :: r = w ++ (s ++ (u ++ ']' :: r)) := by simp
    rw [e, h1]
    simp [skip_append hu, skip_cons (c := ']') (by decide)]
  | _, _, .cons (w := w) (s := s) (u := u) (t := t) hw hv hu ht, r, n, hn => by
    obtain ⟨n, rfl⟩ : ∃ m, n = m + 1 := ⟨n - 1, by omega⟩
    have h1 := value_complete hv hw (Stops.blank hu (Stops.cons (c := ',') (by simp) (t ++ ']' :: r))) (n := n) (by simp at hn; omega)
    have h2 := items_complete ht (r := r) (n := n) (by simp at hn; omega)
    unfold Json.parseItems
    have e : w ++ s ++ u ++ ',' :: t ++ ']' :: r = w ++ (s ++ (u ++ ',' :: (t ++ ']' :: r))) := by simp
    rw [e, h1]
    simp [skip_append hu, skip_cons (c := ',') (by decide), h2]

theorem fields_complete : ∀ {s : List Char} {l : List (Option (List Char) × JValue)}, FieldsText s l → ∀ {r : List Char} {n : ℕ}, 2 * s.length + 1 ≤ n →
    Json.parseFields n (s ++ '}' :: r) = some (l, r)
  | _, _, .one (w := w) (k := k) (x := x) (y := y) (s := s) (u := u) hw hk hx hy hv hu, r, n, hn => by
    obtain ⟨n, rfl⟩ : ∃ m, n = m + 1 := ⟨n - 1, by omega⟩
    have h1 := value_complete hv hy (Stops.blank hu (Stops.cons (c := '}') (by simp) r)) (n := n) (by simp at hn; omega)
    unfold Json.parseFields
    have e : w ++ '"' :: (k ++ '"' :: (x ++ ':' :: (y ++ s ++ u))) ++ '}' :: r =
      w ++ '"' :: (k ++ '"' :: (x ++ ':' :: (y ++ (s ++ (u ++ '}' :: r))))) := by simp
    have h0 := stringAt_complete hk (x ++ ':' :: (y ++ (s ++ (u ++ '}' :: r))))
    rw [e, skip_append hw, skip_cons (by decide)]
    simp only [if_true, h0, bind, Option.bind, skip_append hx, skip_cons (c := ':') (by decide), h1, skip_append hu,
      skip_cons (c := '}') (by decide)]
  | _, _, .cons (w := w) (k := k) (x := x) (y := y) (s := s) (u := u) (t := t) hw hk hx hy hv hu ht, r, n, hn => by
    obtain ⟨n, rfl⟩ : ∃ m, n = m + 1 := ⟨n - 1, by omega⟩
    have h1 := value_complete hv hy (Stops.blank hu (Stops.cons (c := ',') (by simp) (t ++ '}' :: r))) (n := n) (by simp at hn; omega)
    have h2 := fields_complete ht (r := r) (n := n) (by simp at hn; omega)
    unfold Json.parseFields
    have e : w ++ '"' :: (k ++ '"' :: (x ++ ':' :: (y ++ s ++ u ++ ',' :: t))) ++ '}' :: r =
      w ++ '"' :: (k ++ '"' :: (x ++ ':' :: (y ++ (s ++ (u ++ ',' :: (t ++ '}' :: r)))))) := by simp
    have h0 := stringAt_complete hk (x ++ ':' :: (y ++ (s ++ (u ++ ',' :: (t ++ '}' :: r)))))
    rw [e, skip_append hw, skip_cons (by decide)]
    simp only [if_true, h0, bind, Option.bind, skip_append hx, skip_cons (c := ':') (by decide), h1, skip_append hu,
      skip_cons (c := ',') (by decide), h2, Option.map_some]
    rw [if_neg (by decide)]

end

/-- **C88** (grammar): the parser takes exactly the texts of RFC 8259, and takes each for the value it spells. -/
theorem C88_grammar (t : List Char) (j : JValue) : Json.parseText t = some j ↔ JsonText t j := by
  unfold Json.parseText JsonText
  constructor
  · intro h
    cases hv : Json.parseValue (2 * t.length + 2) t with
    | none => simp [hv] at h
    | some q =>
    obtain ⟨v, r⟩ := q
    obtain ⟨w, p, hw, e, hp⟩ := (parse_sound _).1 _ _ _ hv
    simp only [hv, bind, Option.bind] at h
    split at h
    · next hr =>
      cases h
      obtain ⟨u, hu, hd⟩ := skip_decomp r
      rw [hr, List.append_nil] at hd
      exact ⟨w, p, r, hw, hp, hd ▸ hu, e⟩
    · cases h
  · rintro ⟨w, s, u, hw, hs, hu, rfl⟩
    have h := value_complete hs hw (r := u) (by simpa using Stops.blank hu Stops.nil) (n := 2 * (w ++ s ++ u).length + 2) (by simp; omega)
    rw [← List.append_assoc] at h
    simp [-List.length_append, -List.append_assoc, h, skip_blank hu]

/-- A text spells one value only. -/
theorem JsonText.unique {t : List Char} {j j' : JValue} (h : JsonText t j) (h' : JsonText t j') : j = j' := by
  rw [← C88_grammar] at h h'
  rw [h] at h'
  exact Option.some.inj h'

/-- **C88** (reading text): `from_json_str` reads a text as a record exactly when the text is JSON that says it; otherwise it panics. -/
theorem C88_text (t : List Char) :
    (∀ w, Json.readText t = .ok w ↔ ∃ j, JsonText t j ∧ SaysWitness j w) ∧
    ((∃ e, Json.readText t = .error e) ↔ ¬∃ j w, JsonText t j ∧ SaysWitness j w) := by
  have main : ∀ w, Json.readText t = .ok w ↔ ∃ j, JsonText t j ∧ SaysWitness j w := by
    intro w
    unfold Json.readText
    simp only [← C88_grammar, ← C88_reads]
    cases Json.parseText t with
    | none => simp [unwrap, bind, Except.bind]
    | some j => simp [unwrap, bind, Except.bind]
  refine ⟨main, ?_⟩
  cases h : Json.readText t with
  | error e =>
    refine ⟨fun _ => ?_, fun _ => ⟨e, rfl⟩⟩
    rintro ⟨j, w, h1, h2⟩
    have := (main w).2 ⟨j, h1, h2⟩
    rw [h] at this
    cases this
  | ok w =>
    obtain ⟨j, h1, h2⟩ := (main w).1 h
    refine ⟨?_, fun hn => absurd ⟨j, w, h1, h2⟩ hn⟩
    rintro ⟨e, he⟩
    cases he

end Verif.Props
