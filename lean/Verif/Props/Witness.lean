import Verif.Ffi.Witness
import Verif.Props.Ffi

/-!
# C51: execution witnesses
-/

set_option autoImplicit false
set_option linter.unusedSectionVars false

namespace Verif.Props
open Wire Proof Ipa Ffi

/-! ### Strings of hexadecimal digits -/

/-- The character is the digit with value `n`, in either case. -/
def IsDigit (c : Char) (n : ℕ) : Prop := "0123456789abcdef".toList[n]? = some c ∨ "0123456789ABCDEF".toList[n]? = some c

/-- Two digits for each byte, the more significant one first. -/
inductive HexPairs : List Char → List Byte → Prop
  | nil : HexPairs [] []
  | cons {a b : Char} {x y : ℕ} {v : Byte} {s : List Char} {bs : List Byte} :
    IsDigit a x → IsDigit b y → v.val = 16 * x + y → HexPairs s bs → HexPairs (a :: b :: s) (v :: bs)

/-- The string is the bytes in hexadecimal, after any number of prefixes `0x`. -/
def Spells (s : List Char) (bs : List Byte) : Prop := ∃ k ds, s = (List.replicate k ['0', 'x']).flatten ++ ds ∧ HexPairs ds bs

theorem digit_lt {c : Char} {n : ℕ} (h : IsDigit c n) : n < 16 := by
  by_contra hc
  rcases h with h | h <;> rw [List.getElem?_eq_none (by simpa using hc)] at h <;> cases h

theorem hexVal_iff (c : Char) (n : ℕ) : hexVal c = some n ↔ IsDigit c n := by
  constructor
  · intro h
    have hc : c = Char.ofNat c.toNat := (Char.ofNat_toNat c).symm
    unfold hexVal at h
    generalize c.toNat = m at h hc
    subst hc
    split at h
    · next h1 =>
      injection h with h
      obtain ⟨h1, h2⟩ := h1
      interval_cases m <;> subst h <;> exact Or.inl rfl
    · split at h
      · next h1 =>
        injection h with h
        obtain ⟨h1, h2⟩ := h1
        interval_cases m <;> subst h <;> exact Or.inl rfl
      · split at h
        · next h1 =>
          injection h with h
          obtain ⟨h1, h2⟩ := h1
          interval_cases m <;> subst h <;> exact Or.inr rfl
        · cases h
  · intro h
    have hn := digit_lt h
    interval_cases n <;> rcases h with h | h <;> cases h <;> rfl

theorem hexDecode_iff : ∀ (s : List Char) (bs : List Byte), hexDecode s = some bs ↔ HexPairs s bs
  | [], bs => by
    rw [hexDecode]
    constructor
    · rintro ⟨⟩; exact .nil
    · rintro ⟨⟩; rfl
  | [a], bs => by
    rw [hexDecode]
    constructor <;> intro h <;> cases h
  | a :: b :: s, bs => by
    rw [hexDecode]
    have ih := hexDecode_iff s
    constructor
    · intro h
      cases ha : hexVal a with
      | none => rw [ha] at h; cases h
      | some x =>
      cases hb : hexVal b with
      | none => rw [ha, hb] at h; cases h
      | some y =>
      cases hs : hexDecode s with
      | none => rw [ha, hb, hs] at h; cases h
      | some t =>
        rw [ha, hb, hs] at h
        cases h
        have h1 := (hexVal_iff a x).1 ha
        have h2 := (hexVal_iff b y).1 hb
        refine .cons h1 h2 ?_ ((ih t).1 hs)
        have := digit_lt h1
        have := digit_lt h2
        exact show (asU8 (16 * x + y)).val = 16 * x + y from Nat.mod_eq_of_lt (by omega)
    · rintro (_ | ⟨h1, h2, h3, h4⟩)
      rw [(hexVal_iff _ _).2 h1, (hexVal_iff _ _).2 h2, (ih _).2 h4]
      simp only [bind, Option.bind]
      rw [← h3]
      congr 2
      apply Fin.ext
      exact Nat.mod_eq_of_lt (Fin.isLt _)

theorem trim0x_prefix (ds : List Char) : ∀ k, trim0x ((List.replicate k ['0', 'x']).flatten ++ ds) = trim0x ds
  | 0 => rfl
  | k + 1 => by
    rw [List.replicate_succ, List.flatten_cons, List.append_assoc]
    show trim0x ('0' :: 'x' :: _) = _
    rw [trim0x, if_pos ⟨rfl, rfl⟩]
    exact trim0x_prefix ds k

theorem trim0x_decomp : ∀ s : List Char, ∃ k, s = (List.replicate k ['0', 'x']).flatten ++ trim0x s
  | [] => ⟨0, rfl⟩
  | [a] => ⟨0, rfl⟩
  | a :: b :: s => by
    rw [trim0x]
    split
    · next h =>
      obtain ⟨k, hk⟩ := trim0x_decomp s
      refine ⟨k + 1, ?_⟩
      rw [List.replicate_succ, List.flatten_cons, List.append_assoc, ← hk, h.1, h.2]
      rfl
    · exact ⟨0, rfl⟩

theorem x_not_digit (n : ℕ) : ¬ IsDigit 'x' n := by
  intro h
  have := (hexVal_iff 'x' n).2 h
  cases this

theorem trim0x_digits {ds : List Char} {bs : List Byte} (h : HexPairs ds bs) : trim0x ds = ds := by
  cases h with
  | nil => rfl
  | cons h1 h2 h3 h4 =>
    rw [trim0x, if_neg]
    rintro ⟨-, rfl⟩
    exact x_not_digit _ h2

/-- **C51** (strings): a string is read as bytes exactly when it is hexadecimal, and then as the bytes which it spells; otherwise the
conversion panics. -/
theorem C51_hex (s : List Char) (bs : List Byte) : hexToBytes s = .ok bs ↔ Spells s bs := by
  unfold hexToBytes
  constructor
  · intro h
    cases hd : hexDecode (trim0x s) with
    | none => rw [hd] at h; cases h
    | some b =>
      rw [hd] at h
      cases h
      obtain ⟨k, hk⟩ := trim0x_decomp s
      exact ⟨k, _, hk, (hexDecode_iff _ _).1 hd⟩
  · rintro ⟨k, ds, rfl, h⟩
    rw [trim0x_prefix, trim0x_digits h, (hexDecode_iff _ _).2 h]
    rfl

theorem hexToArray_iff {n : ℕ} (s : List Char) (b : Bytes n) : hexToArray n s = .ok b ↔ Spells s b.1 := by
  rw [← C51_hex]
  unfold hexToArray
  constructor
  · intro h
    cases hd : hexToBytes s with
    | error e => rw [hd] at h; cases h
    | ok c =>
      rw [hd] at h
      simp only [bind, Except.bind] at h
      split at h
      · cases h; rfl
      · cases h
  · intro h
    rw [h]
    simp only [bind, Except.bind]
    rw [dif_pos b.2]

/-! ### Lists -/

theorem mapM_ok_iff {α β : Type} {f : α → Res β} : ∀ (l : List α) (r : List β), l.mapM f = .ok r ↔ List.Forall₂ (fun a b => f a = .ok b) l r
  | [], r => by
    rw [List.mapM_nil]
    constructor
    · rintro ⟨⟩; exact .nil
    · rintro ⟨⟩; rfl
  | a :: l, r => by
    rw [List.mapM_cons]
    have ih := mapM_ok_iff (f := f) l
    constructor
    · intro h
      cases ha : f a with
      | error e => rw [ha] at h; cases h
      | ok b =>
      cases hl : l.mapM f with
      | error e => rw [ha, hl] at h; cases h
      | ok t =>
        rw [ha, hl] at h
        cases h
        exact .cons ha ((ih t).1 hl)
    · rintro (_ | ⟨h1, h2⟩)
      rw [h1, (ih _).2 h2]
      rfl

theorem mapM_some_iff {α β : Type} {f : α → Option β} : ∀ (l : List α) (r : List β), l.mapM f = some r ↔ List.Forall₂ (fun a b => f a = some b) l r
  | [], r => by
    rw [List.mapM_nil]
    constructor
    · rintro ⟨⟩; exact .nil
    · rintro ⟨⟩; rfl
  | a :: l, r => by
    rw [List.mapM_cons]
    have ih := mapM_some_iff (f := f) l
    constructor
    · intro h
      cases ha : f a with
      | none => rw [ha] at h; cases h
      | some b =>
      cases hl : l.mapM f with
      | none => rw [ha, hl] at h; cases h
      | some t =>
        rw [ha, hl] at h
        cases h
        exact .cons ha ((ih t).1 hl)
    · rintro (_ | ⟨h1, h2⟩)
      rw [h1, (ih _).2 h2]
      rfl

theorem forall₂_iff {α β : Type} {R S : α → β → Prop} (h : ∀ a b, R a b ↔ S a b) (l : List α) (r : List β) :
    List.Forall₂ R l r ↔ List.Forall₂ S l r := by
  have : R = S := funext fun a => funext fun b => propext (h a b)
  rw [this]

/-- Composition of entrywise relations. -/
theorem forall₂_comp {α β γ : Type} {R : α → β → Prop} {S : β → γ → Prop} : ∀ (l : List α) (r : List γ),
    (∃ m, List.Forall₂ R l m ∧ List.Forall₂ S m r) ↔ List.Forall₂ (fun a c => ∃ b, R a b ∧ S b c) l r
  | [], r => by
    constructor
    · rintro ⟨m, ⟨⟩, ⟨⟩⟩; exact .nil
    · rintro ⟨⟩; exact ⟨[], .nil, .nil⟩
  | a :: l, r => by
    have ih := forall₂_comp (R := R) (S := S) l
    constructor
    · rintro ⟨m, _ | ⟨h1, h2⟩, _ | ⟨h3, h4⟩⟩
      exact .cons ⟨_, h1, h3⟩ ((ih _).1 ⟨_, h2, h4⟩)
    · rintro (_ | ⟨⟨b, h1, h2⟩, h3⟩)
      obtain ⟨m, h4, h5⟩ := (ih _).2 h3
      exact ⟨b :: m, .cons h1 h4, .cons h2 h5⟩

theorem forall₂_exists {α β : Type} {R : α → β → Prop} {l : List α} {r : List β} (h : List.Forall₂ R l r) : ∀ a ∈ l, ∃ b ∈ r, R a b := by
  induction h with
  | nil => intro a ha; cases ha
  | cons h1 _ ih =>
    intro a ha
    rcases List.mem_cons.1 ha with rfl | ha
    · exact ⟨_, by simp, h1⟩
    · obtain ⟨b, hb, h⟩ := ih a ha
      exact ⟨b, by simp [hb], h⟩

/-! ### The claims -/

section
variable {F G : Type}

/-- What an execution witness says. -/
structure Claims (F G : Type) where
  /-- Stems, with suffixes, current and new values. -/
  diffs : List (Stem × List (Byte × Option Value × Option Value))
  others : List Stem
  /-- Depths and extension states. -/
  entries : List (Byte × ExtPresent)
  comms : List G
  proof : MultiProof F G

/-- The string spells the value, or there is none of both. -/
def OptSpells : Option (List Char) → Option Value → Prop
  | none, none => True
  | some s, some v => Spells s v.1
  | _, _ => False

/-- The numbers of the extension states: 0 nothing, 1 another stem, 2 the stem. -/
def extNumber : ExtPresent → ℕ
  | .none => 0
  | .differentStem => 1
  | .present => 2

/-- The string is the encoding of the element. -/
def SpellsElem (K : WireCodec F G) (s : List Char) (e : G) : Prop := ∃ b, b.length = 32 ∧ Spells s b ∧ K.decE b = some e

/-- The record of strings states the claims.  A byte for a stem has the depth in its upper five bits and the extension state in its lower
two; the scalar is written with its most significant byte first. -/
structure States (K : WireCodec F G) (J : Json.ExecutionWitness) (W : Claims F G) : Prop where
  diffs : List.Forall₂ (fun (j : Json.StateDiff) (d : Stem × List (Byte × Option Value × Option Value)) => Spells j.stem d.1.1 ∧
    List.Forall₂ (fun (s : Json.SuffixDiff) (t : Byte × Option Value × Option Value) =>
      s.suffix = t.1 ∧ OptSpells s.currentValue t.2.1 ∧ OptSpells s.newValue t.2.2) j.suffixDiffs d.2) J.stateDiffs W.diffs
  others : List.Forall₂ (fun s (st : Stem) => Spells s st.1) J.verkleProof.otherStems W.others
  entries : ∃ bs, Spells J.verkleProof.depthExtensionPresent bs ∧
    List.Forall₂ (fun (b : Byte) (t : Byte × ExtPresent) => b.val / 8 = t.1.val ∧ b.val % 4 = extNumber t.2) bs W.entries
  comms : List.Forall₂ (SpellsElem K) J.verkleProof.commitmentsByPath W.comms
  gx : SpellsElem K J.verkleProof.d W.proof.gx
  cl : List.Forall₂ (SpellsElem K) J.verkleProof.ipaProof.cl W.proof.openProof.L
  cr : List.Forall₂ (SpellsElem K) J.verkleProof.ipaProof.cr W.proof.openProof.R
  final : ∃ b, b.length = 32 ∧ Spells J.verkleProof.ipaProof.finalEvaluation b ∧ K.decS b.reverse = some W.proof.openProof.a

/-- The proof in the claims. -/
def Claims.toProof (W : Claims F G) : VerkleProof G (MultiProof F G) :=
  ⟨⟨W.entries.map (·.1), W.entries.map (·.2), BSet.ofList W.others⟩, W.comms, W.proof⟩

/-- The keys in the claims, in order. -/
def Claims.keys (W : Claims F G) : List Key := W.diffs.flatMap fun d => d.2.map fun t => mkKey d.1 t.1

/-- The current values in the claims. -/
def Claims.current (W : Claims F G) : List (Option Value) := W.diffs.flatMap fun d => d.2.map fun t => t.2.1

/-- The new values in the claims. -/
def Claims.new (W : Claims F G) : List (Option Value) := W.diffs.flatMap fun d => d.2.map fun t => t.2.2

theorem mapOpt_iff (s : Option (List Char)) (v : Option Value) : mapOpt (hexToArray 32) s = .ok v ↔ OptSpells s v := by
  cases s with
  | none =>
    cases v with
    | none => exact ⟨fun _ => trivial, fun _ => rfl⟩
    | some v => exact ⟨fun h => (by cases h), fun h => h.elim⟩
  | some s =>
    rw [mapOpt]
    cases v with
    | none =>
      refine ⟨fun h => ?_, fun h => h.elim⟩
      cases hh : hexToArray 32 s with
      | error e => rw [hh] at h; cases h
      | ok b => rw [hh] at h; cases h
    | some v =>
      show _ ↔ Spells s v.1
      rw [← hexToArray_iff]
      cases hh : hexToArray 32 s with
      | error e => exact ⟨fun h => (by cases h), fun h => (by cases h)⟩
      | ok b =>
        constructor
        · intro h; cases h; rfl
        · intro h; cases h; rfl

theorem byteToDepthExt_iff (b : Byte) (t : ExtPresent × Byte) :
    byteToDepthExt b = .ok t ↔ b.val / 8 = t.2.val ∧ b.val % 4 = extNumber t.1 := by
  obtain ⟨e, d⟩ := t
  have h1 : b.val &&& 3 = b.val % 4 := Nat.and_two_pow_sub_one_eq_mod b.val 2
  have h2 : b.val >>> 3 = b.val / 8 := Nat.shiftRight_eq_div_pow b.val 3
  have hb := b.isLt
  have hm : b.val % 4 < 4 := Nat.mod_lt _ (by norm_num)
  have hd : asU8 (b.val / 8) = d ↔ b.val / 8 = d.val := by
    constructor
    · rintro rfl; exact (show (asU8 (b.val / 8)).val = b.val / 8 from Nat.mod_eq_of_lt (by omega)).symm
    · intro h; rw [h]; exact Fin.ext (Nat.mod_eq_of_lt d.isLt)
  unfold byteToDepthExt
  rw [h1, h2]
  generalize b.val % 4 = m at hm
  simp only
  rw [← hd]
  interval_cases m <;> cases e <;> simp [extNumber, bind, Except.bind]

/-- The relation computed by `fromJson`. -/
theorem fromJson_iff (J : Json.ExecutionWitness) (p : VerkleProofGo) : fromJson J = .ok p ↔
    List.Forall₂ (fun (j : Json.StateDiff) (d : StateDiff) => Spells j.stem d.stem.1 ∧
      List.Forall₂ (fun (s : Json.SuffixDiff) (t : SuffixDiff) =>
        s.suffix = t.suffix ∧ OptSpells s.currentValue t.currentValue ∧ OptSpells s.newValue t.newValue) j.suffixDiffs d.suffixDiffs)
      J.stateDiffs p.stateDiffs ∧
    List.Forall₂ (fun s (st : Stem) => Spells s st.1) J.verkleProof.otherStems p.otherStems ∧
    List.Forall₂ (fun s (b : Bytes 32) => Spells s b.1) J.verkleProof.commitmentsByPath p.commitmentsByPath ∧
    Spells J.verkleProof.d p.proof.d.1 ∧
    List.Forall₂ (fun s (b : Bytes 32) => Spells s b.1) J.verkleProof.ipaProof.cl p.proof.cl ∧
    List.Forall₂ (fun s (b : Bytes 32) => Spells s b.1) J.verkleProof.ipaProof.cr p.proof.cr ∧
    Spells J.verkleProof.ipaProof.finalEvaluation p.proof.finalEvaluation.1 ∧
    Spells J.verkleProof.depthExtensionPresent p.depthsExtensionPresent := by
  have sd : ∀ (s : Json.SuffixDiff) (t : SuffixDiff), (do
      let cur ← mapOpt (hexToArray 32) s.currentValue
      let new ← mapOpt (hexToArray 32) s.newValue
      Except.ok (SuffixDiff.mk s.suffix cur new) : Res SuffixDiff) = .ok t ↔
      s.suffix = t.suffix ∧ OptSpells s.currentValue t.currentValue ∧ OptSpells s.newValue t.newValue := by
    rintro s ⟨t1, t2, t3⟩
    rw [← mapOpt_iff, ← mapOpt_iff]
    cases h1 : mapOpt (hexToArray 32) s.currentValue with
    | error e => simp [bind, Except.bind]
    | ok c =>
      cases h2 : mapOpt (hexToArray 32) s.newValue with
      | error e => simp [bind, Except.bind]
      | ok n => simp [bind, Except.bind]
  have dd : ∀ (j : Json.StateDiff) (d : StateDiff), (do
      let stem ← hexToArray 31 j.stem
      let suffixDiffs ← j.suffixDiffs.mapM fun s => do
        let cur ← mapOpt (hexToArray 32) s.currentValue
        let new ← mapOpt (hexToArray 32) s.newValue
        Except.ok (SuffixDiff.mk s.suffix cur new)
      Except.ok (StateDiff.mk stem suffixDiffs) : Res StateDiff) = .ok d ↔
      Spells j.stem d.stem.1 ∧ List.Forall₂ (fun (s : Json.SuffixDiff) (t : SuffixDiff) =>
        s.suffix = t.suffix ∧ OptSpells s.currentValue t.currentValue ∧ OptSpells s.newValue t.newValue) j.suffixDiffs d.suffixDiffs := by
    rintro j ⟨d1, d2⟩
    rw [← hexToArray_iff, ← forall₂_iff sd, ← mapM_ok_iff]
    cases h1 : hexToArray 31 j.stem with
    | error e => simp [bind, Except.bind]
    | ok c =>
      generalize (List.mapM _ j.suffixDiffs : Res (List SuffixDiff)) = m
      cases m with
      | error e => simp [bind, Except.bind]
      | ok n => simp [bind, Except.bind]
  obtain ⟨p1, p2, p3, ⟨p4, p5, p6, p7⟩, p8⟩ := p
  rw [← forall₂_iff dd, ← mapM_ok_iff, ← forall₂_iff (fun s (b : Stem) => hexToArray_iff s b), ← mapM_ok_iff,
    ← forall₂_iff (fun s (b : Bytes 32) => hexToArray_iff s b), ← mapM_ok_iff,
    ← forall₂_iff (fun s (b : Bytes 32) => hexToArray_iff s b), ← mapM_ok_iff,
    ← forall₂_iff (fun s (b : Bytes 32) => hexToArray_iff s b), ← mapM_ok_iff,
    ← hexToArray_iff, ← hexToArray_iff, ← C51_hex]
  unfold fromJson
  generalize (List.mapM _ J.stateDiffs : Res (List StateDiff)) = m1
  generalize (List.mapM _ J.verkleProof.otherStems : Res (List Stem)) = m2
  generalize (List.mapM _ J.verkleProof.commitmentsByPath : Res (List (Bytes 32))) = m3
  generalize hexToArray 32 J.verkleProof.d = m4
  generalize (List.mapM _ J.verkleProof.ipaProof.cl : Res (List (Bytes 32))) = m5
  generalize (List.mapM _ J.verkleProof.ipaProof.cr : Res (List (Bytes 32))) = m6
  generalize hexToArray 32 J.verkleProof.ipaProof.finalEvaluation = m7
  generalize hexToBytes J.verkleProof.depthExtensionPresent = m8
  cases m1 with
  | error e => simp [bind, Except.bind]
  | ok a1 =>
  cases m2 with
  | error e => simp [bind, Except.bind]
  | ok a2 =>
  cases m3 with
  | error e => simp [bind, Except.bind]
  | ok a3 =>
  cases m4 with
  | error e => simp [bind, Except.bind]
  | ok a4 =>
  cases m5 with
  | error e => simp [bind, Except.bind]
  | ok a5 =>
  cases m6 with
  | error e => simp [bind, Except.bind]
  | ok a6 =>
  cases m7 with
  | error e => simp [bind, Except.bind]
  | ok a7 =>
  cases m8 with
  | error e => simp [bind, Except.bind]
  | ok a8 =>
    simp only [bind, Except.bind, Except.ok.injEq, VerkleProofGo.mk.injEq, MultiPointProofGo.mk.injEq]
    tauto

theorem toVerkleProof_iff (K : WireCodec F G) (p : VerkleProofGo) (vp : VerkleProof G (MultiProof F G)) (kv : KeysValues) :
    p.toVerkleProof K = .ok (some (vp, kv)) ↔ ∃ (entries : List (ExtPresent × Byte)) (pf : MultiProof F G) (comms : List G),
      List.Forall₂ (fun b t => byteToDepthExt b = .ok t) p.depthsExtensionPresent entries ∧
      List.Forall₂ (fun (b : Bytes 32) e => K.decE b.1 = some e) p.commitmentsByPath comms ∧
      List.Forall₂ (fun (b : Bytes 32) e => K.decE b.1 = some e) p.proof.cl pf.openProof.L ∧
      List.Forall₂ (fun (b : Bytes 32) e => K.decE b.1 = some e) p.proof.cr pf.openProof.R ∧
      K.decS p.proof.finalEvaluation.1.reverse = some pf.openProof.a ∧ K.decE p.proof.d.1 = some pf.gx ∧
      vp = ⟨⟨entries.map (·.2), entries.map (·.1), BSet.ofList p.otherStems⟩, comms, pf⟩ ∧
      kv = ⟨p.stateDiffs.flatMap fun d => d.suffixDiffs.map fun s => mkKey d.stem s.suffix,
        p.stateDiffs.flatMap fun d => d.suffixDiffs.map (·.currentValue), p.stateDiffs.flatMap fun d => d.suffixDiffs.map (·.newValue)⟩ := by
  have hk : (⟨(p.stateDiffs.map StateDiff.keysWithCurrentValues).flatMap (·.1),
      (p.stateDiffs.map StateDiff.keysWithCurrentValues).flatMap (·.2.1),
      (p.stateDiffs.map StateDiff.keysWithCurrentValues).flatMap (·.2.2)⟩ : KeysValues) =
      ⟨p.stateDiffs.flatMap fun d => d.suffixDiffs.map fun s => mkKey d.stem s.suffix,
        p.stateDiffs.flatMap fun d => d.suffixDiffs.map (·.currentValue), p.stateDiffs.flatMap fun d => d.suffixDiffs.map (·.newValue)⟩ := by
    rw [List.flatMap_map, List.flatMap_map, List.flatMap_map]
    rfl
  unfold VerkleProofGo.toVerkleProof
  rw [← hk]
  constructor
  · intro h
    cases h1 : p.depthsExtensionPresent.mapM byteToDepthExt with
    | error e => rw [h1] at h; cases h
    | ok de =>
    rw [h1] at h
    simp only [bind, Except.bind] at h
    cases h2 : p.commitmentsByPath.mapM (fun b => K.decE b.1) with
    | none => simp only [h2] at h; cases h
    | some comms =>
    cases h3 : p.proof.cl.mapM (fun b => K.decE b.1) with
    | none => simp only [h2, h3] at h; cases h
    | some l =>
    cases h4 : p.proof.cr.mapM (fun b => K.decE b.1) with
    | none => simp only [h2, h3, h4] at h; cases h
    | some r =>
    simp only [h2, h3, h4, bytes32ToScalar] at h
    cases h5 : K.decS p.proof.finalEvaluation.1.reverse with
    | none => rw [h5] at h; cases h
    | some a =>
    cases h6 : K.decE p.proof.d.1 with
    | none => rw [h5, h6] at h; cases h
    | some gx =>
      rw [h5, h6] at h
      simp only [unwrap, Except.ok.injEq, Option.some.injEq, Prod.mk.injEq] at h
      exact ⟨de, ⟨⟨l, r, a⟩, gx⟩, comms, (mapM_ok_iff _ _).1 h1, (mapM_some_iff _ _).1 h2, (mapM_some_iff _ _).1 h3, (mapM_some_iff _ _).1 h4,
        rfl, rfl, h.1.symm, h.2.symm⟩
  · rintro ⟨de, pf, comms, h1, h2, h3, h4, h5, h6, rfl, rfl⟩
    rw [← mapM_ok_iff] at h1
    rw [← mapM_some_iff] at h2 h3 h4
    rw [h1]
    simp only [bind, Except.bind, h2, h3, h4, bytes32ToScalar, h5, h6, unwrap]

/-- **C51**: the conversion of an execution witness succeeds exactly when the witness states some claims; it then yields these: the keys (stem
plus suffix), current and new values of the state difference in order, and the listed depths, extension states, other stems, commitments
and opening proof. -/
theorem C51_conversion (K : WireCodec F G) (J : Json.ExecutionWitness) (vp : VerkleProof G (MultiProof F G)) (kv : KeysValues) :
    (∃ p, fromJson J = .ok p ∧ p.toVerkleProof K = .ok (some (vp, kv))) ↔
      ∃ W, States K J W ∧ vp = W.toProof ∧ kv = ⟨W.keys, W.current, W.new⟩ := by
  have hswap : ∀ (bs : List Byte) (l : List (ExtPresent × Byte)), List.Forall₂ (fun b t => byteToDepthExt b = .ok t) bs l ↔
      List.Forall₂ (fun (b : Byte) (t : Byte × ExtPresent) => b.val / 8 = t.1.val ∧ b.val % 4 = extNumber t.2) bs (l.map Prod.swap) := by
    intro bs l
    rw [List.forall₂_map_right_iff]
    exact forall₂_iff (fun b t => byteToDepthExt_iff b t) _ _
  have helem : ∀ (ss : List (List Char)) (es : List G), (∃ m : List (Bytes 32), List.Forall₂ (fun s (b : Bytes 32) => Spells s b.1) ss m ∧
      List.Forall₂ (fun (b : Bytes 32) e => K.decE b.1 = some e) m es) ↔ List.Forall₂ (SpellsElem K) ss es := by
    intro ss es
    rw [forall₂_comp]
    refine forall₂_iff (fun s e => ⟨?_, ?_⟩) _ _
    · rintro ⟨b, h1, h2⟩; exact ⟨b.1, b.2, h1, h2⟩
    · rintro ⟨b, h0, h1, h2⟩; exact ⟨⟨b, h0⟩, h1, h2⟩
  constructor
  · rintro ⟨p, h1, h2⟩
    obtain ⟨f1, f2, f3, f4, f5, f6, f7, f8⟩ := (fromJson_iff J p).1 h1
    obtain ⟨entries, pf, comms, g1, g2, g3, g4, g5, g6, rfl, rfl⟩ := (toVerkleProof_iff K p vp kv).1 h2
    refine ⟨⟨p.stateDiffs.map fun d => (d.stem, d.suffixDiffs.map fun s => (s.suffix, s.currentValue, s.newValue)), p.otherStems,
      entries.map Prod.swap, comms, pf⟩, ⟨?_, f2, ⟨_, f8, (hswap _ _).1 g1⟩, (helem _ _).1 ⟨_, f3, g2⟩, ⟨_, p.proof.d.2, f4, g6⟩,
      (helem _ _).1 ⟨_, f5, g3⟩, (helem _ _).1 ⟨_, f6, g4⟩, ⟨_, p.proof.finalEvaluation.2, f7, g5⟩⟩, ?_, ?_⟩
    · rw [List.forall₂_map_right_iff]
      refine f1.imp fun j d h => ⟨h.1, ?_⟩
      rw [List.forall₂_map_right_iff]
      exact h.2
    · simp only [Claims.toProof, List.map_map]
      rfl
    · simp only [Claims.keys, Claims.current, Claims.new, List.flatMap_map, List.map_map]
      rfl
  · rintro ⟨W, hW, rfl, rfl⟩
    obtain ⟨w1, w2, ⟨bs, w3, w3'⟩, w4, ⟨d, w5, w5', w5''⟩, w6, w7, ⟨fe, w8, w8', w8''⟩⟩ := hW
    obtain ⟨cs, c1, c2⟩ := (helem _ _).2 w4
    obtain ⟨ls, l1, l2⟩ := (helem _ _).2 w6
    obtain ⟨rs, r1, r2⟩ := (helem _ _).2 w7
    refine ⟨⟨W.diffs.map fun d => ⟨d.1, d.2.map fun t => ⟨t.1, t.2.1, t.2.2⟩⟩, cs, W.others, ⟨⟨d, w5⟩, ls, rs, ⟨fe, w8⟩⟩, bs⟩,
      (fromJson_iff _ _).2 ⟨?_, w2, c1, w5', l1, r1, w8', w3⟩,
      (toVerkleProof_iff _ _ _ _).2 ⟨W.entries.map Prod.swap, W.proof, W.comms, ?_, c2, l2, r2, w8'', w5'', ?_, ?_⟩⟩
    · rw [List.forall₂_map_right_iff]
      refine w1.imp fun j d h => ⟨h.1, ?_⟩
      rw [List.forall₂_map_right_iff]
      exact h.2
    · rw [hswap, List.map_map, Prod.swap_swap_eq, List.map_id]
      exact w3'
    · simp only [Claims.toProof, List.map_map]
      rfl
    · simp only [Claims.keys, Claims.current, Claims.new, List.flatMap_map, List.map_map]
      rfl

/-- C51: the set of other stems in the converted proof has the listed stems as members. -/
theorem C51_other_stems (W : Claims F G) (s : Stem) : s ∈ W.toProof.hint.diffStemNoProof ↔ s ∈ W.others := BSet.mem_ofList s W.others

/-- Digits. -/
theorem exists_digit (n : ℕ) (h : n < 16) : ∃ c, IsDigit c n :=
  ⟨_, Or.inl (List.getElem?_eq_getElem (by simpa using h))⟩

theorem exists_spelling : ∀ bs : List Byte, ∃ s, Spells s bs := by
  intro bs
  suffices h : ∃ s, HexPairs s bs by
    obtain ⟨s, h⟩ := h
    exact ⟨['0', 'x'] ++ s, 1, s, rfl, h⟩
  induction bs with
  | nil => exact ⟨[], .nil⟩
  | cons v bs ih =>
    obtain ⟨s, h⟩ := ih
    have := v.isLt
    obtain ⟨a, ha⟩ := exists_digit (v.val / 16) (by omega)
    obtain ⟨b, hb⟩ := exists_digit (v.val % 16) (by omega)
    exact ⟨a :: b :: s, .cons ha hb (by omega) h⟩

theorem exists_list {α β : Type} {R : α → β → Prop} (h : ∀ b, ∃ a, R a b) : ∀ r : List β, ∃ l, List.Forall₂ R l r
  | [] => ⟨[], .nil⟩
  | b :: r => by
    obtain ⟨a, ha⟩ := h b
    obtain ⟨l, hl⟩ := exists_list h r
    exact ⟨a :: l, .cons ha hl⟩

/-- **C51** (expressiveness): all claims with depths below 32 are stated by some execution witness. -/
theorem C51_expressible (K : WireCodec F G) (W : Claims F G) (hd : ∀ t ∈ W.entries, t.1.val < 32) : ∃ J, States K J W := by
  have hopt : ∀ v : Option Value, ∃ s, OptSpells s v := by
    rintro (_ | v)
    · exact ⟨none, trivial⟩
    · obtain ⟨s, h⟩ := exists_spelling v.1
      exact ⟨some s, h⟩
  have helem : ∀ e : G, ∃ s, SpellsElem K s e := by
    intro e
    obtain ⟨s, h⟩ := exists_spelling (K.encE e)
    exact ⟨s, _, K.encE_len e, h, K.dec_encE e⟩
  obtain ⟨j1, h1⟩ := exists_list (R := fun (j : Json.StateDiff) (d : Stem × List (Byte × Option Value × Option Value)) => Spells j.stem d.1.1 ∧
    List.Forall₂ (fun (s : Json.SuffixDiff) (t : Byte × Option Value × Option Value) =>
      s.suffix = t.1 ∧ OptSpells s.currentValue t.2.1 ∧ OptSpells s.newValue t.2.2) j.suffixDiffs d.2) (by
    intro d
    obtain ⟨s, hs⟩ := exists_spelling d.1.1
    obtain ⟨l, hl⟩ := exists_list (R := fun (s : Json.SuffixDiff) (t : Byte × Option Value × Option Value) =>
      s.suffix = t.1 ∧ OptSpells s.currentValue t.2.1 ∧ OptSpells s.newValue t.2.2) (by
      intro t
      obtain ⟨c, hc⟩ := hopt t.2.1
      obtain ⟨n, hn⟩ := hopt t.2.2
      exact ⟨⟨t.1, c, n⟩, rfl, hc, hn⟩) d.2
    exact ⟨⟨s, l⟩, hs, hl⟩) W.diffs
  obtain ⟨j2, h2⟩ := exists_list (R := fun s (st : Stem) => Spells s st.1) (fun st => exists_spelling st.1) W.others
  have h3 : ∃ bs : List Byte, List.Forall₂ (fun (b : Byte) (t : Byte × ExtPresent) => b.val / 8 = t.1.val ∧ b.val % 4 = extNumber t.2) bs W.entries := by
    generalize W.entries = l at hd
    induction l with
    | nil => exact ⟨[], .nil⟩
    | cons t l ih =>
      obtain ⟨bs, hbs⟩ := ih fun u hu => hd u (by simp [hu])
      have h32 := hd t (by simp)
      have hx : extNumber t.2 < 4 := by cases t.2 <;> decide
      have e : (asU8 (8 * t.1.val + extNumber t.2)).val = 8 * t.1.val + extNumber t.2 := Nat.mod_eq_of_lt (by omega)
      exact ⟨asU8 (8 * t.1.val + extNumber t.2) :: bs, .cons (by rw [e]; omega) hbs⟩
  obtain ⟨bs, h3⟩ := h3
  obtain ⟨j3, h3'⟩ := exists_spelling bs
  obtain ⟨j4, h4⟩ := exists_list helem W.comms
  obtain ⟨j5, h5⟩ := helem W.proof.gx
  obtain ⟨j6, h6⟩ := exists_list helem W.proof.openProof.L
  obtain ⟨j7, h7⟩ := exists_list helem W.proof.openProof.R
  obtain ⟨j8, h8⟩ := exists_spelling (K.encS W.proof.openProof.a).reverse
  exact ⟨⟨j1, ⟨j2, j3, j4, j5, ⟨j6, j7, j8⟩⟩⟩, h1, h2, ⟨bs, h3', h3⟩, h4, h5, h6, h7, _, by rw [List.length_reverse, K.encS_len], h8,
    by rw [List.reverse_reverse, K.dec_encS]⟩

/-- C51: the extension state 3 makes the conversion panic. -/
theorem C51_status_panics (K : WireCodec F G) (J : Json.ExecutionWitness) {bs : List Byte}
    (h : Spells J.verkleProof.depthExtensionPresent bs) {b : Byte} (hb : b ∈ bs) (h3 : b.val % 4 = 3) :
    ∃ e, (fromJson J >>= fun p => p.toVerkleProof K) = .error e := by
  cases hj : fromJson J with
  | error e => exact ⟨e, rfl⟩
  | ok p =>
    have h8 := ((fromJson_iff J p).1 hj).2.2.2.2.2.2.2
    rw [← C51_hex] at h8 h
    rw [h] at h8
    cases h8
    simp only [bind, Except.bind]
    unfold VerkleProofGo.toVerkleProof
    cases hm : p.depthsExtensionPresent.mapM byteToDepthExt with
    | error e => exact ⟨e, rfl⟩
    | ok de =>
      exfalso
      rw [mapM_ok_iff] at hm
      obtain ⟨t, -, ht⟩ := forall₂_exists hm b hb
      have := ((byteToDepthExt_iff b t).1 ht).2
      rw [h3] at this
      revert this
      cases t.1 <;> exact fun h => by cases h

/-- C51: when all the strings have the right form but some element is not a valid encoding, or only the scalar is not canonical: the former
gives no proof, the latter panics. -/
theorem C51_invalid (K : WireCodec F G) (p : VerkleProofGo)
    (hs : ∀ b ∈ p.depthsExtensionPresent, b.val % 4 ≠ 3) :
    ((∃ b ∈ p.commitmentsByPath ++ p.proof.cl ++ p.proof.cr, K.decE b.1 = none) → p.toVerkleProof K = .ok none) ∧
    ((∀ b ∈ p.commitmentsByPath ++ p.proof.cl ++ p.proof.cr, ∃ e, K.decE b.1 = some e) → K.decS p.proof.finalEvaluation.1.reverse = none →
      ∃ e, p.toVerkleProof K = .error e) := by
  have hde : ∃ de, p.depthsExtensionPresent.mapM byteToDepthExt = .ok de := by
    generalize p.depthsExtensionPresent = l at hs
    induction l with
    | nil => exact ⟨[], rfl⟩
    | cons b l ih =>
      obtain ⟨de, h⟩ := ih fun c hc => hs c (by simp [hc])
      have h3 := hs b (by simp)
      have h4 : b.val % 4 < 4 := Nat.mod_lt _ (by norm_num)
      have : ∃ e, b.val % 4 = extNumber e := by
        generalize b.val % 4 = m at h3 h4
        interval_cases m
        · exact ⟨.none, rfl⟩
        · exact ⟨.differentStem, rfl⟩
        · exact ⟨.present, rfl⟩
        · exact absurd rfl h3
      obtain ⟨e, he⟩ := this
      have hlt := b.isLt
      have h5 := (byteToDepthExt_iff b (e, ⟨b.val / 8, by omega⟩)).2 ⟨rfl, he⟩
      exact ⟨(e, ⟨b.val / 8, by omega⟩) :: de, by rw [List.mapM_cons, h5, h]; rfl⟩
  obtain ⟨de, hde⟩ := hde
  have hnone : ∀ l : List (Bytes 32), (∃ b ∈ l, K.decE b.1 = none) → l.mapM (fun b => K.decE b.1) = none := by
    rintro l ⟨b, hb, hd⟩
    cases h : l.mapM (fun b => K.decE b.1) with
    | none => rfl
    | some r =>
      obtain ⟨e, -, he⟩ := forall₂_exists ((mapM_some_iff _ _).1 h) b hb
      rw [hd] at he
      cases he
  have hsome : ∀ l : List (Bytes 32), (∀ b ∈ l, ∃ e, K.decE b.1 = some e) → ∃ r, l.mapM (fun b => K.decE b.1) = some r := by
    intro l
    induction l with
    | nil => intro _; exact ⟨[], rfl⟩
    | cons b l ih =>
      intro h
      obtain ⟨e, he⟩ := h b (by simp)
      obtain ⟨r, hr⟩ := ih fun c hc => h c (by simp [hc])
      exact ⟨e :: r, by rw [List.mapM_cons, he, hr]; rfl⟩
  unfold VerkleProofGo.toVerkleProof
  rw [hde]
  simp only [bind, Except.bind]
  constructor
  · rintro ⟨b, hb, hd⟩
    rw [List.mem_append, List.mem_append] at hb
    rcases hb with (hb | hb) | hb
    · rw [hnone _ ⟨b, hb, hd⟩]
    · rw [hnone _ ⟨b, hb, hd⟩]
      cases p.commitmentsByPath.mapM (fun b => K.decE b.1) <;> rfl
    · rw [hnone _ ⟨b, hb, hd⟩]
      cases p.commitmentsByPath.mapM (fun b => K.decE b.1) <;> cases p.proof.cl.mapM (fun b => K.decE b.1) <;> rfl
  · intro h hd
    obtain ⟨r1, h1⟩ := hsome p.commitmentsByPath fun b hb => h b (by simp [hb])
    obtain ⟨r2, h2⟩ := hsome p.proof.cl fun b hb => h b (by simp [hb])
    obtain ⟨r3, h3⟩ := hsome p.proof.cr fun b hb => h b (by simp [hb])
    simp only [h1, h2, h3, bytes32ToScalar, hd]
    exact ⟨_, rfl⟩

end

section
variable {F G : Type} [Field F] [DecidableEq F] [AddCommGroup G] [DecidableEq G] [Module F G] (O : Oracle F G)

/-- **C51** (verification): an execution witness is accepted for a root exactly when it states claims whose proof is accepted for its keys and
current values and for the root. -/
theorem C51_accepted (C : Crypto F G) (Q : G) (order : List (ProverQuery F G) → List ℕ) (root : List Char) (J : Json.ExecutionWitness) :
    verifyExecutionWitness O C Q order root J = .ok true ↔ ∃ (W : Claims F G) (rt : G), States O.K J W ∧ SpellsElem O.K root rt ∧
      ∃ uh, check C (multiOpener O C Q order) W.toProof W.keys W.current rt = .ok (true, uh) := by
  unfold verifyExecutionWitness
  constructor
  · intro h
    cases hj : fromJson J with
    | error e => rw [hj] at h; cases h
    | ok p =>
    rw [hj] at h
    simp only [bind, Except.bind] at h
    cases hp : p.toVerkleProof O.K with
    | error e => rw [hp] at h; cases h
    | ok o =>
    rw [hp] at h
    cases o with
    | none => cases h
    | some x =>
    obtain ⟨vp, kv⟩ := x
    obtain ⟨W, hW, rfl, rfl⟩ := (C51_conversion O.K J vp kv).1 ⟨p, hj, hp⟩
    simp only at h
    cases hr : hexToArray 32 root with
    | error e => rw [hr] at h; cases h
    | ok rb =>
    rw [hr] at h
    simp only at h
    cases hd : O.K.decE rb.1 with
    | none => rw [hd] at h; cases h
    | some rt =>
      rw [hd] at h
      simp only at h
      cases hc : check C (multiOpener O C Q order) W.toProof W.keys W.current rt with
      | error e => rw [hc] at h; cases h
      | ok y =>
        rw [hc] at h
        simp only [Except.ok.injEq] at h
        exact ⟨W, rt, hW, ⟨rb.1, rb.2, (hexToArray_iff _ _).1 hr, hd⟩, y.2, by rw [hc, ← h]⟩
  · rintro ⟨W, rt, hW, ⟨b, hb, hs, hd⟩, uh, hc⟩
    obtain ⟨p, hj, hp⟩ := (C51_conversion O.K J _ _).2 ⟨W, hW, rfl, rfl⟩
    have hr := (hexToArray_iff (n := 32) root ⟨b, hb⟩).2 hs
    rw [hj]
    simp only [bind, Except.bind]
    rw [hp]
    simp only
    rw [hr]
    simp only [hd]
    rw [hc]

/-- **C51** (honest witnesses): a witness which states the proof made by the prover, its keys and their values in the trie is accepted for the
root of the trie, except in the cases in which the native verifier fails as well (see C20). -/
theorem C51_honest (C : Crypto F G) (Q : G) {order : List (ProverQuery F G) → List ℕ}
    (ho : ∀ qs, IsOrder qs (order qs)) (hF : Distinct F 256) (l : List (Key × Value)) {db : MemoryDb F G}
    (hb : build C l = .ok db) {keys : List Key} (hk : keys ≠ []) {rt : G} (hr : Trie.rootCommitment db = .ok rt)
    {p : VerkleProof G (MultiProof F G)} (hp : createVerkleProof (multiOpener O C Q order) db keys = .ok (.ok p))
    (htt : ∀ qs hint, createProverQueries db keys = .ok (qs, hint) → ∀ i : ℕ, i < 256 →
      challengeT O (lbl "vt") (qs.map ProverQuery.toVerifier) p.proof.gx ≠ (i : F))
    (hsep : Separated C (lastWrite l) (· ∈ keys)) {W : Claims F G} (hWp : W.toProof = p) (hWk : W.keys = keys)
    (hWc : W.current = keys.map (Trie.get db)) {J : Json.ExecutionWitness} (hJ : States O.K J W) {root : List Char}
    (hroot : SpellsElem O.K root rt) : verifyExecutionWitness O C Q order root J = .ok true := by
  obtain ⟨uh, h⟩ := (C20_real_opener_partial O C Q ho hF l hb hk hr hp htt).1 hsep
  exact (C51_accepted O C Q order root J).2 ⟨W, rt, hJ, hroot, some uh, by rw [hWp, hWk, hWc]; exact h⟩

/-- The claims of an honest prover. -/
theorem honest_claims (C : Crypto F G) (Op : List (ProverQuery F G) → Res (MultiProof F G))
    (ck : MultiProof F G → List (VerifierQuery F G) → Res Bool) (l : List (Key × Value)) {db : MemoryDb F G} (hb : build C l = .ok db)
    {keys : List Key} {p : VerkleProof G (MultiProof F G)}
    (hp : createVerkleProof (⟨MultiProof F G, Op, ck⟩ : Opener F G) db keys = .ok (.ok p)) :
    ∃ W : Claims F G, W.toProof = p ∧ W.keys = keys ∧ W.current = keys.map (Trie.get db) ∧ ∀ t ∈ W.entries, t.1.val < 32 := by
  rw [build_iff] at hb
  subst hb
  have hne : keys ≠ [] := by
    rintro rfl
    simp [createVerkleProof] at hp
  obtain ⟨L, d, he, -, -, hd, -⟩ := createProverQueries_spec C (lastWrite l) hne
  simp only [createVerkleProof, if_neg hne, he, bind, Except.bind] at hp
  cases hq : L.map (labelQuery C (lastWrite l)) with
  | nil => rw [hq] at hp; simp at hp
  | cons q qs =>
    rw [hq] at hp
    simp only at hp
    cases ho : Op (q :: qs) with
    | error e => rw [ho] at hp; simp at hp
    | ok pf =>
      rw [ho] at hp
      simp only [Except.ok.injEq] at hp
      subst hp
      refine ⟨⟨keys.map fun k => (k.stem, [(k.suffix, Trie.get (Spec.specDb C (lastWrite l)) k, none)]), d,
        (honestHint (lastWrite l) keys d).depths.zip (honestHint (lastWrite l) keys d).extensionPresent,
        commsSorted q.commitment (q :: qs), pf⟩, ?_, ?_, ?_, ?_⟩
      · have hl : (honestHint (lastWrite l) keys d).depths.length = (honestHint (lastWrite l) keys d).extensionPresent.length := by
          simp [honestHint]
        simp only [Claims.toProof]
        rw [List.map_fst_zip (le_of_eq hl), List.map_snd_zip (le_of_eq hl.symm),
          Ascending.ext (BSet.asc_ofList d) hd fun x => BSet.mem_ofList x d]
        rfl
      · simp only [Claims.keys, List.flatMap_map, List.map_cons, List.map_nil, mkKey_stem_suffix]
        exact List.flatMap_singleton' keys
      · simp only [Claims.current, List.flatMap_map, List.map_cons, List.map_nil]
        exact List.flatMap_pure_eq_map _ keys
      · intro t ht
        have := (List.of_mem_zip ht).1
        obtain ⟨s, -, h⟩ := List.mem_map.1 this
        rw [← h]
        have := termLen_le (lastWrite l) s
        rw [Wire.asU8_val]; omega

/-- **C51** (honest witnesses exist): what the prover makes can be written as an execution witness, which is then accepted. -/
theorem C51_honest_exists (C : Crypto F G) (Q : G) {order : List (ProverQuery F G) → List ℕ}
    (ho : ∀ qs, IsOrder qs (order qs)) (hF : Distinct F 256) (l : List (Key × Value)) {db : MemoryDb F G}
    (hb : build C l = .ok db) {keys : List Key} (hk : keys ≠ []) {rt : G} (hr : Trie.rootCommitment db = .ok rt)
    {p : VerkleProof G (MultiProof F G)} (hp : createVerkleProof (multiOpener O C Q order) db keys = .ok (.ok p))
    (htt : ∀ qs hint, createProverQueries db keys = .ok (qs, hint) → ∀ i : ℕ, i < 256 →
      challengeT O (lbl "vt") (qs.map ProverQuery.toVerifier) p.proof.gx ≠ (i : F))
    (hsep : Separated C (lastWrite l) (· ∈ keys)) :
    ∃ (W : Claims F G) (J : Json.ExecutionWitness) (root : List Char), W.toProof = p ∧ W.keys = keys ∧ W.current = keys.map (Trie.get db) ∧
      States O.K J W ∧ SpellsElem O.K root rt ∧ verifyExecutionWitness O C Q order root J = .ok true := by
  obtain ⟨W, h1, h2, h3, h4⟩ := honest_claims C _ _ l hb hp
  obtain ⟨J, hJ⟩ := C51_expressible O.K W h4
  obtain ⟨s, hs⟩ := exists_spelling (O.K.encE rt)
  have hroot : SpellsElem O.K s rt := ⟨_, O.K.encE_len rt, hs, O.K.dec_encE rt⟩
  exact ⟨W, J, s, h1, h2, h3, hJ, hroot, C51_honest O C Q ho hF l hb hk hr hp htt hsep h1 h2 h3 hJ hroot⟩

end

/-! ### Concrete cases -/

/-- Seven keys of all four kinds, proved with the real opening argument, as an execution witness. -/
example : ∃ (db : MemoryDb (ZMod 521) (ZMod 521)) (rt : ZMod 521) (W : Claims (ZMod 521) (ZMod 521)) (J : Json.ExecutionWitness) (root : List Char),
    build wide proofHist = .ok db ∧ Trie.rootCommitment db = .ok rt ∧ W.keys = proofKeys ∧ States wideOracle.K J W ∧
    SpellsElem wideOracle.K root rt ∧ verifyExecutionWitness wideOracle wide 3 anyOrder root J = .ok true := by
  have hb := build_eq wide proofHist
  have hr := root_of_build (C := wide) (m := lastWrite proofHist)
  have hk : proofKeys ≠ [] := by simp [proofKeys]
  obtain ⟨p, hp⟩ := C18_real_opener wideOracle wide 3 anyOrder_isOrder wide_distinct
    (fun s => by simpa using wideOracle_avoids s 0 (by norm_num)) proofHist hb hk
  obtain ⟨W, J, root, -, h2, -, h4, h5, h6⟩ := C51_honest_exists wideOracle wide 3 anyOrder_isOrder wide_distinct proofHist hb hk hr hp
    (fun qs hint _ i hi => by unfold challengeT challenge; exact wideOracle_avoids _ i hi) wide_separated
  exact ⟨_, _, W, J, root, hb, hr, h2, h4, h5, h6⟩

/-- A string of the witness in the source, and its byte: depth 2, stem present. -/
example : hexToBytes "0x12".toList = .ok [18] ∧ byteToDepthExt 18 = .ok (.present, 2) ∧ hexToBytes "0X12".toList = .error "called unwrap on Err" :=
  ⟨rfl, rfl, rfl⟩

/-- Letters of both cases, a repeated prefix. -/
example : Spells "0x0xaB".toList [171] := (C51_hex _ _).1 rfl

end Verif.Props
