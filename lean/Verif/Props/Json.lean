import Verif.Ffi.Json
import Verif.Props.RomClients

/-!
# C88: the JSON of execution witnesses is read exactly
-/

set_option autoImplicit false
set_option linter.unusedSectionVars false

namespace Verif.Props
open Verif Verif.Spec Verif.Trie Verif.Proof Verif.Ipa Verif.Wire Verif.Ffi
open scoped Classical

/-! ### What a JSON value says -/

/-- The field occurs once, with a value of which `P` holds. -/
def OneField (fs : List (List Char × JValue)) (name : String) (P : JValue → Prop) : Prop :=
  ∃ pre v post, fs = pre ++ (name.toList, v) :: post ∧ (∀ f ∈ pre ++ post, f.1 ≠ name.toList) ∧ P v

/-- The JSON value is an array of things that are said of the items, in order. -/
def SaysList {α : Type} (R : JValue → α → Prop) (j : JValue) (l : List α) : Prop := ∃ js, j = .arr js ∧ List.Forall₂ R js l

/-- A string. -/
def SaysStr (j : JValue) (s : List Char) : Prop := j = .str s

/-- A string or `null`. -/
def SaysOpt (j : JValue) (s : Option (List Char)) : Prop := (j = .null ∧ s = none) ∨ ∃ t, j = .str t ∧ s = some t

/-- A field with a string or `null`, which may be left out for `null`. -/
def OptField (fs : List (List Char × JValue)) (name : String) (s : Option (List Char)) : Prop :=
  ((∀ f ∈ fs, f.1 ≠ name.toList) ∧ s = none) ∨ OneField fs name fun v => SaysOpt v s

/-- A suffix with its values: an object with these fields and any others, or an array. -/
def SaysSuffixDiff (j : JValue) (s : Json.SuffixDiff) : Prop :=
  (∃ a b, j = .arr [.num s.suffix.val, a, b] ∧ SaysOpt a s.currentValue ∧ SaysOpt b s.newValue) ∨
  ∃ fs, j = .obj fs ∧ OneField fs "suffix" (· = .num s.suffix.val) ∧ OptField fs "currentValue" s.currentValue ∧
    OptField fs "newValue" s.newValue

/-- A stem with its suffixes. -/
def SaysStateDiff (j : JValue) (d : Json.StateDiff) : Prop :=
  (∃ a, j = .arr [.str d.stem, a] ∧ SaysList SaysSuffixDiff a d.suffixDiffs) ∨
  ∃ fs, j = .obj fs ∧ OneField fs "stem" (SaysStr · d.stem) ∧ OneField fs "suffixDiffs" (SaysList SaysSuffixDiff · d.suffixDiffs)

/-- An inner product proof. -/
def SaysIpa (j : JValue) (p : Json.IpaProof) : Prop :=
  (∃ a b, j = .arr [a, b, .str p.finalEvaluation] ∧ SaysList SaysStr a p.cl ∧ SaysList SaysStr b p.cr) ∨
  ∃ fs, j = .obj fs ∧ OneField fs "cl" (SaysList SaysStr · p.cl) ∧ OneField fs "cr" (SaysList SaysStr · p.cr) ∧
    OneField fs "finalEvaluation" (SaysStr · p.finalEvaluation)

/-- A proof of a trie. -/
def SaysProof (j : JValue) (p : Json.VerkleProof) : Prop :=
  (∃ a b c, j = .arr [a, .str p.depthExtensionPresent, b, .str p.d, c] ∧ SaysList SaysStr a p.otherStems ∧
    SaysList SaysStr b p.commitmentsByPath ∧ SaysIpa c p.ipaProof) ∨
  ∃ fs, j = .obj fs ∧ OneField fs "otherStems" (SaysList SaysStr · p.otherStems) ∧
    OneField fs "depthExtensionPresent" (SaysStr · p.depthExtensionPresent) ∧
    OneField fs "commitmentsByPath" (SaysList SaysStr · p.commitmentsByPath) ∧ OneField fs "d" (SaysStr · p.d) ∧
    OneField fs "ipaProof" (SaysIpa · p.ipaProof)

/-- An execution witness. -/
def SaysWitness (j : JValue) (w : Json.ExecutionWitness) : Prop :=
  (∃ a b, j = .arr [a, b] ∧ SaysList SaysStateDiff a w.stateDiffs ∧ SaysProof b w.verkleProof) ∨
  ∃ fs, j = .obj fs ∧ OneField fs "stateDiff" (SaysList SaysStateDiff · w.stateDiffs) ∧ OneField fs "verkleProof" (SaysProof · w.verkleProof)

/-! ### Reading -/

theorem takeField_none (name : List Char) : ∀ fs, Json.takeField name fs = .ok none ↔ ∀ f ∈ fs, f.1 ≠ name
  | [] => by simp [Json.takeField]
  | f :: fs => by
    have ih := takeField_none name fs
    cases h : Json.takeField name fs with
    | error e =>
      rw [h] at ih
      simp only [Json.takeField, h, bind, Except.bind, List.mem_cons, forall_eq_or_imp, ← ih]
      simp
    | ok o =>
      rw [h] at ih
      simp only [Json.takeField, h, bind, Except.bind, List.mem_cons, forall_eq_or_imp, ← ih]
      cases o <;> by_cases hf : f.1 = name <;> simp [hf]

theorem takeField_some (name : List Char) (v : JValue) : ∀ fs, Json.takeField name fs = .ok (some v) ↔
    ∃ pre post, fs = pre ++ (name, v) :: post ∧ ∀ f ∈ pre ++ post, f.1 ≠ name
  | [] => by simp [Json.takeField]
  | f :: fs => by
    have ih := takeField_some name v fs
    have i0 := takeField_none name fs
    constructor
    · intro h
      cases ht : Json.takeField name fs with
      | error e => simp [Json.takeField, ht, bind, Except.bind] at h
      | ok o =>
        rw [ht] at ih i0
        simp only [Json.takeField, ht, bind, Except.bind] at h
        cases o with
        | none =>
          by_cases hf : f.1 = name
          · simp only [hf, if_true, Except.ok.injEq, Option.some.injEq] at h
            exact ⟨[], fs, by rw [← hf, ← h]; rfl, i0.1 rfl⟩
          · simp [hf] at h
        | some u =>
          by_cases hf : f.1 = name
          · simp [hf] at h
          · simp only [hf, if_false] at h
            obtain ⟨pre, post, e1, e2⟩ := ih.1 h
            refine ⟨f :: pre, post, by rw [e1]; rfl, fun g hg => ?_⟩
            rcases List.mem_cons.1 hg with rfl | hg
            · exact hf
            · exact e2 g hg
    · rintro ⟨pre, post, e1, e2⟩
      cases pre with
      | nil =>
        simp only [List.nil_append, List.cons.injEq] at e1
        obtain ⟨rfl, rfl⟩ := e1
        simp only [Json.takeField, i0.2 e2, bind, Except.bind, if_true]
      | cons g pre =>
        simp only [List.cons_append, List.cons.injEq] at e1
        obtain ⟨rfl, e1⟩ := e1
        have := ih.2 ⟨pre, post, e1, fun g hg => e2 g (List.mem_cons_of_mem _ hg)⟩
        have hf := e2 f List.mem_cons_self
        simp only [Json.takeField, this, bind, Except.bind, hf, if_false]

theorem required_iff {α : Type} {read : JValue → Res α} {R : JValue → Prop} {x : α} (h : ∀ j, read j = .ok x ↔ R j) (name : String)
    (fs : List (List Char × JValue)) : Json.required read name.toList fs = .ok x ↔ OneField fs name R := by
  unfold Json.required OneField
  cases ht : Json.takeField name.toList fs with
  | error e =>
    simp only [bind, Except.bind, reduceCtorEq, false_iff]
    rintro ⟨pre, v, post, e1, e2, -⟩
    rw [(takeField_some _ v fs).2 ⟨pre, post, e1, e2⟩] at ht
    cases ht
  | ok o =>
    cases o with
    | none =>
      simp only [bind, Except.bind, reduceCtorEq, false_iff]
      rintro ⟨pre, v, post, e1, e2, -⟩
      rw [(takeField_some _ v fs).2 ⟨pre, post, e1, e2⟩] at ht
      cases ht
    | some v =>
      simp only [bind, Except.bind, h]
      constructor
      · intro hv
        obtain ⟨pre, post, e1, e2⟩ := (takeField_some _ v fs).1 ht
        exact ⟨pre, v, post, e1, e2, hv⟩
      · rintro ⟨pre, v', post, e1, e2, hv⟩
        rw [(takeField_some _ v' fs).2 ⟨pre, post, e1, e2⟩] at ht
        cases ht
        exact hv

theorem readOptString_iff (j : JValue) (s : Option (List Char)) : Json.readOptString j = .ok s ↔ SaysOpt j s := by
  unfold SaysOpt
  cases j <;> simp [Json.readOptString, eq_comm]

theorem optional_iff (name : String) (fs : List (List Char × JValue)) (s : Option (List Char)) :
    Json.optional name.toList fs = .ok s ↔ OptField fs name s := by
  unfold Json.optional OptField OneField
  cases ht : Json.takeField name.toList fs with
  | error e =>
    simp only [bind, Except.bind, reduceCtorEq, false_iff]
    rintro (⟨h, -⟩ | ⟨pre, v, post, e1, e2, -⟩)
    · rw [(takeField_none _ fs).2 h] at ht
      cases ht
    · rw [(takeField_some _ v fs).2 ⟨pre, post, e1, e2⟩] at ht
      cases ht
  | ok o =>
    cases o with
    | none =>
      have h0 := (takeField_none _ fs).1 ht
      simp only [bind, Except.bind, Except.ok.injEq]
      constructor
      · exact fun h => Or.inl ⟨h0, h.symm⟩
      · rintro (⟨-, h⟩ | ⟨pre, v, post, e1, e2, -⟩)
        · exact h.symm
        · exact absurd rfl (h0 (name.toList, v) (by rw [e1]; simp))
    | some v =>
      simp only [bind, Except.bind, readOptString_iff]
      obtain ⟨pre, post, e1, e2⟩ := (takeField_some _ v fs).1 ht
      constructor
      · exact fun hv => Or.inr ⟨pre, v, post, e1, e2, hv⟩
      · rintro (⟨h, -⟩ | ⟨pre', v', post', e1', e2', hv⟩)
        · exact absurd rfl (h (name.toList, v) (by rw [e1]; simp))
        · rw [(takeField_some _ v' fs).2 ⟨pre', post', e1', e2'⟩] at ht
          cases ht
          exact hv

theorem readU8_iff (j : JValue) (b : Byte) : Json.readU8 j = .ok b ↔ j = .num b.val := by
  cases j with
  | num n =>
    simp only [Json.readU8, JValue.num.injEq]
    split
    next h =>
      simp only [Except.ok.injEq]
      exact ⟨fun e => by rw [← e], fun e => Fin.ext e⟩
    next h =>
      simp only [reduceCtorEq, false_iff]
      have := b.isLt
      omega
  | _ => simp [Json.readU8]

theorem readString_iff (j : JValue) (s : List Char) : Json.readString j = .ok s ↔ SaysStr j s := by
  unfold SaysStr
  cases j <;> simp [Json.readString]

theorem readVec_iff {α : Type} {read : JValue → Res α} {R : JValue → α → Prop} (h : ∀ j x, read j = .ok x ↔ R j x) (j : JValue) (l : List α) :
    Json.readVec read j = .ok l ↔ SaysList R j l := by
  unfold SaysList
  cases j with
  | arr js =>
    simp only [Json.readVec, JValue.arr.injEq, exists_eq_left', mapM_ok_iff]
    exact forall₂_iff (fun a b => h a b) _ _
  | _ => simp [Json.readVec]

theorem bind_ok {α β : Type} {x : Res α} {f : α → Res β} {b : β} : x.bind f = .ok b ↔ ∃ a, x = .ok a ∧ f a = .ok b := by
  cases x <;> simp [Except.bind]

theorem readSuffixDiff_iff (j : JValue) (s : Json.SuffixDiff) : Json.readSuffixDiff j = .ok s ↔ SaysSuffixDiff j s := by
  obtain ⟨s1, s2, s3⟩ := s
  unfold SaysSuffixDiff Json.readSuffixDiff
  split
  next a b c =>
    simp only [bind, bind_ok, readU8_iff, readOptString_iff, Except.ok.injEq, Json.SuffixDiff.mk.injEq, JValue.arr.injEq, List.cons.injEq,
      and_true, reduceCtorEq, false_and, exists_false, or_false]
    constructor
    · rintro ⟨_, h1, _, h2, _, h3, rfl, rfl, rfl⟩
      exact ⟨b, c, ⟨h1, rfl, rfl⟩, h2, h3⟩
    · rintro ⟨_, _, ⟨h1, rfl, rfl⟩, h2, h3⟩
      exact ⟨_, h1, _, h2, _, h3, rfl, rfl, rfl⟩
  next fs =>
    simp only [bind, bind_ok, required_iff (fun j => readU8_iff j _), optional_iff, Except.ok.injEq, Json.SuffixDiff.mk.injEq, JValue.obj.injEq,
      reduceCtorEq, false_and, exists_false, false_or]
    constructor
    · rintro ⟨_, h1, _, h2, _, h3, rfl, rfl, rfl⟩
      exact ⟨fs, rfl, h1, h2, h3⟩
    · rintro ⟨_, rfl, h1, h2, h3⟩
      exact ⟨_, h1, _, h2, _, h3, rfl, rfl, rfl⟩
  next h1 h2 =>
    simp only [reduceCtorEq, false_iff]
    rintro (⟨a, b, rfl, -⟩ | ⟨fs, rfl, -⟩)
    · exact h1 _ _ _ rfl
    · exact h2 _ rfl

theorem readStateDiff_iff (j : JValue) (d : Json.StateDiff) : Json.readStateDiff j = .ok d ↔ SaysStateDiff j d := by
  obtain ⟨d1, d2⟩ := d
  unfold SaysStateDiff Json.readStateDiff
  split
  next a b =>
    simp only [bind, bind_ok, readString_iff, readVec_iff readSuffixDiff_iff, Except.ok.injEq, Json.StateDiff.mk.injEq, JValue.arr.injEq,
      List.cons.injEq, and_true, reduceCtorEq, false_and, exists_false, or_false]
    constructor
    · rintro ⟨_, h1, _, h2, rfl, rfl⟩
      exact ⟨b, ⟨h1, rfl⟩, h2⟩
    · rintro ⟨_, ⟨h1, rfl⟩, h2⟩
      exact ⟨_, h1, _, h2, rfl, rfl⟩
  next fs =>
    simp only [bind, bind_ok, required_iff (fun j => readString_iff j _), required_iff (fun j => readVec_iff readSuffixDiff_iff j _),
      Except.ok.injEq, Json.StateDiff.mk.injEq, JValue.obj.injEq, reduceCtorEq, false_and, exists_false, false_or]
    constructor
    · rintro ⟨_, h1, _, h2, rfl, rfl⟩
      exact ⟨fs, rfl, h1, h2⟩
    · rintro ⟨_, rfl, h1, h2⟩
      exact ⟨_, h1, _, h2, rfl, rfl⟩
  next h1 h2 =>
    simp only [reduceCtorEq, false_iff]
    rintro (⟨a, rfl, -⟩ | ⟨fs, rfl, -⟩)
    · exact h1 _ _ rfl
    · exact h2 _ rfl

theorem readIpaProof_iff (j : JValue) (p : Json.IpaProof) : Json.readIpaProof j = .ok p ↔ SaysIpa j p := by
  obtain ⟨p1, p2, p3⟩ := p
  unfold SaysIpa Json.readIpaProof
  split
  next a b c =>
    simp only [bind, bind_ok, readString_iff, readVec_iff readString_iff, Except.ok.injEq, Json.IpaProof.mk.injEq, JValue.arr.injEq,
      List.cons.injEq, and_true, reduceCtorEq, false_and, exists_false, or_false]
    constructor
    · rintro ⟨_, h1, _, h2, _, h3, rfl, rfl, rfl⟩
      exact ⟨a, b, ⟨rfl, rfl, h3⟩, h1, h2⟩
    · rintro ⟨_, _, ⟨rfl, rfl, h3⟩, h1, h2⟩
      exact ⟨_, h1, _, h2, _, h3, rfl, rfl, rfl⟩
  next fs =>
    simp only [bind, bind_ok, required_iff (fun j => readString_iff j _), required_iff (fun j => readVec_iff readString_iff j _),
      Except.ok.injEq, Json.IpaProof.mk.injEq, JValue.obj.injEq, reduceCtorEq, false_and, exists_false, false_or]
    constructor
    · rintro ⟨_, h1, _, h2, _, h3, rfl, rfl, rfl⟩
      exact ⟨fs, rfl, h1, h2, h3⟩
    · rintro ⟨_, rfl, h1, h2, h3⟩
      exact ⟨_, h1, _, h2, _, h3, rfl, rfl, rfl⟩
  next h1 h2 =>
    simp only [reduceCtorEq, false_iff]
    rintro (⟨a, b, rfl, -⟩ | ⟨fs, rfl, -⟩)
    · exact h1 _ _ _ rfl
    · exact h2 _ rfl

theorem readVerkleProof_iff (j : JValue) (p : Json.VerkleProof) : Json.readVerkleProof j = .ok p ↔ SaysProof j p := by
  obtain ⟨p1, p2, p3, p4, p5⟩ := p
  unfold SaysProof Json.readVerkleProof
  split
  next a b c d e =>
    simp only [bind, bind_ok, readString_iff, readVec_iff readString_iff, readIpaProof_iff, Except.ok.injEq, Json.VerkleProof.mk.injEq,
      JValue.arr.injEq, List.cons.injEq, and_true, reduceCtorEq, false_and, exists_false, or_false]
    constructor
    · rintro ⟨_, h1, _, h2, _, h3, _, h4, _, h5, rfl, rfl, rfl, rfl, rfl⟩
      exact ⟨a, c, e, ⟨rfl, h2, rfl, h4, rfl⟩, h1, h3, h5⟩
    · rintro ⟨_, _, _, ⟨rfl, h2, rfl, h4, rfl⟩, h1, h3, h5⟩
      exact ⟨_, h1, _, h2, _, h3, _, h4, _, h5, rfl, rfl, rfl, rfl, rfl⟩
  next fs =>
    simp only [bind, bind_ok, required_iff (fun j => readString_iff j _), required_iff (fun j => readVec_iff readString_iff j _),
      required_iff (fun j => readIpaProof_iff j _),
      Except.ok.injEq, Json.VerkleProof.mk.injEq, JValue.obj.injEq, reduceCtorEq, false_and, exists_false, false_or]
    constructor
    · rintro ⟨_, h1, _, h2, _, h3, _, h4, _, h5, rfl, rfl, rfl, rfl, rfl⟩
      exact ⟨fs, rfl, h1, h2, h3, h4, h5⟩
    · rintro ⟨_, rfl, h1, h2, h3, h4, h5⟩
      exact ⟨_, h1, _, h2, _, h3, _, h4, _, h5, rfl, rfl, rfl, rfl, rfl⟩
  next h1 h2 =>
    simp only [reduceCtorEq, false_iff]
    rintro (⟨a, b, c, rfl, -⟩ | ⟨fs, rfl, -⟩)
    · exact h1 _ _ _ _ _ rfl
    · exact h2 _ rfl

/-- **C88** (reading): a JSON value is read as a record exactly when it says it: as an object in which each field of the record occurs once and
other fields may occur, where values of a suffix may be left out, or as an array of the fields in order. -/
theorem C88_reads (j : JValue) (w : Json.ExecutionWitness) : Json.readWitness j = .ok w ↔ SaysWitness j w := by
  obtain ⟨w1, w2⟩ := w
  unfold SaysWitness Json.readWitness
  split
  next a b =>
    simp only [bind, bind_ok, readVec_iff readStateDiff_iff, readVerkleProof_iff, Except.ok.injEq, Json.ExecutionWitness.mk.injEq,
      JValue.arr.injEq, List.cons.injEq, and_true, reduceCtorEq, false_and, exists_false, or_false]
    constructor
    · rintro ⟨_, h1, _, h2, rfl, rfl⟩
      exact ⟨a, b, ⟨rfl, rfl⟩, h1, h2⟩
    · rintro ⟨_, _, ⟨rfl, rfl⟩, h1, h2⟩
      exact ⟨_, h1, _, h2, rfl, rfl⟩
  next fs =>
    simp only [bind, bind_ok, required_iff (fun j => readVec_iff readStateDiff_iff j _), required_iff (fun j => readVerkleProof_iff j _),
      Except.ok.injEq, Json.ExecutionWitness.mk.injEq, JValue.obj.injEq, reduceCtorEq, false_and, exists_false, false_or]
    constructor
    · rintro ⟨_, h1, _, h2, rfl, rfl⟩
      exact ⟨fs, rfl, h1, h2⟩
    · rintro ⟨_, rfl, h1, h2⟩
      exact ⟨_, h1, _, h2, rfl, rfl⟩
  next h1 h2 =>
    simp only [reduceCtorEq, false_iff]
    rintro (⟨a, b, rfl, -⟩ | ⟨fs, rfl, -⟩)
    · exact h1 _ _ rfl
    · exact h2 _ rfl

end Verif.Props
