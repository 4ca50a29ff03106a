import Verif.Props.JsonText
import Verif.Props.Digest

/-!
# C88: `verify_execution_witness` on its text
-/

set_option autoImplicit false
set_option linter.unusedSectionVars false

namespace Verif.Props
open Verif Verif.Spec Verif.Trie Verif.Proof Verif.Ipa Verif.Wire Verif.Ffi Verif.Bander

/-! ### Writing -/

theorem chars_ok (s : List Char) : StrText (s.map Json.charText).flatten s := by
  induction s with
  | nil => exact .nil
  | cons c s ih =>
    rw [List.map_cons, List.flatten_cons]
    refine .cons ?_ ih
    unfold Json.charText
    have hof : ∀ n, c.toNat = n → c = Char.ofNat n := fun n h => by rw [← h, Char.ofNat_toNat]
    split
    · next h => subst h; exact .short (by simp)
    split
    · next h => subst h; exact .short (by simp)
    split
    · next h => rw [hof _ h]; exact .short (by simp)
    split
    · next h => rw [hof _ h]; exact .short (by simp)
    split
    · next h => subst h; exact .short (by simp)
    split
    · next h => subst h; exact .short (by simp)
    split
    · next h => subst h; exact .short (by simp)
    split
    · next h32 =>
      refine .unicode ⟨'0', '0', _, _, 0, 0, c.toNat / 16, c.toNat % 16, rfl, Or.inl rfl, Or.inl rfl, ?_, ?_, by omega⟩
      · have : ∀ n < 2, IsDigit (Json.lowerHex n) n := by
          intro n hn
          interval_cases n <;> exact Or.inl rfl
        exact this _ (by omega)
      · have : ∀ n < 16, IsDigit (Json.lowerHex n) n := by
          intro n hn
          interval_cases n <;> exact Or.inl rfl
        exact this _ (by omega)
    · next h1 h2 _ _ _ _ _ h32 => exact .plain h1 h2 (by omega)

theorem strText_ok (s : List Char) : ValueText (Json.strText s) (.str s) := .str (.str (chars_ok s))

theorem commas_items {α : Type} {f : α → List Char} {g : α → JValue} (h : ∀ x, ValueText (f x) (g x)) : ∀ (x : α) (l : List α),
    ItemsText (Json.commas ((x :: l).map f)) ((x :: l).map g)
  | x, [] => by
    have := ItemsText.one (w := []) (u := []) (by simp [Blank]) (h x) (by simp [Blank])
    simpa [Json.commas] using this
  | x, y :: l => by
    have := ItemsText.cons (w := []) (u := []) (by simp [Blank]) (h x) (by simp [Blank]) (commas_items h y l)
    simpa [Json.commas] using this

theorem arrText_ok {α : Type} {f : α → List Char} {g : α → JValue} (h : ∀ x, ValueText (f x) (g x)) (l : List α) :
    ValueText (Json.arrText (l.map f)) (.arr (l.map g)) := by
  cases l with
  | nil => exact .arrNil (w := []) (by simp [Blank])
  | cons x l => exact .arr (commas_items h x l)

theorem commas_fields : ∀ (f : String × List Char × JValue) (l : List (String × List Char × JValue)), (∀ x ∈ f :: l, ValueText x.2.1 x.2.2) →
    FieldsText (Json.commas ((f :: l).map fun x => Json.strText x.1.toList ++ ':' :: x.2.1)) ((f :: l).map fun x => (some x.1.toList, x.2.2))
  | f, l, h => by
    have hs := NameText.str (chars_ok f.1.toList)
    have hb : Blank [] := by simp [Blank]
    have hv := h f (by simp)
    cases l with
    | nil =>
      have := FieldsText.one hb hs hb hb hv hb
      simpa [Json.commas, Json.strText] using this
    | cons g l =>
      have := FieldsText.cons hb hs hb hb hv hb (commas_fields g l fun x hx => h x (by simp only [List.mem_cons] at hx ⊢; tauto))
      simpa [Json.commas, Json.strText] using this
  termination_by f l => l.length

theorem objText_ok (f : String × List Char × JValue) (l : List (String × List Char × JValue)) (h : ∀ x ∈ f :: l, ValueText x.2.1 x.2.2) :
    ValueText (Json.objText ((f :: l).map fun x => (x.1, x.2.1))) (.obj ((f :: l).map fun x => (x.1.toList, x.2.2))) := by
  have := ValueText.obj (l := (f :: l).map fun x => (x.1.toList, x.2.2)) (by rw [List.map_map]; exact commas_fields f l h)
  unfold Json.objText
  rw [List.map_map]
  exact this

theorem optText_ok (s : Option (List Char)) : ValueText (Json.optText s) (Json.writeOptString s) := by
  cases s with
  | none => exact .null
  | some s => exact strText_ok s

theorem byteText_ok (b : Byte) : ValueText (Json.byteText b) (.num b.val) := by
  have h : ∀ b : Byte, NatText (Json.byteText b) ∧ Nat.ofDigits 10 ((Json.byteText b).reverse.map fun c => c.toNat - 48) = b.val := by
    unfold NatText Decimals
    decide +kernel
  obtain ⟨h1, h2⟩ := h b
  have := NumText.nat h1
  rw [h2] at this
  exact .num this

theorem suffixDiffText_ok (s : Json.SuffixDiff) : ValueText (Json.suffixDiffText s) (Json.writeSuffixDiff s) :=
  objText_ok ("suffix", _, _) [("currentValue", _, _), ("newValue", _, _)] (by
    simp only [List.mem_cons, List.not_mem_nil, or_false, forall_eq_or_imp, forall_eq]
    exact ⟨byteText_ok _, optText_ok _, optText_ok _⟩)

theorem stateDiffText_ok (d : Json.StateDiff) : ValueText (Json.stateDiffText d) (Json.writeStateDiff d) :=
  objText_ok ("stem", _, _) [("suffixDiffs", _, _)] (by
    simp only [List.mem_cons, List.not_mem_nil, or_false, forall_eq_or_imp, forall_eq]
    exact ⟨strText_ok _, arrText_ok suffixDiffText_ok _⟩)

theorem ipaProofText_ok (p : Json.IpaProof) : ValueText (Json.ipaProofText p) (Json.writeIpaProof p) :=
  objText_ok ("cl", _, _) [("cr", _, _), ("finalEvaluation", _, _)] (by
    simp only [List.mem_cons, List.not_mem_nil, or_false, forall_eq_or_imp, forall_eq]
    exact ⟨arrText_ok strText_ok _, arrText_ok strText_ok _, strText_ok _⟩)

theorem verkleProofText_ok (p : Json.VerkleProof) : ValueText (Json.verkleProofText p) (Json.writeVerkleProof p) :=
  objText_ok ("otherStems", _, _) [("depthExtensionPresent", _, _), ("commitmentsByPath", _, _), ("d", _, _), ("ipaProof", _, _)] (by
    simp only [List.mem_cons, List.not_mem_nil, or_false, forall_eq_or_imp, forall_eq]
    exact ⟨arrText_ok strText_ok _, strText_ok _, arrText_ok strText_ok _, strText_ok _, ipaProofText_ok _⟩)

theorem witnessText_ok (w : Json.ExecutionWitness) : ValueText (Json.witnessText w) (Json.writeWitness w) :=
  objText_ok ("stateDiff", _, _) [("verkleProof", _, _)] (by
    simp only [List.mem_cons, List.not_mem_nil, or_false, forall_eq_or_imp, forall_eq]
    exact ⟨arrText_ok stateDiffText_ok _, verkleProofText_ok _⟩)

theorem mapM_map {α β γ : Type} {f : β → Res γ} {g : α → β} {h : α → γ} (hfg : ∀ x, f (g x) = .ok (h x)) : ∀ l : List α,
    (l.map g).mapM f = .ok (l.map h)
  | [] => rfl
  | x :: l => by
    rw [List.map_cons, List.mapM_cons, hfg, mapM_map hfg l]
    rfl

theorem mapM_map_id {α β : Type} {f : β → Res α} {g : α → β} (hfg : ∀ x, f (g x) = .ok x) (l : List α) : (l.map g).mapM f = .ok l := by
  simpa using mapM_map (h := id) hfg l

theorem read_writeOpt (s : Option (List Char)) : Json.readOptString (Json.writeOptString s) = .ok s := by cases s <;> rfl

theorem read_writeStrings (l : List (List Char)) : Json.readVec Json.readString (Json.writeStrings l) = .ok l :=
  mapM_map_id (f := Json.readString) (g := JValue.str) (fun _ => rfl) l

theorem readU8_val (b : Byte) : Json.readU8 (.num b.val) = .ok b := (readU8_iff _ _).2 rfl

theorem read_writeSuffixDiff (s : Json.SuffixDiff) : Json.readSuffixDiff (Json.writeSuffixDiff s) = .ok s := by
  simp [Json.readSuffixDiff, Json.writeSuffixDiff, Json.required, Json.optional, Json.takeField, bind, Except.bind, readU8_val, read_writeOpt]

theorem read_writeStateDiff (d : Json.StateDiff) : Json.readStateDiff (Json.writeStateDiff d) = .ok d := by
  simp [Json.readStateDiff, Json.writeStateDiff, Json.required, Json.takeField, bind, Except.bind, Json.readString, Json.readVec,
    mapM_map_id read_writeSuffixDiff]

theorem read_writeIpaProof (p : Json.IpaProof) : Json.readIpaProof (Json.writeIpaProof p) = .ok p := by
  simp [Json.readIpaProof, Json.writeIpaProof, Json.required, Json.takeField, bind, Except.bind, read_writeStrings, Json.readString]

theorem read_writeVerkleProof (p : Json.VerkleProof) : Json.readVerkleProof (Json.writeVerkleProof p) = .ok p := by
  simp [Json.readVerkleProof, Json.writeVerkleProof, Json.required, Json.takeField, bind, Except.bind, read_writeStrings, Json.readString,
    read_writeIpaProof]

theorem read_writeWitness (w : Json.ExecutionWitness) : Json.readWitness (Json.writeWitness w) = .ok w := by
  simp [Json.readWitness, Json.writeWitness, Json.required, Json.takeField, bind, Except.bind, Json.readVec, mapM_map_id read_writeStateDiff,
    read_writeVerkleProof]

/-- **C88** (round trip): what is written for a record is JSON and is read as that record, whatever characters its strings have. -/
theorem C88_roundtrip (w : Json.ExecutionWitness) : Json.readText (Json.witnessText w) = .ok w ∧ ∃ j, JsonText (Json.witnessText w) j ∧ SaysWitness j w := by
  have h : ∃ j, JsonText (Json.witnessText w) j ∧ SaysWitness j w :=
    ⟨_, ⟨[], _, [], by simp [Blank], witnessText_ok w, by simp [Blank], by simp⟩, (C88_reads _ _).1 (read_writeWitness w)⟩
  exact ⟨((C88_text _).1 w).2 h, h⟩

/-- Different records are written differently. -/
theorem C88_injective {w w' : Json.ExecutionWitness} (h : Json.witnessText w = Json.witnessText w') : w = w' := by
  have h1 := (C88_roundtrip w).1
  rw [h, (C88_roundtrip w').1] at h1
  exact (Except.ok.inj h1).symm

/-! ### What does not matter -/

theorem OneField.mono {fs fs' : List (List Char × JValue)} {name : String} {P : JValue → Prop}
    (hp : (fs'.filter fun f => f.1 = name.toList).Perm (fs.filter fun f => f.1 = name.toList)) (h : OneField fs name P) : OneField fs' name P := by
  obtain ⟨pre, v, post, rfl, h2, h3⟩ := h
  have hnil : ∀ l : List (List Char × JValue), (∀ f ∈ l, f.1 ≠ name.toList) → l.filter (fun f => f.1 = name.toList) = [] := by
    intro l hl
    rw [List.filter_eq_nil_iff]
    simpa using hl
  have hf : (pre ++ (name.toList, v) :: post).filter (fun f => f.1 = name.toList) = [(name.toList, v)] := by
    rw [List.filter_append, List.filter_cons_of_pos (by simp), hnil pre fun f hf => h2 f (by simp [hf]), hnil post fun f hf => h2 f (by simp [hf])]
    rfl
  rw [hf, List.perm_singleton] at hp
  have hm : (name.toList, v) ∈ fs' := by
    have : (name.toList, v) ∈ fs'.filter fun f => f.1 = name.toList := by rw [hp]; simp
    exact (List.mem_filter.1 this).1
  obtain ⟨a, b, rfl⟩ := List.append_of_mem hm
  rw [List.filter_append, List.filter_cons_of_pos (by simp)] at hp
  have hlen := congrArg List.length hp
  simp only [List.length_append, List.length_cons, List.length_nil] at hlen
  refine ⟨a, v, b, rfl, fun f hf hn => ?_, h3⟩
  rcases List.mem_append.1 hf with hf | hf
  · have := List.length_pos_of_mem (List.mem_filter.2 ⟨hf, by simpa using hn⟩ : f ∈ a.filter fun f => f.1 = name.toList)
    omega
  · have := List.length_pos_of_mem (List.mem_filter.2 ⟨hf, by simpa using hn⟩ : f ∈ b.filter fun f => f.1 = name.toList)
    omega

/-- **C88** (fields): neither the order of the fields nor further fields matter. -/
theorem C88_fields {fs fs' extra : List (List Char × JValue)} (hp : fs'.Perm (fs ++ extra))
    (hx : ∀ f ∈ extra, f.1 ≠ "stateDiff".toList ∧ f.1 ≠ "verkleProof".toList) (w : Json.ExecutionWitness) :
    Json.readWitness (.obj fs') = .ok w ↔ Json.readWitness (.obj fs) = .ok w := by
  have hfil : ∀ name : String, (∀ f ∈ extra, f.1 ≠ name.toList) →
      (fs'.filter fun f => f.1 = name.toList).Perm (fs.filter fun f => f.1 = name.toList) := by
    intro name h
    have h1 := hp.filter fun f => f.1 = name.toList
    rw [List.filter_append, (List.filter_eq_nil_iff (l := extra)).2 (by simpa using h), List.append_nil] at h1
    exact h1
  have h1 := hfil "stateDiff" fun f hf => (hx f hf).1
  have h2 := hfil "verkleProof" fun f hf => (hx f hf).2
  simp only [C88_reads, SaysWitness, reduceCtorEq, false_and, exists_false, false_or, JValue.obj.injEq, exists_eq_left']
  exact ⟨fun h => ⟨h.1.mono h1.symm, h.2.mono h2.symm⟩, fun h => ⟨h.1.mono h1, h.2.mono h2⟩⟩

/-- **C88** (whitespace): whitespace around a text does not matter, so no record has one text only. -/
theorem C88_whitespace {t w u : List Char} (hw : Blank w) (hu : Blank u) (x : Json.ExecutionWitness) (h : Json.readText t = .ok x) :
    Json.readText (w ++ t ++ u) = .ok x := by
  obtain ⟨j, ⟨a, s, b, ha, hs, hb, rfl⟩, hj⟩ := ((C88_text _).1 x).1 h
  refine ((C88_text _).1 x).2 ⟨j, ⟨w ++ a, s, b ++ u, ?_, hs, ?_, by simp⟩, hj⟩
  · intro c hc
    rcases List.mem_append.1 hc with hc | hc
    · exact hw c hc
    · exact ha c hc
  · intro c hc
    rcases List.mem_append.1 hc with hc | hc
    · exact hb c hc
    · exact hu c hc

/-! ### `verify_execution_witness` -/

section
variable {F G : Type} [Field F] [DecidableEq F] [AddCommGroup G] [DecidableEq G] [Module F G] (O : Oracle F G)

/-- **C88** (acceptance): `verify_execution_witness` accepts two strings exactly when the second is JSON for a record that states claims and a
proof, the first spells a root, and the proof passes for the claims and the root. -/
theorem C88_accepted (C : Crypto F G) (Q : G) (order : List (ProverQuery F G) → List ℕ) (root text : List Char) :
    verifyWitnessText O C Q order root text = .ok true ↔ ∃ (j : JValue) (J : Json.ExecutionWitness) (W : Claims F G) (rt : G),
      JsonText text j ∧ SaysWitness j J ∧ States O.K J W ∧ SpellsElem O.K root rt ∧
      ∃ uh, check C (multiOpener O C Q order) W.toProof W.keys W.current rt = .ok (true, uh) := by
  unfold verifyWitnessText
  simp only [bind, bind_ok, (C88_text text).1, C51_accepted]
  constructor
  · rintro ⟨J, ⟨j, h1, h2⟩, W, rt, h3, h4, h5⟩
    exact ⟨j, J, W, rt, h1, h2, h3, h4, h5⟩
  · rintro ⟨j, J, W, rt, h1, h2, h3, h4, h5⟩
    exact ⟨J, ⟨j, h1, h2⟩, W, rt, h3, h4, h5⟩

/-- **C88** (panics): a text that is not JSON for a record makes `verify_execution_witness` panic, whatever the root is. -/
theorem C88_panics (C : Crypto F G) (Q : G) (order : List (ProverQuery F G) → List ℕ) (root text : List Char)
    (h : ¬∃ j J, JsonText text j ∧ SaysWitness j J) : ∃ e, verifyWitnessText O C Q order root text = .error e := by
  obtain ⟨e, he⟩ := (C88_text text).2.2 h
  exact ⟨e, by simp [verifyWitnessText, he, bind, Except.bind]⟩

/-- **C88** (honest provers): for a proof from the trie's own prover there are two strings, written by `to_string` and in hexadecimal, that
`verify_execution_witness` accepts (the conditions are those of `C51_honest_exists`). -/
theorem C88_honest (C : Crypto F G) (Q : G) {order : List (ProverQuery F G) → List ℕ}
    (ho : ∀ qs, IsOrder qs (order qs)) (hF : Distinct F 256) (l : List (Key × Value)) {db : MemoryDb F G}
    (hb : build C l = .ok db) {keys : List Key} (hk : keys ≠ []) {rt : G} (hr : Trie.rootCommitment db = .ok rt)
    {p : VerkleProof G (MultiProof F G)} (hp : createVerkleProof (multiOpener O C Q order) db keys = .ok (.ok p))
    (htt : ∀ qs hint, createProverQueries db keys = .ok (qs, hint) → ∀ i : ℕ, i < 256 →
      challengeT O (lbl "vt") (qs.map ProverQuery.toVerifier) p.proof.gx ≠ (i : F))
    (hsep : Separated C (lastWrite l) (· ∈ keys)) :
    ∃ (W : Claims F G) (J : Json.ExecutionWitness) (root : List Char), W.toProof = p ∧ W.keys = keys ∧ W.current = keys.map (Trie.get db) ∧
      States O.K J W ∧ SpellsElem O.K root rt ∧ verifyWitnessText O C Q order root (Json.witnessText J) = .ok true := by
  obtain ⟨W, J, root, h1, h2, h3, h4, h5, h6⟩ := C51_honest_exists O C Q ho hF l hb hk hr hp htt hsep
  exact ⟨W, J, root, h1, h2, h3, h4, h5, by simp only [verifyWitnessText, (C88_roundtrip J).1, bind, Except.bind]; exact h6⟩

end

/-! ### Programs that output a text -/

section
open scoped Classical
variable {F G : Type} [Field F] [DecidableEq F] [AddCommGroup G] [DecidableEq G] [Module F G]

/-- The output of a program, a text, is accepted by `verify_execution_witness` for the root and makes a false claim that it does not dispute
itself.  There are at most `qmax` queries. -/
def ForgesText (K : WireCodec F G) (C : Crypto F G) (Q : G) (order : List (ProverQuery F G) → List ℕ) (l : List (Key × Value))
    (db : MemoryDb F G) (root : G) (rootHex : List Char) (qmax : ℕ) (text : List Char) (H : List Byte → F) : Prop :=
  verifyWitnessText ⟨K, H⟩ C Q order rootHex text = .ok true ∧
  ∃ (j : JValue) (J : Json.ExecutionWitness) (W : Claims F G), JsonText text j ∧ SaysWitness j J ∧ States K J W ∧
    (∃ qs uh, createVerifierQueries C W.toProof.hint W.toProof.comms W.keys W.current root = .ok (some (qs, uh)) ∧
      qs.length ≤ qmax) ∧
    ∃ k v, (k, v) ∈ W.keys.zip W.current ∧ Undisputed W.toProof.hint W.keys W.current k v ∧ FalseClaim l db W.toProof.hint W.keys k v

/-- The record of a text, or one that no witness is read from. -/
def recordOf (t : List Char) : Json.ExecutionWitness :=
  match Json.readText t with
  | .ok J => J
  | .error _ => ⟨[⟨[], []⟩], [], [], [], [], [], [], []⟩

theorem forgesText_iff (K : WireCodec F G) (C : Crypto F G) (Q : G) (order : List (ProverQuery F G) → List ℕ) (l : List (Key × Value))
    (db : MemoryDb F G) (root : G) (rootHex : List Char) (qmax : ℕ) (text : List Char) (H : List Byte → F) :
    ForgesText K C Q order l db root rootHex qmax text H ↔ ForgesWitness K C Q order l db root rootHex qmax (.ret (recordOf text)) H := by
  unfold ForgesText ForgesWitness verifyWitnessText recordOf
  cases h : Json.readText text with
  | error e =>
    simp only [bind, Except.bind, reduceCtorEq, false_and, Prog.run, false_iff, not_and]
    intro h'
    exact absurd h' (by simp [verifyExecutionWitness, fromJson, hexToArray, hexToBytes, trim0x, hexDecode, unwrap, bind, Except.bind])
  | ok J =>
    simp only [bind, Except.bind, Prog.run]
    refine and_congr_right fun _ => ⟨?_, ?_⟩
    · rintro ⟨j, J', W, h1, h2, h3⟩
      have := ((C88_text text).1 J').2 ⟨j, h1, h2⟩
      rw [h] at this
      cases this
      exact ⟨W, h3⟩
    · rintro ⟨W, h3⟩
      obtain ⟨j, h1, h2⟩ := ((C88_text text).1 J).1 h
      exact ⟨j, J, W, h1, h2, h3⟩

end

section
open scoped Classical
variable {G : Type} [AddCommGroup G] [DecidableEq G] [Module (ZMod r) G]

/-- C83 for programs that output the text of an execution witness (partial: as `C83_witness_partial`). -/
theorem C83_text_partial {N qmax : ℕ} (K : WireCodec (ZMod r) G) (C : Crypto (ZMod r) G) (Q : G)
    (order : List (ProverQuery (ZMod r) G) → List ℕ) (l : List (Key × Value)) {db : MemoryDb (ZMod r) G} (hb : build C l = .ok db) {root : G}
    (hr : Trie.rootCommitment db = .ok root) {rootHex : List Char} (hhex : SpellsElem K rootHex root)
    (A : Prog (List Byte) Digest (List Char)) (hA : A.Within N) (H₀ : List Byte → Digest) (D : Finset (List Byte))
    (hD : ∀ s : List Byte, s.length ≤ 99 * qmax + 192 → s ∈ D)
    (h : (N + 11) * (9 * (513 + qmax + 2 * (N + 11))) * Fintype.card Digest ^ D.card <
      Fintype.card Digest * Fintype.card {H : D → Digest // ForgesText K C Q order l db root rootHex qmax (A.run (over H₀ H)) (chal (over H₀ H))}) :
    ∃ (qs : List (VerifierQuery (ZMod r) G)) (X : MultiTree (ZMod r) G qs.length (255 + qs.length) 8), X.Distinct 256 ∧
      (∀ i j u, ∀ p ∈ (X.ipa i j u).leaves, ∃ H : D → Digest, ForgesText K C Q order l db root rootHex qmax (A.run (over H₀ H)) (chal (over H₀ H)) ∧
        (∃ (v : JValue) (J : Json.ExecutionWitness) (W : Claims (ZMod r) G), JsonText (A.run (over H₀ H)) v ∧ SaysWitness v J ∧ States K J W ∧
          MakesQueries C root (W.toProof, W.keys, W.current) qs ∧ W.proof = ⟨p.2, X.D i⟩) ∧
        drawn ⟨K, chal (over H₀ H)⟩ (newTranscript (lbl "vt")) ⟨p.2, X.D i⟩ qs = (X.r i, X.t i j, X.w i j u, p.1)) ∧
      ((∃ ρ ∈ X.rels qs.get 256, ρ ≠ 0 ∧ ∑ i : Fin 256, ρ.1 i • C.g i + ρ.2 • Q = 0) ∨
      ProofBreak C (lastWrite l) (vecOf qs X) qs) := by
  have hrun : ∀ H : List Byte → Digest, (A.bind fun t => .ret (recordOf t)).run H = recordOf (A.run H) := fun H => Prog.run_bind H _ A
  obtain ⟨qs, X, hX, h1, h2⟩ := C83_witness_partial (N := N) (qmax := qmax) K C Q order l hb hr hhex (A.bind fun t => .ret (recordOf t))
    (by simpa using Prog.Within.bind (f := fun t => .ret (recordOf t)) (n := 0) (fun _ => trivial) hA) H₀ D hD
    (lt_of_lt_of_le h (Nat.mul_le_mul_left _ (Fintype.card_subtype_mono _ _ fun H hH => by
      rw [hrun]
      exact (forgesText_iff ..).1 hH)))
  refine ⟨qs, X, hX, fun i j u p hp => ?_, h2⟩
  obtain ⟨H, e1, ⟨W, e2, e3, e4⟩, e5⟩ := h1 i j u p hp
  rw [hrun] at e1 e2
  have e6 := (forgesText_iff ..).2 e1
  refine ⟨H, e6, ?_, e5⟩
  obtain ⟨-, v, J, -, k1, k2, -⟩ := e6
  refine ⟨v, J, W, k1, k2, ?_, e3, e4⟩
  have hJ := ((C88_text _).1 J).2 ⟨v, k1, k2⟩
  unfold recordOf at e2
  rw [hJ] at e2
  exact e2

/-- The hypotheses of `C83_text_partial` are met if all generators are zero: the program writes the record of a program of C83. -/
example (C : Crypto (ZMod r) G) (hC : ∀ i, C.g i = 0) (K : WireCodec (ZMod r) G) (Q : G) (order : List (ProverQuery (ZMod r) G) → List ℕ)
    (H₀ : List Byte → Digest) : ∃ (db : MemoryDb (ZMod r) G) (root : G) (rootHex : List Char) (A : Prog (List Byte) Digest (List Char))
      (D : Finset (List Byte)), build C [] = .ok db ∧ Trie.rootCommitment db = .ok root ∧ SpellsElem K rootHex root ∧ A.Within 11 ∧
      (∀ s : List Byte, s.length ≤ 99 * 6 + 192 → s ∈ D) ∧
      (11 + 11) * (9 * (513 + 6 + 2 * (11 + 11))) * Fintype.card Digest ^ D.card < Fintype.card Digest *
        Fintype.card {H : D → Digest // ForgesText K C Q order [] db root rootHex 6 (A.run (over H₀ H)) (chal (over H₀ H))} := by
  obtain ⟨db, root, rh, -, A, -, D, h1, h2, h3, -, w, -, -, h5, -, h7, -⟩ := clients_zero_of C83_spread C52_scalar_field.1 C hC K Q order H₀
    (by rw [card_digest]; norm_num)
  refine ⟨db, root, rh, (A.lift digestScalar).bind fun J => .ret (Json.witnessText J), D, h1, h2, h3, ?_, h5,
    lt_of_lt_of_le h7 (Nat.mul_le_mul_left _ (Fintype.card_subtype_mono _ _ fun H hH => ?_))⟩
  · simpa using Prog.Within.bind (f := fun J => .ret (Json.witnessText J)) (n := 0) (fun _ => trivial) (w.lift _)
  · rw [forgesText_iff, Prog.run_bind, Prog.run, recordOf, (C88_roundtrip _).1, Prog.lift_run]
    exact hH

end

/-- A trie with one key, its proof in JSON. -/
example : ∃ (db : MemoryDb (ZMod 521) (ZMod 521)) (rt : ZMod 521) (root text : List Char),
    build wide proofHist = .ok db ∧ Trie.rootCommitment db = .ok rt ∧ SpellsElem wideOracle.K root rt ∧
    verifyWitnessText wideOracle wide 3 anyOrder root text = .ok true := by
  have hb := build_eq wide proofHist
  have hr := root_of_build (C := wide) (m := lastWrite proofHist)
  have hk : proofKeys ≠ [] := by simp [proofKeys]
  obtain ⟨p, hp⟩ := C18_real_opener wideOracle wide 3 anyOrder_isOrder wide_distinct
    (fun s => by simpa using wideOracle_avoids s 0 (by norm_num)) proofHist hb hk
  obtain ⟨W, J, root, -, -, -, -, h5, h6⟩ := C88_honest wideOracle wide 3 anyOrder_isOrder wide_distinct proofHist hb hk hr hp
    (fun qs hint _ i hi => by unfold challengeT challenge; exact wideOracle_avoids _ i hi) wide_separated
  exact ⟨_, _, root, _, hb, hr, h5, h6⟩

deriving instance DecidableEq for Json.SuffixDiff
deriving instance DecidableEq for Json.StateDiff
deriving instance DecidableEq for Json.IpaProof
deriving instance DecidableEq for Json.VerkleProof
deriving instance DecidableEq for Json.ExecutionWitness

/-- Whether reading gives a record. -/
def readsAs (t : List Char) (w : Json.ExecutionWitness) : Bool :=
  match Json.readText t with
  | .ok v => decide (v = w)
  | .error _ => false

theorem readsAs_spec {t : List Char} {w : Json.ExecutionWitness} (h : readsAs t w = true) : Json.readText t = .ok w := by
  unfold readsAs at h
  split at h
  · next v e => rw [e, of_decide_eq_true h]
  · cases h

set_option maxRecDepth 20000 in
/-- A text: an object with the fields in another order and one too many, an array for an object, escapes, a value left out,
halves of pairs of surrogates where they are skipped. -/
example : Json.readText (" {\"x\":[-1.5e+2,{\"\\uD800\":\"\\uDfff\"}],\"verkleProof\":[[],\"0x\\u0031\\/\",[],\"\",{\"cr\":[],\"cl\":[\"\\n\"],\"finalEvaluation\":\"\\uD83d\\uDE00\"}]," ++
      " \"stateDiff\":[{\"stem\":\"a\",\"suffixDiffs\":[{\"newValue\":null,\"suffix\":97}]}]}").toList =
    .ok ⟨[⟨['a'], [⟨97, none, none⟩]⟩], [], "0x1/".toList, [], [], [['\n']], [], [Char.ofNat 0x1F600]⟩ :=
  readsAs_spec (by decide +kernel)

/-- A repeated field, a number too large, a missing field and a comma too many are errors. -/
example : (∀ w, Json.readSuffixDiff (.obj [("suffix".toList, .num 1), ("suffix".toList, .num 1)]) ≠ .ok w) ∧
    (∀ w, Json.readSuffixDiff (.arr [.num 256, .null, .null]) ≠ .ok w) ∧ (∀ w, Json.readSuffixDiff (.obj []) ≠ .ok w) ∧
    Json.parseText "[1,]".toList = none ∧ Json.parseText "01".toList = none ∧ Json.parseText "\"\\uD800".toList = none := by
  refine ⟨?_, ?_, ?_, rfl, rfl, rfl⟩ <;> intro w h <;> cases h

/-- Texts that the grammar excludes exist, so `C88_panics` applies. -/
example : ¬∃ j J, JsonText "null".toList j ∧ SaysWitness j J := by
  have := (C88_text "null".toList).2.1 ⟨_, rfl⟩
  exact this

end Verif.Props
