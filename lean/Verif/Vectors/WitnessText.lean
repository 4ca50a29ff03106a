import Verif.Vectors.Witness
import Verif.Props.JsonWitness

/-!
# Test vector of the repository: the text of an execution witness

`test_serde_works` of `/repo/verkle-trie/src/proof/golang_proof_format.rs:342-346` and `exec_witness_works` of
`/repo/ffi_interface/src/lib.rs:423-427` from the text (`golang_proof_format.rs:242-290`) on.  The text is compared with the record in the
same layout, and that is read by the grammar (C88).
-/

set_option autoImplicit false

namespace Verif.Vectors
open Proof Bander Ipa Wire Ffi Props
open Json (commas strText optText byteText)

/-- The lines of `EXECUTION_WITNESS_JSON`. -/
def witLines : List String :=
  ["",
   "         {",
   "      \"stateDiff\": [",
   "        {",
   "          \"stem\": \"0xab8fbede899caa6a95ece66789421c7777983761db3cfb33b5e47ba10f413b\",",
   "          \"suffixDiffs\": [",
   "            {",
   "              \"suffix\": 97,",
   "              \"currentValue\": null,",
   "              \"newValue\": \"0x2f08a1461ab75873a0f2d23170f46d3be2ade2a7f4ebf607fc53fb361cf85865\"",
   "            }",
   "          ]",
   "        }",
   "      ],",
   "      \"verkleProof\": {",
   "        \"otherStems\": [],",
   "        \"depthExtensionPresent\": \"0x12\",",
   "        \"commitmentsByPath\": [",
   "          \"0x4900c9eda0b8f9a4ef9a2181ced149c9431b627797ab747ee9747b229579b583\",",
   "          \"0x491dff71f13c89dac9aea22355478f5cfcf0af841b68e379a90aa77b8894c00e\",",
   "          \"0x525d67511657d9220031586db9d41663ad592bbafc89bc763273a3c2eb0b19dc\"",
   "        ],",
   "        \"d\": \"0x5c6e856174962f2786f0711288c8ddd90b0c317db7769ab3485818460421f08c\",",
   "        \"ipaProof\": {",
   "          \"cl\": [",
   "            \"0x4ff3c1e2a97b6bd0861a2866acecd2fd6d2e5949196429e409bfd4851339832e\",",
   "            \"0x588cfd2b401c8afd04220310e10f7ccdf1144d2ef9191ee9f72d7d44ad1cf9d0\",",
   "            \"0x0bb16d917ecdec316d38b92558d46450b21553673f38a824037716bfee067220\",",
   "            \"0x2bdb51e80b9e43cc5011f4b51877f4d56232ce13035671f191bd4047baa11f3d\",",
   "            \"0x130f6822a47533ed201f5f15b144648a727217980ca9e86237977b7f0fe8f41e\",",
   "            \"0x2c4b83ccd0bb8ad8d370ab8308e11c95fb2020a6a62e71c9a1c08de2d32fc9f1\",",
   "            \"0x4424bec140960c09fc97ee29dad2c3ff467b7e01a19ada43979c55c697b4f583\",",
   "            \"0x5c8f76533d04c7b868e9d7fcaa901897c5f35b27552c3bf94f01951fae6fcd2a\"",
   "          ],",
   "          \"cr\": [",
   "            \"0x31cb234eeff147546cabd033235c8f446812c7f44b597d9580a10bbecac9dd82\",",
   "            \"0x6945048c033a452d346977ab306df4df653b6e7f3e0b75a705a650427ee30e88\",",
   "            \"0x38ca3c4ebbee982301b6bafd55bc9e016a7c59af95e9666b56a0680ed1cd0673\",",
   "            \"0x16160e96b0fb20d0c9c7d9ae76ca9c74300d34e05d3688315c0062204ab0d07b\",",
   "            \"0x2bc96deadab15bc74546f8882d8b88c54ea0b62b04cb597bf5076fe25c53e43c\",",
   "            \"0x301e407f62f0d1f6bf56f2e252ca89dd9f3bf09acbb0cca9230ecda24ac783b5\",",
   "            \"0x3ce1800a2e3f10e641f3ef8a8aaacf6573e9e33f4cb5b429850271528ed3cd31\",",
   "            \"0x471b1578afbd3f2762654d04db73c6a84e9770f3d6b8a189596fbad38fffa263\"",
   "          ],",
   "          \"finalEvaluation\": \"0x07ca48ff9f0fb458967f070c18e5cdf180e93212bf3efba6378384c5703a61fe\"",
   "        }",
   "      }",
   "    }",
   "    "]

/-- `EXECUTION_WITNESS_JSON`: the lines with line feeds between them. -/
def witText : List Char := ['\n'].intercalate (witLines.map String.toList)

/-! ### The layout -/

def nl (n : ℕ) : List Char := '\n' :: List.replicate n ' '

theorem nl_blank (n : ℕ) : Blank (nl n) := by
  intro c hc
  simp only [nl, List.mem_cons, List.mem_replicate] at hc
  rcases hc with rfl | ⟨-, rfl⟩ <;> simp

def layArr (n : ℕ) : List (List Char) → List Char
  | [] => ['[', ']']
  | ts => '[' :: (commas (ts.map (nl (n + 2) ++ ·)) ++ nl n) ++ [']']

def layObj (n : ℕ) (fs : List (String × List Char)) : List Char :=
  '{' :: (commas (fs.map fun f => nl (n + 2) ++ strText f.1.toList ++ ':' :: ' ' :: f.2) ++ nl n) ++ ['}']

theorem layItems {α : Type} {f : α → List Char} {g : α → JValue} (h : ∀ x, ValueText (f x) (g x)) (n : ℕ) : ∀ (x : α) (l : List α),
    ItemsText (commas (((x :: l).map f).map (nl (n + 2) ++ ·)) ++ nl n) ((x :: l).map g)
  | x, [] => by
    have := ItemsText.one (nl_blank (n + 2)) (h x) (nl_blank n)
    simpa [commas] using this
  | x, y :: l => by
    have := ItemsText.cons (u := []) (nl_blank (n + 2)) (h x) (by simp [Blank]) (layItems h n y l)
    simpa [commas] using this

theorem layArr_ok {α : Type} {f : α → List Char} {g : α → JValue} (h : ∀ x, ValueText (f x) (g x)) (n : ℕ) (l : List α) :
    ValueText (layArr n (l.map f)) (.arr (l.map g)) := by
  cases l with
  | nil => exact .arrNil (w := []) (by simp [Blank])
  | cons x l => exact .arr (layItems h n x l)

theorem layFields (n : ℕ) : ∀ (f : String × List Char × JValue) (l : List (String × List Char × JValue)), (∀ x ∈ f :: l, ValueText x.2.1 x.2.2) →
    FieldsText (commas ((f :: l).map fun x => nl (n + 2) ++ strText x.1.toList ++ ':' :: ' ' :: x.2.1) ++ nl n)
      ((f :: l).map fun x => (some x.1.toList, x.2.2))
  | f, l, h => by
    have hs := NameText.str (chars_ok f.1.toList)
    have hb : Blank [] := by simp [Blank]
    have hv := h f (by simp)
    cases l with
    | nil =>
      have := FieldsText.one (y := [' ']) (nl_blank (n + 2)) hs hb (by simp [Blank]) hv (nl_blank n)
      simpa [commas, strText] using this
    | cons g l =>
      have := FieldsText.cons (y := [' ']) (nl_blank (n + 2)) hs hb (by simp [Blank]) hv hb
        (layFields n g l fun x hx => h x (by simp only [List.mem_cons] at hx ⊢; tauto))
      simpa [commas, strText] using this
  termination_by f l => l.length

theorem layObj_ok (n : ℕ) (f : String × List Char × JValue) (l : List (String × List Char × JValue)) (h : ∀ x ∈ f :: l, ValueText x.2.1 x.2.2) :
    ValueText (layObj n ((f :: l).map fun x => (x.1, x.2.1))) (.obj ((f :: l).map fun x => (x.1.toList, x.2.2))) := by
  have := ValueText.obj (l := (f :: l).map fun x => (x.1.toList, x.2.2)) (by rw [List.map_map]; exact layFields n f l h)
  unfold layObj
  rw [List.map_map]
  exact this

def laySuffix (n : ℕ) (s : Json.SuffixDiff) : List Char :=
  layObj n [("suffix", byteText s.suffix), ("currentValue", optText s.currentValue), ("newValue", optText s.newValue)]

def layState (n : ℕ) (d : Json.StateDiff) : List Char :=
  layObj n [("stem", strText d.stem), ("suffixDiffs", layArr (n + 2) (d.suffixDiffs.map (laySuffix (n + 4))))]

def layIpa (n : ℕ) (p : Json.IpaProof) : List Char :=
  layObj n [("cl", layArr (n + 2) (p.cl.map strText)), ("cr", layArr (n + 2) (p.cr.map strText)), ("finalEvaluation", strText p.finalEvaluation)]

def layProof (n : ℕ) (p : Json.VerkleProof) : List Char :=
  layObj n [("otherStems", layArr (n + 2) (p.otherStems.map strText)), ("depthExtensionPresent", strText p.depthExtensionPresent),
    ("commitmentsByPath", layArr (n + 2) (p.commitmentsByPath.map strText)), ("d", strText p.d), ("ipaProof", layIpa (n + 2) p.ipaProof)]

def layWitness (n : ℕ) (w : Json.ExecutionWitness) : List Char :=
  layObj n [("stateDiff", layArr (n + 2) (w.stateDiffs.map (layState (n + 4)))), ("verkleProof", layProof (n + 2) w.verkleProof)]

theorem layWitness_ok (n : ℕ) (w : Json.ExecutionWitness) : ValueText (layWitness n w) (Json.writeWitness w) := by
  have h1 : ∀ n s, ValueText (laySuffix n s) (Json.writeSuffixDiff s) := fun n s =>
    layObj_ok n ("suffix", _, _) [("currentValue", _, _), ("newValue", _, _)] (by
      simp only [List.mem_cons, List.not_mem_nil, or_false, forall_eq_or_imp, forall_eq]
      exact ⟨byteText_ok _, optText_ok _, optText_ok _⟩)
  have h2 : ∀ n d, ValueText (layState n d) (Json.writeStateDiff d) := fun n d =>
    layObj_ok n ("stem", _, _) [("suffixDiffs", _, _)] (by
      simp only [List.mem_cons, List.not_mem_nil, or_false, forall_eq_or_imp, forall_eq]
      exact ⟨strText_ok _, layArr_ok (h1 _) _ _⟩)
  have h3 : ∀ n p, ValueText (layIpa n p) (Json.writeIpaProof p) := fun n p =>
    layObj_ok n ("cl", _, _) [("cr", _, _), ("finalEvaluation", _, _)] (by
      simp only [List.mem_cons, List.not_mem_nil, or_false, forall_eq_or_imp, forall_eq]
      exact ⟨layArr_ok strText_ok _ _, layArr_ok strText_ok _ _, strText_ok _⟩)
  have h4 : ∀ n p, ValueText (layProof n p) (Json.writeVerkleProof p) := fun n p =>
    layObj_ok n ("otherStems", _, _) [("depthExtensionPresent", _, _), ("commitmentsByPath", _, _), ("d", _, _), ("ipaProof", _, _)] (by
      simp only [List.mem_cons, List.not_mem_nil, or_false, forall_eq_or_imp, forall_eq]
      exact ⟨layArr_ok strText_ok _ _, strText_ok _, layArr_ok strText_ok _ _, strText_ok _, h3 _ _⟩)
  exact layObj_ok n ("stateDiff", _, _) [("verkleProof", _, _)] (by
    simp only [List.mem_cons, List.not_mem_nil, or_false, forall_eq_or_imp, forall_eq]
    exact ⟨layArr_ok (h2 _) _ _, h4 _ _⟩)

/-- Equality of texts, character by character. -/
def sameText : List Char → List Char → Bool
  | [], [] => true
  | a :: s, b :: t => if a.toNat = b.toNat then sameText s t else false
  | _, _ => false

theorem sameText_eq : ∀ {s t : List Char}, sameText s t = true → s = t
  | [], [], _ => rfl
  | [], _ :: _, h => by simp [sameText] at h
  | _ :: _, [], h => by simp [sameText] at h
  | a :: s, b :: t, h => by
    simp only [sameText] at h
    split at h
    · next e =>
      rw [sameText_eq h, ← Char.ofNat_toNat a, e, Char.ofNat_toNat]
    · cases h

theorem witText_layout : witText = nl 9 ++ layWitness 4 witness ++ nl 4 := sameText_eq (by decide +kernel)

theorem test_serde_works : Json.readText witText = .ok witness :=
  ((C88_text _).1 _).2 ⟨_, ⟨nl 9, _, nl 4, nl_blank 9, layWitness_ok 4 witness, nl_blank 4, witText_layout⟩,
    (C88_reads _ _).1 (read_writeWitness _)⟩

open scoped Classical in
theorem exec_witness_text_works (order : List (ProverQuery (ZMod r) BElem) → List ℕ) :
    verifyWitnessText shaOracle crypto (genPt : BElem) order witRoot witText = .ok true := by
  unfold verifyWitnessText
  rw [test_serde_works]
  simp only [bind, Except.bind]
  exact exec_witness_works order

end Verif.Vectors
