import Verif.Props.JsonWitness
import Verif.Props.Size
import Verif.Props.Ffi

/-!
# C89: the length of execution witnesses in JSON
-/

set_option autoImplicit false
set_option linter.unusedSectionVars false

namespace Verif.Props
open Verif Verif.Spec Verif.Trie Verif.Proof Verif.Ipa Verif.Wire Verif.Ffi Verif.Bander

theorem forall₂_left {α β : Type} {R : α → β → Prop} {l : List α} {r : List β} (h : List.Forall₂ R l r) {a : α} (ha : a ∈ l) :
    ∃ b ∈ r, R a b := by
  induction h with
  | nil => cases ha
  | cons h _ ih =>
    rcases List.mem_cons.1 ha with rfl | ha
    · exact ⟨_, by simp, h⟩
    · obtain ⟨b, hb, h⟩ := ih ha
      exact ⟨b, by simp [hb], h⟩

/-! ### Characters of texts -/

/-- All characters are ASCII, so each takes one byte in UTF-8. -/
def Ascii (t : List Char) : Prop := ∀ c ∈ t, c.toNat < 128

theorem Ascii.nil : Ascii [] := fun _ h => by cases h

theorem Ascii.cons {c : Char} {t : List Char} (hc : c.toNat < 128) (h : Ascii t) : Ascii (c :: t) := by
  intro d hd
  rcases List.mem_cons.1 hd with rfl | hd
  · exact hc
  · exact h d hd

theorem Ascii.append {s t : List Char} (hs : Ascii s) (ht : Ascii t) : Ascii (s ++ t) := by
  intro d hd
  rcases List.mem_append.1 hd with hd | hd
  · exact hs d hd
  · exact ht d hd

theorem lowerHex_ascii : ∀ n < 16, (Json.lowerHex n).toNat < 128 := by decide

theorem charText_ascii {c : Char} (hc : c.toNat < 128) : Ascii (Json.charText c) := by
  have h1 := lowerHex_ascii (c.toNat / 16) (by omega)
  have h2 := lowerHex_ascii (c.toNat % 16) (by omega)
  unfold Json.charText
  intro d hd
  split_ifs at hd <;> simp only [List.mem_cons, List.not_mem_nil, or_false] at hd
  all_goals rcases hd with rfl | rfl | rfl | rfl | rfl | rfl <;> first | assumption | decide

theorem strText_ascii {s : List Char} (h : Ascii s) : Ascii (Json.strText s) := by
  refine .cons (by decide) (.append ?_ (.cons (by decide) .nil))
  intro d hd
  obtain ⟨t, ht, hd⟩ := List.mem_flatten.1 hd
  obtain ⟨c, hc, rfl⟩ := List.mem_map.1 ht
  exact charText_ascii (h c hc) d hd

theorem commas_ascii : ∀ ts : List (List Char), (∀ t ∈ ts, Ascii t) → Ascii (Json.commas ts)
  | [], _ => .nil
  | [t], h => h t (by simp)
  | t :: u :: ts, h => (h t (by simp)).append (.cons (by decide) (commas_ascii (u :: ts) fun x hx => h x (by simp [hx])))

theorem arrText_ascii {ts : List (List Char)} (h : ∀ t ∈ ts, Ascii t) : Ascii (Json.arrText ts) :=
  .cons (by decide) ((commas_ascii ts h).append (.cons (by decide) .nil))

theorem objText_ascii {fs : List (String × List Char)} (h : ∀ f ∈ fs, Ascii f.1.toList ∧ Ascii f.2) : Ascii (Json.objText fs) := by
  refine .cons (by decide) ((commas_ascii _ ?_).append (.cons (by decide) .nil))
  intro t ht
  obtain ⟨f, hf, rfl⟩ := List.mem_map.1 ht
  exact (strText_ascii (h f hf).1).append (.cons (by decide) (h f hf).2)

theorem byteText_ascii (b : Byte) : Ascii (Json.byteText b) := by
  revert b
  unfold Ascii
  decide +kernel

theorem digit_ascii {c : Char} {n : ℕ} (h : IsDigit c n) : c.toNat < 128 := by
  have hn := digit_lt h
  unfold IsDigit at h
  interval_cases n <;> rcases h with h | h <;> cases h <;> decide

theorem Spells.ascii {s : List Char} {bs : List Byte} (h : Spells s bs) : Ascii s := by
  obtain ⟨k, ds, rfl, h⟩ := h
  refine .append ?_ ?_
  · intro c hc
    obtain ⟨t, ht, hc⟩ := List.mem_flatten.1 hc
    rw [List.eq_of_mem_replicate ht] at hc
    simp only [List.mem_cons, List.not_mem_nil, or_false] at hc
    rcases hc with rfl | rfl <;> decide
  · induction h with
    | nil => exact .nil
    | cons ha hb _ _ ih => exact .cons (digit_ascii ha) (.cons (digit_ascii hb) ih)

theorem opt_ascii {o : Option (List Char)} {v : Option Value} (h : OptSpells o v) : Ascii (Json.optText o) := by
  cases o with
  | none => unfold Ascii Json.optText; decide
  | some s =>
    cases v with
    | none => cases h
    | some v => exact strText_ascii (Spells.ascii h)

theorem strs_ascii {β : Type} {R : List Char → β → Prop} (hR : ∀ s b, R s b → Ascii s) {l : List (List Char)} {r : List β} (h : List.Forall₂ R l r) :
    Ascii (Json.arrText (l.map Json.strText)) := by
  refine arrText_ascii fun t ht => ?_
  obtain ⟨s, hs, rfl⟩ := List.mem_map.1 ht
  obtain ⟨b, -, hb⟩ := forall₂_left h hs
  exact strText_ascii (hR s b hb)

section
variable {F G : Type} [Field F] [DecidableEq F] [AddCommGroup G] [DecidableEq G] [Module F G]

/-- **C89** (bytes): the text of a record that states claims consists of ASCII characters, so it has as many bytes as characters. -/
theorem C89_ascii (K : WireCodec F G) {J : Json.ExecutionWitness} {W : Claims F G} (h : States K J W) :
    (∀ c ∈ Json.witnessText J, c.toNat < 128) ∧ ((Json.witnessText J).map Char.utf8Size).sum = (Json.witnessText J).length := by
  have he : ∀ (s : List Char) (e : G), SpellsElem K s e → Ascii s := fun s e ⟨_, _, h, _⟩ => h.ascii
  have hmain : Ascii (Json.witnessText J) := by
    refine objText_ascii fun f hf => ?_
    simp only [List.mem_cons, List.not_mem_nil, or_false] at hf
    rcases hf with rfl | rfl
    · refine ⟨by unfold Ascii; dsimp only; decide, arrText_ascii fun t ht => ?_⟩
      obtain ⟨d, hd, rfl⟩ := List.mem_map.1 ht
      obtain ⟨d', -, hs, hds⟩ := forall₂_left h.diffs hd
      refine objText_ascii fun f hf => ?_
      simp only [List.mem_cons, List.not_mem_nil, or_false] at hf
      rcases hf with rfl | rfl
      · exact ⟨by unfold Ascii; dsimp only; decide, strText_ascii hs.ascii⟩
      · refine ⟨by unfold Ascii; dsimp only; decide, arrText_ascii fun t ht => ?_⟩
        obtain ⟨x, hx, rfl⟩ := List.mem_map.1 ht
        obtain ⟨x', -, -, h1, h2⟩ := forall₂_left hds hx
        refine objText_ascii fun f hf => ?_
        simp only [List.mem_cons, List.not_mem_nil, or_false] at hf
        rcases hf with rfl | rfl | rfl
        · exact ⟨by unfold Ascii; dsimp only; decide, byteText_ascii _⟩
        · exact ⟨by unfold Ascii; dsimp only; decide, opt_ascii h1⟩
        · exact ⟨by unfold Ascii; dsimp only; decide, opt_ascii h2⟩
    · refine ⟨by unfold Ascii; dsimp only; decide, objText_ascii fun f hf => ?_⟩
      simp only [List.mem_cons, List.not_mem_nil, or_false] at hf
      obtain ⟨bs, hbs, -⟩ := h.entries
      obtain ⟨b, -, hb, -⟩ := h.final
      rcases hf with rfl | rfl | rfl | rfl | rfl
      · exact ⟨by unfold Ascii; dsimp only; decide, strs_ascii (fun s b hs => Spells.ascii hs) h.others⟩
      · exact ⟨by unfold Ascii; dsimp only; decide, strText_ascii hbs.ascii⟩
      · exact ⟨by unfold Ascii; dsimp only; decide, strs_ascii he h.comms⟩
      · exact ⟨by unfold Ascii; dsimp only; decide, strText_ascii (he _ _ h.gx)⟩
      · refine ⟨by unfold Ascii; dsimp only; decide, objText_ascii fun f hf => ?_⟩
        simp only [List.mem_cons, List.not_mem_nil, or_false] at hf
        rcases hf with rfl | rfl | rfl
        · exact ⟨by unfold Ascii; dsimp only; decide, strs_ascii he h.cl⟩
        · exact ⟨by unfold Ascii; dsimp only; decide, strs_ascii he h.cr⟩
        · exact ⟨by unfold Ascii; dsimp only; decide, strText_ascii hb.ascii⟩
  refine ⟨hmain, ?_⟩
  generalize Json.witnessText J = t at hmain
  induction t with
  | nil => rfl
  | cons c t ih =>
    have hc : c.utf8Size = 1 := Char.utf8Size_eq_one_iff.2 (by
      have := hmain c (by simp)
      rw [UInt32.le_iff_toNat_le]
      exact Nat.le_of_lt_succ this)
    rw [List.map_cons, List.sum_cons, hc, ih fun d hd => hmain d (by simp [hd]), List.length_cons, Nat.add_comm]

end

/-! ### Lengths of texts -/

theorem commas_length : ∀ ts : List (List Char), (Json.commas ts).length ≤ (ts.map fun t => t.length + 1).sum
  | [] => by simp [Json.commas]
  | [t] => by simp [Json.commas]
  | t :: u :: ts => by
    have := commas_length (u :: ts)
    simp only [Json.commas, List.length_append, List.length_cons, List.map_cons, List.sum_cons] at this ⊢
    omega

theorem strText_length {s : List Char} (h : ∀ c ∈ s, Json.charText c = [c]) : (Json.strText s).length = s.length + 2 := by
  have : (s.map Json.charText).flatten = s := by
    induction s with
    | nil => rfl
    | cons c s ih => rw [List.map_cons, List.flatten_cons, h c (by simp), ih fun d hd => h d (by simp [hd])]; rfl
  simp [Json.strText, this]

theorem digit_plain {c : Char} {n : ℕ} (h : IsDigit c n) : Json.charText c = [c] := by
  have hn := digit_lt h
  unfold IsDigit at h
  interval_cases n <;> rcases h with h | h <;> cases h <;> decide

/-- A spelling with one prefix. -/
theorem short_spelling (bs : List Byte) : ∃ s, Spells s bs ∧ (Json.strText s).length = 2 * bs.length + 4 := by
  suffices h : ∃ s, HexPairs s bs ∧ s.length = 2 * bs.length ∧ ∀ c ∈ s, Json.charText c = [c] by
    obtain ⟨s, h, hl, hc⟩ := h
    refine ⟨['0', 'x'] ++ s, ⟨1, s, rfl, h⟩, ?_⟩
    rw [strText_length]
    · simp [hl]
    · intro c hm
      simp only [List.cons_append, List.nil_append, List.mem_cons] at hm
      rcases hm with rfl | rfl | hm
      · decide
      · decide
      · exact hc c hm
  induction bs with
  | nil => exact ⟨[], .nil, rfl, by simp⟩
  | cons v bs ih =>
    obtain ⟨s, h, hl, hc⟩ := ih
    have := v.isLt
    obtain ⟨a, ha⟩ := exists_digit (v.val / 16) (by omega)
    obtain ⟨b, hb⟩ := exists_digit (v.val % 16) (by omega)
    refine ⟨a :: b :: s, .cons ha hb (by omega) h, by simp [hl]; omega, ?_⟩
    intro c hm
    simp only [List.mem_cons] at hm
    rcases hm with rfl | rfl | hm
    · exact digit_plain ha
    · exact digit_plain hb
    · exact hc c hm

theorem short_list {α β : Type} {R : α → β → Prop} {f : α → List Char} {n : β → ℕ} (h : ∀ b, ∃ a, R a b ∧ (f a).length ≤ n b) (r : List β) :
    ∃ l, List.Forall₂ R l r ∧ (Json.arrText (l.map f)).length ≤ 2 + (r.map fun b => n b + 1).sum := by
  suffices hs : ∃ l, List.Forall₂ R l r ∧ ((l.map f).map fun t => t.length + 1).sum ≤ (r.map fun b => n b + 1).sum by
    obtain ⟨l, h1, h2⟩ := hs
    refine ⟨l, h1, ?_⟩
    have := commas_length (l.map f)
    simp only [Json.arrText, List.length_append, List.length_cons, List.length_nil] at this ⊢
    omega
  induction r with
  | nil => exact ⟨[], .nil, by simp⟩
  | cons b r ih =>
    obtain ⟨a, ha, hn⟩ := h b
    obtain ⟨l, hl, hm⟩ := ih
    refine ⟨a :: l, .cons ha hl, ?_⟩
    simp only [List.map_cons, List.sum_cons] at hm ⊢
    omega

theorem sum_const {β : Type} (r : List β) (n : ℕ) : (r.map fun _ => n + 1).sum = (n + 1) * r.length := by
  simp [Nat.mul_comm]

theorem byteText_length (b : Byte) : (Json.byteText b).length ≤ 3 := by
  unfold Json.byteText
  split_ifs <;> simp

theorem suffixDiffText_length (s : Json.SuffixDiff) : (Json.suffixDiffText s).length =
    39 + (Json.byteText s.suffix).length + (Json.optText s.currentValue).length + (Json.optText s.newValue).length := by
  have h1 : (Json.strText "suffix".toList).length = 8 := by decide
  have h2 : (Json.strText "currentValue".toList).length = 14 := by decide
  have h3 : (Json.strText "newValue".toList).length = 10 := by decide
  simp only [Json.suffixDiffText, Json.objText, List.map_cons, List.map_nil, Json.commas, List.length_cons, List.length_append,
    List.length_nil, h1, h2, h3]
  omega

theorem stateDiffText_length (d : Json.StateDiff) : (Json.stateDiffText d).length =
    24 + (Json.strText d.stem).length + (Json.arrText (d.suffixDiffs.map Json.suffixDiffText)).length := by
  have h1 : (Json.strText "stem".toList).length = 6 := by decide
  have h2 : (Json.strText "suffixDiffs".toList).length = 13 := by decide
  simp only [Json.stateDiffText, Json.objText, List.map_cons, List.map_nil, Json.commas, List.length_cons, List.length_append,
    List.length_nil, h1, h2]
  omega

theorem ipaProofText_length (p : Json.IpaProof) : (Json.ipaProofText p).length =
    32 + (Json.arrText (p.cl.map Json.strText)).length + (Json.arrText (p.cr.map Json.strText)).length +
      (Json.strText p.finalEvaluation).length := by
  have h1 : (Json.strText "cl".toList).length = 4 := by decide
  have h2 : (Json.strText "cr".toList).length = 4 := by decide
  have h3 : (Json.strText "finalEvaluation".toList).length = 17 := by decide
  simp only [Json.ipaProofText, Json.objText, List.map_cons, List.map_nil, Json.commas, List.length_cons, List.length_append,
    List.length_nil, h1, h2, h3]
  omega

theorem verkleProofText_length (p : Json.VerkleProof) : (Json.verkleProofText p).length =
    78 + (Json.arrText (p.otherStems.map Json.strText)).length + (Json.strText p.depthExtensionPresent).length +
      (Json.arrText (p.commitmentsByPath.map Json.strText)).length + (Json.strText p.d).length + (Json.ipaProofText p.ipaProof).length := by
  have h1 : (Json.strText "otherStems".toList).length = 12 := by decide
  have h2 : (Json.strText "depthExtensionPresent".toList).length = 23 := by decide
  have h3 : (Json.strText "commitmentsByPath".toList).length = 19 := by decide
  have h4 : (Json.strText "d".toList).length = 3 := by decide
  have h5 : (Json.strText "ipaProof".toList).length = 10 := by decide
  simp only [Json.verkleProofText, Json.objText, List.map_cons, List.map_nil, Json.commas, List.length_cons, List.length_append,
    List.length_nil, h1, h2, h3, h4, h5]
  omega

theorem witnessText_length (w : Json.ExecutionWitness) : (Json.witnessText w).length =
    29 + (Json.arrText (w.stateDiffs.map Json.stateDiffText)).length + (Json.verkleProofText w.verkleProof).length := by
  have h1 : (Json.strText "stateDiff".toList).length = 11 := by decide
  have h2 : (Json.strText "verkleProof".toList).length = 13 := by decide
  simp only [Json.witnessText, Json.objText, List.map_cons, List.map_nil, Json.commas, List.length_cons, List.length_append,
    List.length_nil, h1, h2]
  omega

section
variable {F G : Type} [Field F] [DecidableEq F] [AddCommGroup G] [DecidableEq G] [Module F G]

/-- **C89** (any claims): claims with depths below 32 are stated by a record whose text has at most 93 characters for each stem, 179 for each
key, 67 for each foreign stem, 2 for each entry, 69 for each point and 289 more. -/
theorem C89_claims (K : WireCodec F G) (W : Claims F G) (hd : ∀ t ∈ W.entries, t.1.val < 32) :
    ∃ J, States K J W ∧ (Json.witnessText J).length ≤ 289 + 93 * W.diffs.length + 179 * W.keys.length + 67 * W.others.length +
      2 * W.entries.length + 69 * W.comms.length + 69 * W.proof.openProof.L.length + 69 * W.proof.openProof.R.length := by
  have hopt : ∀ v : Option Value, ∃ s, OptSpells s v ∧ (Json.optText s).length ≤ 68 := by
    rintro (_ | v)
    · exact ⟨none, trivial, by simp [Json.optText]⟩
    · obtain ⟨s, h, hl⟩ := short_spelling v.1
      exact ⟨some s, h, by simp only [Json.optText, hl]; have := v.2; omega⟩
  have helem : ∀ e : G, ∃ s, SpellsElem K s e ∧ (Json.strText s).length ≤ 68 := by
    intro e
    obtain ⟨s, h, hl⟩ := short_spelling (K.encE e)
    exact ⟨s, ⟨_, K.encE_len e, h, K.dec_encE e⟩, by rw [hl, K.encE_len]⟩
  obtain ⟨j1, h1, l1⟩ := short_list (f := Json.stateDiffText) (n := fun d => 92 + 179 * d.2.length)
    (R := fun (j : Json.StateDiff) (d : Stem × List (Byte × Option Value × Option Value)) => Spells j.stem d.1.1 ∧
    List.Forall₂ (fun (s : Json.SuffixDiff) (t : Byte × Option Value × Option Value) =>
      s.suffix = t.1 ∧ OptSpells s.currentValue t.2.1 ∧ OptSpells s.newValue t.2.2) j.suffixDiffs d.2) (by
    intro d
    obtain ⟨s, hs, hsl⟩ := short_spelling d.1.1
    obtain ⟨l, hl, hll⟩ := short_list (f := Json.suffixDiffText) (n := fun _ => 178)
      (R := fun (s : Json.SuffixDiff) (t : Byte × Option Value × Option Value) =>
      s.suffix = t.1 ∧ OptSpells s.currentValue t.2.1 ∧ OptSpells s.newValue t.2.2) (by
      intro t
      obtain ⟨c, hc, hcl⟩ := hopt t.2.1
      obtain ⟨n, hn, hnl⟩ := hopt t.2.2
      refine ⟨⟨t.1, c, n⟩, ⟨rfl, hc, hn⟩, ?_⟩
      rw [suffixDiffText_length]
      have := byteText_length t.1
      simp only
      omega) d.2
    refine ⟨⟨s, l⟩, ⟨hs, hl⟩, ?_⟩
    rw [stateDiffText_length]
    rw [sum_const] at hll
    have := d.1.2
    simp only
    omega) W.diffs
  obtain ⟨j2, h2, l2⟩ := short_list (f := Json.strText) (n := fun _ => 66) (R := fun s (st : Stem) => Spells s st.1) (fun st => by
    obtain ⟨s, h, hl⟩ := short_spelling st.1
    exact ⟨s, h, by have := st.2; omega⟩) W.others
  have h3 : ∃ bs : List Byte, List.Forall₂ (fun (b : Byte) (t : Byte × ExtPresent) => b.val / 8 = t.1.val ∧ b.val % 4 = extNumber t.2) bs W.entries := by
    obtain ⟨_, hJ⟩ := C51_expressible K W hd
    obtain ⟨bs, -, h⟩ := hJ.entries
    exact ⟨bs, h⟩
  obtain ⟨bs, h3⟩ := h3
  obtain ⟨j3, h3', l3⟩ := short_spelling bs
  obtain ⟨j4, h4, l4⟩ := short_list (f := Json.strText) (n := fun _ => 68) helem W.comms
  obtain ⟨j5, h5, l5⟩ := helem W.proof.gx
  obtain ⟨j6, h6, l6⟩ := short_list (f := Json.strText) (n := fun _ => 68) helem W.proof.openProof.L
  obtain ⟨j7, h7, l7⟩ := short_list (f := Json.strText) (n := fun _ => 68) helem W.proof.openProof.R
  obtain ⟨j8, h8, l8⟩ := short_spelling (K.encS W.proof.openProof.a).reverse
  refine ⟨⟨j1, ⟨j2, j3, j4, j5, ⟨j6, j7, j8⟩⟩⟩, ⟨h1, h2, ⟨bs, h3', h3⟩, h4, h5, h6, h7, _, by rw [List.length_reverse, K.encS_len], h8,
    by rw [List.reverse_reverse, K.dec_encS]⟩, ?_⟩
  have hk : (W.diffs.map fun d => 92 + 179 * d.2.length + 1).sum = 93 * W.diffs.length + 179 * W.keys.length := by
    simp only [Claims.keys]
    generalize W.diffs = ds
    induction ds with
    | nil => rfl
    | cons d ds ih =>
      simp only [List.map_cons, List.sum_cons, List.flatMap_cons, List.length_append, List.length_map, List.length_cons, ih]
      omega
  rw [hk] at l1
  rw [sum_const] at l2 l4 l6 l7
  rw [List.length_reverse, K.encS_len] at l8
  have := h3.length_eq
  rw [witnessText_length, verkleProofText_length, ipaProofText_length]
  simp only
  omega

variable (O : Oracle F G)

/-- **C89** (honest provers): for a proof from the trie's own prover there is a text of at most 1393 characters and 2488 for each key that
`verify_execution_witness` accepts, however large the trie is. -/
theorem C89_honest (C : Crypto F G) (Q : G) {order : List (ProverQuery F G) → List ℕ}
    (ho : ∀ qs, IsOrder qs (order qs)) (hF : Distinct F 256) (l : List (Key × Value)) {db : MemoryDb F G}
    (hb : build C l = .ok db) {keys : List Key} (hk : keys ≠ []) {rt : G} (hr : Trie.rootCommitment db = .ok rt)
    {p : VerkleProof G (MultiProof F G)} (hp : createVerkleProof (multiOpener O C Q order) db keys = .ok (.ok p))
    (htt : ∀ qs hint, createProverQueries db keys = .ok (qs, hint) → ∀ i : ℕ, i < 256 →
      challengeT O (lbl "vt") (qs.map ProverQuery.toVerifier) p.proof.gx ≠ (i : F))
    (hsep : Separated C (lastWrite l) (· ∈ keys)) :
    ∃ (W : Claims F G) (J : Json.ExecutionWitness) (root : List Char), W.toProof = p ∧ W.keys = keys ∧ W.current = keys.map (Trie.get db) ∧
      States O.K J W ∧ SpellsElem O.K root rt ∧ verifyWitnessText O C Q order root (Json.witnessText J) = .ok true ∧
      (Json.witnessText J).length ≤ 1393 + 2488 * keys.length := by
  obtain ⟨W, h1, h2, h3, h4⟩ := honest_claims C _ _ l hb hp
  have h8 : Nat.clog 2 256 = 8 := by decide +kernel
  have hO : ∀ qs p, (multiOpener O C Q order).openAll qs = .ok p → p.openProof.L.length = 8 ∧ p.openProof.R.length = 8 := by
    intro qs p h
    simp only [multiOpener, bind, Except.bind] at h
    split at h
    · cases h
    split at h
    · cases h
    · next r hr =>
      cases h
      have hg : (crsOf C Q).gens.length = 256 := by simp [crsOf]
      have := openMulti_length O (π := r.1) (t' := r.2) hr
      rwa [hg, h8] at this
  obtain ⟨bs, -, e1, e2, -, -, e3⟩ := C72_proof_size C O.K _ (multiOpener O C Q order).check hO l hb hp
  -- the same claims, with one entry for each key and no stem twice
  let W' : Claims F G := ⟨keys.map fun k => (k.stem, [(k.suffix, Trie.get db k, none)]), p.hint.diffStemNoProof, W.entries, W.comms, W.proof⟩
  have hW1 : W'.toProof = p := by
    rw [← h1]
    simp only [Claims.toProof, W', ← h1]
    rw [Ascending.ext (BSet.asc_ofList (BSet.ofList W.others)) (BSet.asc_ofList W.others) fun x => BSet.mem_ofList x _]
  have hW2 : W'.keys = keys := by
    simp only [W', Claims.keys, List.flatMap_map, List.map_cons, List.map_nil, mkKey_stem_suffix]
    exact List.flatMap_singleton' keys
  have hW3 : W'.current = keys.map (Trie.get db) := by
    simp only [W', Claims.current, List.flatMap_map, List.map_cons, List.map_nil]
    exact List.flatMap_pure_eq_map _ keys
  obtain ⟨J, hJ, hlen⟩ := C89_claims O.K W' h4
  obtain ⟨s, hs⟩ := exists_spelling (O.K.encE rt)
  have hroot : SpellsElem O.K s rt := ⟨_, O.K.encE_len rt, hs, O.K.dec_encE rt⟩
  refine ⟨W', J, s, hW1, hW2, hW3, hJ, hroot, ?_, ?_⟩
  · simp only [verifyWitnessText, (C88_roundtrip J).1, bind, Except.bind]
    exact C51_honest O C Q ho hF l hb hk hr hp htt hsep hW1 hW2 hW3 hJ hroot
  · obtain ⟨qs, hq, hpf⟩ : ∃ qs, createProverQueries db keys = .ok (qs, p.hint) ∧ (multiOpener O C Q order).openAll qs = .ok p.proof := by
      simp only [createVerkleProof, if_neg hk, bind, Except.bind] at hp
      split at hp
      · cases hp
      next qh hqh =>
      split at hp
      · simp at hp
      split at hp
      · cases hp
      next pf hpf =>
        have hp' := Except.ok.inj (Except.ok.inj hp)
        rw [← hp']
        exact ⟨_, hqh, hpf⟩
    obtain ⟨f1, -⟩ := C72_query_count C l hb hq
    obtain ⟨g1, g2⟩ := hO _ _ hpf
    have f2 : W.entries.length = p.hint.depths.length := by rw [← h1]; simp [Claims.toProof]
    have f3 : W.comms = p.comms := by rw [← h1]; rfl
    have f4 : W.proof = p.proof := by rw [← h1]; rfl
    have f5 : keys.toFinset.card ≤ keys.length := List.toFinset_card_le keys
    have f6 : W'.diffs.length = keys.length := by simp [W']
    rw [hW2, f6] at hlen
    simp only [W', f2, f3, f4, f1, g1, g2] at hlen
    omega

/-- **C89** (no upper bound): whoever passes on an accepted text can make it as long as they want, and it is still accepted. -/
theorem C89_padding (C : Crypto F G) (Q : G) (order : List (ProverQuery F G) → List ℕ) {root text : List Char}
    (h : verifyWitnessText O C Q order root text = .ok true) (n : ℕ) :
    ∃ text', text'.length = n + text.length ∧ verifyWitnessText O C Q order root text' = .ok true := by
  unfold verifyWitnessText at h ⊢
  cases hx : Json.readText text with
  | error e => simp [hx, bind, Except.bind] at h
  | ok x =>
    refine ⟨List.replicate n ' ' ++ text ++ [], by simp, ?_⟩
    rw [C88_whitespace (fun c hc => by simp [List.eq_of_mem_replicate hc]) (fun c hc => by cases hc) x hx]
    rwa [hx] at h

end

/-- Seven keys of all four kinds: a text of at most 18809 characters. -/
example : ∃ (db : MemoryDb (ZMod 521) (ZMod 521)) (rt : ZMod 521) (root text : List Char),
    build wide proofHist = .ok db ∧ Trie.rootCommitment db = .ok rt ∧ SpellsElem wideOracle.K root rt ∧
    verifyWitnessText wideOracle wide 3 anyOrder root text = .ok true ∧ text.length ≤ 1393 + 2488 * proofKeys.length := by
  have hb := build_eq wide proofHist
  have hr := root_of_build (C := wide) (m := lastWrite proofHist)
  have hk : proofKeys ≠ [] := by simp [proofKeys]
  obtain ⟨p, hp⟩ := C18_real_opener wideOracle wide 3 anyOrder_isOrder wide_distinct
    (fun s => by simpa using wideOracle_avoids s 0 (by norm_num)) proofHist hb hk
  obtain ⟨W, J, root, -, -, -, -, h5, h6, h7⟩ := C89_honest wideOracle wide 3 anyOrder_isOrder wide_distinct proofHist hb hk hr hp
    (fun qs hint _ i hi => by unfold challengeT challenge; exact wideOracle_avoids _ i hi) wide_separated
  exact ⟨_, _, root, _, hb, hr, h5, h6, h7⟩

/-- Claims with a foreign stem, an entry and points, for `C89_claims`. -/
example : ∃ J, States wideOracle.K J ⟨[(⟨List.replicate 31 0, rfl⟩, [(1, none, none), (2, none, none)])], [⟨List.replicate 31 1, rfl⟩],
    [(31, .differentStem)], [5], ⟨⟨[1], [2], 3⟩, 4⟩⟩ ∧ (Json.witnessText J).length ≤ 289 + 93 + 358 + 67 + 2 + 69 + 69 + 69 :=
  C89_claims wideOracle.K _ (by simp)

end Verif.Props
