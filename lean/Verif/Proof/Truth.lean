import Verif.Proof.Adversary

/-!
# Accepted claims are true, under explicit conditions on the hint
-/

set_option autoImplicit false

namespace Verif.Proof
open Verif.Spec Verif.Trie BOrd
open scoped Classical

variable {F G : Type} [Field F] [AddCommGroup G] [Module F G]

/-- The entry of the hint for a stem: entries are matched with the requested stems in ascending order. -/
def HintEntry (hint : VerificationHint) (keys : List Key) (s : Stem) (e : ExtPresent) (d : ℕ) : Prop :=
  ∃ b : Byte, b.val = d ∧ ((s, b), e) ∈ ((stemsOf keys).zip hint.depths).zip hint.extensionPresent

/-- Consistency of a hint, which the verifier does not check: claimed paths do not contain one another; claims at the same
path agree on whether the path is empty, and on the stem if both claim one; a stem claimed to be displaced is not itself
listed as displacing. -/
structure HintConsistent (hint : VerificationHint) (keys : List Key) : Prop where
  anti : ∀ s t e f c d, HintEntry hint keys s e c → HintEntry hint keys t f d → s.1.take c <+: t.1.take d →
    s.1.take c = t.1.take d
  kind : ∀ s t e f c d, HintEntry hint keys s e c → HintEntry hint keys t f d → s.1.take c = t.1.take d →
    (e = .none ↔ f = .none) ∧ (e = .present → f = .present → s = t)
  diff : ∀ s d, HintEntry hint keys s .differentStem d → s ∉ hint.diffStemNoProof

/-- The entries of two stems are compatible: their paths do not contain one another; if the paths are the same, they agree on
whether the path is empty, and on the stem if both claim one. -/
structure PairOk (hint : VerificationHint) (keys : List Key) (s t : Stem) : Prop where
  anti : ∀ e f c d, HintEntry hint keys s e c → HintEntry hint keys t f d →
    s.1.take c <+: t.1.take d ∨ t.1.take d <+: s.1.take c → s.1.take c = t.1.take d
  kind : ∀ e f c d, HintEntry hint keys s e c → HintEntry hint keys t f d → s.1.take c = t.1.take d →
    (e = .none ↔ f = .none) ∧ (e = .present → f = .present → s = t)

theorem PairOk.symm {hint : VerificationHint} {keys : List Key} {s t : Stem} (h : PairOk hint keys s t) : PairOk hint keys t s :=
  ⟨fun e f c d h1 h2 h3 => (h.anti f e d c h2 h1 h3.symm).symm, fun e f c d h1 h2 h3 => by
    have := h.kind f e d c h2 h1 h3.symm
    exact ⟨this.1.symm, fun a b => (this.2 b a).symm⟩⟩

/-- Consistency of a hint at one stem: its entry is compatible with all others, whatever these do to each other; if it is
claimed to be displaced it is not itself listed as displacing. -/
structure ConsistentAt (hint : VerificationHint) (keys : List Key) (s : Stem) : Prop where
  pair : ∀ t, PairOk hint keys s t
  diff : ∀ d, HintEntry hint keys s .differentStem d → s ∉ hint.diffStemNoProof

/-- A hint is consistent if it is consistent at every stem. -/
theorem HintConsistent.consistentAt {hint : VerificationHint} {keys : List Key} (hc : HintConsistent hint keys) (s : Stem) :
    ConsistentAt hint keys s :=
  ⟨fun t => ⟨fun e f c d h1 h2 h3 => h3.elim (hc.anti _ _ _ _ _ _ h1 h2) fun h => (hc.anti _ _ _ _ _ _ h2 h1 h).symm,
    fun e f c d => hc.kind s t e f c d⟩, hc.diff s⟩

/-- A claim stands on its own: its key is claimed with one value only, and the entry of its stem is compatible with all others. -/
def Undisputed (hint : VerificationHint) (keys : List Key) (values : List (Option Value)) (k : Key) (v : Option Value) : Prop :=
  (∀ v', (k, v') ∈ keys.zip values → v' = v) ∧ ConsistentAt hint keys k.stem

theorem isClaim_entry {hint : VerificationHint} {keys : List Key} {kvs : List (Key × Option Value)} {k : Key}
    {v : Option Value} {e : ExtPresent} {d : ℕ} (h : IsClaim (hintByStem hint (stemsOf keys)) kvs k v e d) :
    HintEntry hint keys k.stem e d := by
  obtain ⟨_, b, hb, hg⟩ := h
  exact ⟨b, hb, get_hintByStem.1 hg⟩

theorem entry_get {hint : VerificationHint} {keys : List Key} {s : Stem} {e : ExtPresent} {d : ℕ}
    (h : HintEntry hint keys s e d) : ∃ b : Byte, b.val = d ∧ BMap.get s (hintByStem hint (stemsOf keys)) = some (e, b) := by
  obtain ⟨b, hb, hg⟩ := h
  exact ⟨b, hb, get_hintByStem.2 hg⟩

theorem entry_unique {hint : VerificationHint} {keys : List Key} {s : Stem} {e f : ExtPresent} {c d : ℕ}
    (h : HintEntry hint keys s e c) (h' : HintEntry hint keys s f d) : e = f ∧ c = d := by
  obtain ⟨b, rfl, h1⟩ := entry_get h
  obtain ⟨b', rfl, h2⟩ := entry_get h'
  rw [h1] at h2
  simp only [Option.some.injEq, Prod.mk.injEq] at h2
  exact ⟨h2.1, by rw [h2.2]⟩

theorem halfIdx_val (b : Byte) : (halfIdx b).val = 2 ∨ (halfIdx b).val = 3 := by
  unfold halfIdx
  split
  · exact Or.inl rfl
  · exact Or.inr rfl

theorem halfIdx_ne (b : Byte) : halfIdx b ≠ 0 ∧ halfIdx b ≠ 1 := by
  have h0 : (0 : Byte).val = 0 := rfl
  have h1 : (1 : Byte).val = 1 := rfl
  constructor <;> intro h <;> have := halfIdx_val b <;> rw [h] at this <;> omega

theorem suffix_of_idx {a b : Byte} (h1 : halfIdx a = halfIdx b) (h2 : lowIdx a = lowIdx b ∨ highIdx a = highIdx b) : a = b := by
  have e : a.val % 128 = b.val % 128 := by
    rcases h2 with h | h
    · have := congrArg Fin.val h
      rw [lowIdx_val, lowIdx_val] at this; omega
    · have := congrArg Fin.val h
      rw [highIdx_val, highIdx_val] at this; omega
  have ha := a.2
  have hb := b.2
  unfold halfIdx at h1
  apply Fin.ext
  by_cases h3 : a.val < 128 <;> by_cases h4 : b.val < 128
  · omega
  · rw [if_pos h3, if_neg h4] at h1; exact absurd h1 (by decide)
  · rw [if_neg h3, if_pos h4] at h1; exact absurd h1 (by decide)
  · omega

theorem low_ne_high (a b : Byte) : lowIdx a ≠ highIdx b := by
  intro h
  have := congrArg Fin.val h
  rw [lowIdx_val, highIdx_val] at this
  omega

section
variable {hint : VerificationHint} {keys : List Key} {values : List (Option Value)}

/-- No claimed path lies directly above another. -/
theorem no_child {s t : Stem} (hp : PairOk hint keys s t) {e f : ExtPresent} {c d : ℕ} (h1 : HintEntry hint keys s e c) (h2 : HintEntry hint keys t f d)
    {i : Byte} : s.1.take c ++ [i] ≠ t.1.take d := by
  intro h
  have := hp.anti _ _ _ _ h1 h2 (Or.inl (h ▸ List.prefix_append _ _))
  rw [← this] at h
  have := congrArg List.length h
  simp at this

theorem take_len {s : Stem} {d : ℕ} (hd : d ≤ 31) : (s.1.take d).length = d := by
  rw [List.length_take, s.2]; omega

/-- Where a claim writes. -/
theorem writes_cases {swe : List Stem} {k : Key} {v : Option Value} {e : ExtPresent} {d : ℕ} {x : Path × Byte} {y : F}
    (h : (x, y) ∈ claimWrites F hint swe k v e d) :
    (e ≠ .none ∧ x = (k.stem.1.take d, 0) ∧ y = 1) ∨
    (e = .present ∧ x = (k.stem.1.take d, 1) ∧ y = frLe F k.stem.1) ∨
    (e = .present ∧ x = (k.stem.1.take d ++ [halfIdx k.suffix], lowIdx k.suffix) ∧ y = (valueHalves F v).1) ∨
    (e = .present ∧ x = (k.stem.1.take d ++ [halfIdx k.suffix], highIdx k.suffix) ∧ y = (valueHalves F v).2) ∨
    (e = .differentStem ∧ x = (k.stem.1.take d, 1) ∧ withPrefix swe (k.stem.1.take d) d = [] ∧
      ∃ enc, (withPrefix hint.diffStemNoProof (k.stem.1.take d) d).getLast? = some enc ∧ y = frLe F enc.1) ∨
    (e = .none ∧ x = (if d = 1 then [] else k.stem.1.take d, k.stem.1.getD (d - 1) 0) ∧ y = 0) := by
  cases e with
  | present =>
    simp only [claimWrites, List.mem_cons, Prod.mk.injEq, List.not_mem_nil, or_false] at h
    rcases h with ⟨h1, h2⟩ | ⟨h1, h2⟩ | ⟨h1, h2⟩ | ⟨h1, h2⟩
    · exact Or.inl ⟨by simp, h1, h2⟩
    · exact Or.inr (Or.inl ⟨rfl, h1, h2⟩)
    · exact Or.inr (Or.inr (Or.inl ⟨rfl, h1, h2⟩))
    · exact Or.inr (Or.inr (Or.inr (Or.inl ⟨rfl, h1, h2⟩)))
  | differentStem =>
    simp only [claimWrites, List.mem_cons, Prod.mk.injEq] at h
    rcases h with ⟨h1, h2⟩ | h
    · exact Or.inl ⟨by simp, h1, h2⟩
    · refine Or.inr (Or.inr (Or.inr (Or.inr (Or.inl ?_))))
      by_cases hw : withPrefix swe (k.stem.1.take d) d = []
      · rw [if_pos hw] at h
        cases hl : (withPrefix hint.diffStemNoProof (k.stem.1.take d) d).getLast? with
        | none => rw [hl] at h; simp at h
        | some enc =>
          rw [hl] at h
          simp only [List.mem_singleton, Prod.mk.injEq] at h
          exact ⟨rfl, h.1, hw, enc, rfl, h.2⟩
      · rw [if_neg hw] at h; simp at h
  | none =>
    simp only [claimWrites, List.mem_singleton, Prod.mk.injEq] at h
    exact Or.inr (Or.inr (Or.inr (Or.inr (Or.inr ⟨rfl, h.1, h.2⟩))))

/-- The path of the write of an emptiness claim is no path of a stem claim. -/
theorem none_path {k k' : Key} (hpk : PairOk hint keys k.stem k'.stem) {e : ExtPresent} {d d' : ℕ} (h1 : HintEntry hint keys k.stem .none d) (hd : 1 ≤ d) (hd' : d ≤ 31)
    (h2 : HintEntry hint keys k'.stem e d') (he : e ≠ .none) {q : Path} (hq : q = k'.stem.1.take d' ∨ ∃ i, q = k'.stem.1.take d' ++ [i]) :
    (if d = 1 then [] else k.stem.1.take d) ≠ q := by
  intro h
  by_cases h1' : d = 1
  · rw [if_pos h1'] at h
    rcases hq with hq | ⟨i, hq⟩
    · have hp : k'.stem.1.take d' <+: k.stem.1.take d := by rw [← hq, ← h]; exact List.nil_prefix
      have := (hpk.anti _ _ _ _ h1 h2 (Or.inr hp)).symm
      rw [← hq, ← h] at this
      have := congrArg List.length this
      rw [List.length_nil, List.length_take, k.stem.2] at this
      omega
    · rw [hq] at h; simp at h
  · rw [if_neg h1'] at h
    rcases hq with hq | ⟨i, hq⟩
    · exact he ((hpk.kind _ _ _ _ h1 h2 (h.trans hq)).1.1 rfl)
    · exact no_child hpk.symm h2 h1 (hq.symm.trans h.symm)

/-- Different claims never write different values to the same place. -/
theorem writes_consistent {kvs : List (Key × Option Value)} {swe : List Stem}
    (hswe : ∀ s, s ∈ swe ↔ ∃ d, HintEntry hint keys s .present d)
    {k k' : Key} {v v' : Option Value} (hp : PairOk hint keys k.stem k'.stem) (hfun : ∀ v', (k, v') ∈ kvs → v' = v) {e e' : ExtPresent} {d d' : ℕ} {x : Path × Byte} {y y' : F}
    (h1 : IsClaim (hintByStem hint (stemsOf keys)) kvs k v e d) (o1 : ClaimOk hint swe k v e d)
    (h2 : IsClaim (hintByStem hint (stemsOf keys)) kvs k' v' e' d') (o2 : ClaimOk hint swe k' v' e' d')
    (w1 : (x, y) ∈ claimWrites F hint swe k v e d) (w2 : (x, y') ∈ claimWrites F hint swe k' v' e' d') : y = y' := by
  have e1 := isClaim_entry h1
  have e2 := isClaim_entry h2
  have hz : (0 : Byte) ≠ 1 := by decide
  have swepre : ∀ {s : Key} {c : ℕ} {p : Path}, HintEntry hint keys s.stem .present c → s.stem.1.take c = p →
      c ≤ 31 → p.length = c → withPrefix swe p c ≠ [] := by
    intro s c p hs hp _ _ hn
    have : s.stem ∈ withPrefix swe p c := by
      unfold withPrefix
      rw [List.mem_filter]
      exact ⟨(hswe _).2 ⟨_, hs⟩, by simpa using hp⟩
    rw [hn] at this; simp at this
  have depthEq : k.stem.1.take d = k'.stem.1.take d' → d = d' := by
    intro h
    have := congrArg List.length h
    rwa [take_len o1.depth, take_len o2.depth] at this
  rcases writes_cases w1 with ⟨a1, a2, a3⟩ | ⟨a1, a2, a3⟩ | ⟨a1, a2, a3⟩ | ⟨a1, a2, a3⟩ | ⟨a1, a2, a3, enc, a4, a5⟩ | ⟨a1, a2, a3⟩ <;>
    rcases writes_cases w2 with ⟨b1, b2, b3⟩ | ⟨b1, b2, b3⟩ | ⟨b1, b2, b3⟩ | ⟨b1, b2, b3⟩ | ⟨b1, b2, b3, enc', b4, b5⟩ | ⟨b1, b2, b3⟩ <;>
    (have hx := a2.symm.trans b2; simp only [Prod.mk.injEq] at hx; obtain ⟨hx1, hx2⟩ := hx)
  -- marker
  · rw [a3, b3]
  · exact absurd hx2 hz
  · exact absurd hx1.symm (no_child hp.symm e2 e1)
  · exact absurd hx1.symm (no_child hp.symm e2 e1)
  · exact absurd hx2 hz
  · subst b1; exact absurd hx1.symm (none_path hp.symm e2 (o2.pos rfl) o2.depth e1 a1 (Or.inl rfl))
  -- own stem
  · exact absurd hx2.symm hz
  · rw [a3, b3, (hp.kind _ _ _ _ e1 e2 hx1).2 a1 b1]
  · exact absurd hx1.symm (no_child hp.symm e2 e1)
  · exact absurd hx1.symm (no_child hp.symm e2 e1)
  · subst a1
    have := depthEq hx1
    subst this
    exact absurd b3 (swepre e1 hx1 o1.depth (by rw [← hx1]; exact take_len o1.depth))
  · subst b1; exact absurd hx1.symm (none_path hp.symm e2 (o2.pos rfl) o2.depth e1 (by rw [a1]; simp) (Or.inl rfl))
  -- low
  · exact absurd hx1 (no_child hp e1 e2)
  · exact absurd hx1 (no_child hp e1 e2)
  · have hl := List.append_inj' hx1 rfl
    have hs := (hp.kind _ _ _ _ e1 e2 hl.1).2 a1 b1
    have hh : halfIdx k.suffix = halfIdx k'.suffix := by simpa using hl.2
    have hk : k = k' := by rw [← mkKey_stem_suffix k, ← mkKey_stem_suffix k', hs, suffix_of_idx hh (Or.inl hx2)]
    subst hk
    rw [a3, b3, hfun _ h2.1]
  · exact absurd hx2 (low_ne_high _ _)
  · exact absurd hx1 (no_child hp e1 e2)
  · subst b1; exact absurd hx1.symm (none_path hp.symm e2 (o2.pos rfl) o2.depth e1 (by rw [a1]; simp) (Or.inr ⟨_, rfl⟩))
  -- high
  · exact absurd hx1 (no_child hp e1 e2)
  · exact absurd hx1 (no_child hp e1 e2)
  · exact absurd hx2.symm (low_ne_high _ _)
  · have hl := List.append_inj' hx1 rfl
    have hs := (hp.kind _ _ _ _ e1 e2 hl.1).2 a1 b1
    have hh : halfIdx k.suffix = halfIdx k'.suffix := by simpa using hl.2
    have hk : k = k' := by rw [← mkKey_stem_suffix k, ← mkKey_stem_suffix k', hs, suffix_of_idx hh (Or.inr hx2)]
    subst hk
    rw [a3, b3, hfun _ h2.1]
  · exact absurd hx1 (no_child hp e1 e2)
  · subst b1; exact absurd hx1.symm (none_path hp.symm e2 (o2.pos rfl) o2.depth e1 (by rw [a1]; simp) (Or.inr ⟨_, rfl⟩))
  -- displaced
  · exact absurd hx2.symm hz
  · subst b1
    have := depthEq hx1
    subst this
    exact absurd a3 (swepre e2 hx1.symm o1.depth (take_len o1.depth))
  · exact absurd hx1.symm (no_child hp.symm e2 e1)
  · exact absurd hx1.symm (no_child hp.symm e2 e1)
  · have := depthEq hx1
    subst this
    rw [hx1, b4] at a4
    have : enc' = enc := by simpa using a4
    rw [a5, b5, this]
  · subst b1; exact absurd hx1.symm (none_path hp.symm e2 (o2.pos rfl) o2.depth e1 (by rw [a1]; simp) (Or.inl rfl))
  -- empty
  · subst a1; exact absurd hx1 (none_path hp e1 (o1.pos rfl) o1.depth e2 b1 (Or.inl rfl))
  · subst a1; exact absurd hx1 (none_path hp e1 (o1.pos rfl) o1.depth e2 (by rw [b1]; simp) (Or.inl rfl))
  · subst a1; exact absurd hx1 (none_path hp e1 (o1.pos rfl) o1.depth e2 (by rw [b1]; simp) (Or.inr ⟨_, rfl⟩))
  · subst a1; exact absurd hx1 (none_path hp e1 (o1.pos rfl) o1.depth e2 (by rw [b1]; simp) (Or.inr ⟨_, rfl⟩))
  · subst a1; exact absurd hx1 (none_path hp e1 (o1.pos rfl) o1.depth e2 (by rw [b1]; simp) (Or.inl rfl))
  · rw [a3, b3]

variable {C : Crypto F G} {comms : BMap Path G} {st : VState F}

/-- The claims of a request are decided by the hint and cover all keys. -/
structure Run (hint : VerificationHint) (keys : List Key) (kvs : List (Key × Option Value)) (st : VState F) : Prop where
  inv : SInv hint (hintByStem hint (stemsOf keys)) (stemsWithExtension hint (stemsOf keys)) kvs st
  covers : ∀ k ∈ keys, ∃ v, (k, v) ∈ kvs
  within : ∀ k v, (k, v) ∈ kvs → k ∈ keys

theorem swe_iff {s : Stem} : s ∈ stemsWithExtension hint (stemsOf keys) ↔ ∃ d, HintEntry hint keys s .present d := by
  rw [mem_stemsWithExtension]
  constructor
  · rintro ⟨b, h⟩; exact ⟨b.val, b, rfl, get_hintByStem.1 h⟩
  · rintro ⟨d, h⟩
    obtain ⟨b, _, hb⟩ := entry_get h
    exact ⟨b, hb⟩

theorem Run.claimOk {kvs : List (Key × Option Value)} (hR : Run hint keys kvs st) {k : Key} {v : Option Value} {e : ExtPresent}
    {d : ℕ} (h : IsClaim (hintByStem hint (stemsOf keys)) kvs k v e d) :
    ClaimOk hint (stemsWithExtension hint (stemsOf keys)) k v e d := by
  obtain ⟨e', d', h', ho⟩ := hR.inv.ok k v h.1
  obtain ⟨rfl, rfl⟩ := entry_unique (isClaim_entry h) (isClaim_entry h')
  exact ho

/-- A value fixed by a claim is the one recorded. -/
theorem Run.leaf_eq {kvs : List (Key × Option Value)} (hR : Run hint keys kvs st) {k : Key} (hc : ConsistentAt hint keys k.stem)
    {v : Option Value} (hfun : ∀ v', (k, v') ∈ kvs → v' = v) {e : ExtPresent} {d : ℕ} (h : IsClaim (hintByStem hint (stemsOf keys)) kvs k v e d) {x : Path × Byte} {y : F}
    (hw : (x, y) ∈ claimWrites F hint (stemsWithExtension hint (stemsOf keys)) k v e d) : BMap.get x st.leafVals = some y := by
  obtain ⟨y', hy⟩ := hR.inv.leafMem _ _ _ _ _ _ h hw
  obtain ⟨k', v', e', d', h', hw'⟩ := hR.inv.leaf _ _ hy
  rw [hy, writes_consistent (fun s => swe_iff) (hc.pair _) hfun h (hR.claimOk h) h' (hR.claimOk h') hw hw']

/-- Inner openings of a claim are not overridden, except that of an empty slot of the root. -/
theorem Run.leaf_inner {kvs : List (Key × Option Value)} (hR : Run hint keys kvs st) {k : Key} (hc : ConsistentAt hint keys k.stem)
    {v : Option Value} {e : ExtPresent}
    {d : ℕ} (h : IsClaim (hintByStem hint (stemsOf keys)) kvs k v e d) {i : ℕ} (hi : i < d) {z : Byte}
    (hz : k.stem.1.take i ++ [z] = k.stem.1.take (i + 1)) :
    BMap.get (k.stem.1.take i, z) st.leafVals = none ∨
      (e = .none ∧ d = i + 1 ∧ BMap.get (k.stem.1.take i, z) st.leafVals = some 0) := by
  cases hg : BMap.get (k.stem.1.take i, z) st.leafVals with
  | none => exact Or.inl rfl
  | some y =>
    right
    obtain ⟨k', v', e', d', h', hw⟩ := hR.inv.leaf _ _ hg
    have e1 := isClaim_entry h
    have e2 := isClaim_entry h'
    have o1 := hR.claimOk h
    have o2 := hR.claimOk h'
    have hpre : k.stem.1.take i <+: k.stem.1.take d := List.take_prefix_take_left (by omega)
    have hne : k'.stem.1.take d' ≠ k.stem.1.take i := by
      intro he
      have := ((hc.pair _).anti _ _ _ _ e1 e2 (Or.inr (he ▸ hpre))).symm
      rw [he] at this
      have := congrArg List.length this
      rw [take_len o1.depth, take_len (by have := o1.depth; omega)] at this
      omega
    have hne' : ∀ j, k'.stem.1.take d' ++ [j] ≠ k.stem.1.take i := by
      intro j he
      have := ((hc.pair _).anti _ _ _ _ e1 e2 (Or.inr (((List.prefix_append _ [j]).trans (he ▸ List.prefix_rfl)).trans hpre))).symm
      rw [this] at he
      have := congrArg List.length he
      rw [List.length_append, take_len o1.depth, take_len (by have := o1.depth; omega)] at this
      simp at this
      omega
    rcases writes_cases hw with ⟨a1, a2, a3⟩ | ⟨a1, a2, a3⟩ | ⟨a1, a2, a3⟩ | ⟨a1, a2, a3⟩ | ⟨a1, a2, a3, enc, a4, a5⟩ | ⟨a1, a2, a3⟩ <;>
      (simp only [Prod.mk.injEq] at a2; obtain ⟨b1, b2⟩ := a2)
    · exact absurd b1.symm hne
    · exact absurd b1.symm hne
    · exact absurd b1.symm (hne' _)
    · exact absurd b1.symm (hne' _)
    · exact absurd b1.symm hne
    · subst a1
      by_cases hd1 : d' = 1
      · subst hd1
        rw [if_pos rfl] at b1
        have hi0 : i = 0 := by
          have := congrArg List.length b1
          rw [take_len (by have := o1.depth; omega)] at this
          simpa using this
        subst hi0
        have hl : 0 < k'.stem.1.length := by rw [k'.stem.2]; omega
        have hp' : k'.stem.1.take 1 = [z] := by
          have := List.take_append_getElem hl
          rw [List.take_zero, List.nil_append] at this
          rw [← this, b2, List.getD_eq_getElem _ _ hl]
        have hp : k.stem.1.take 1 = [z] := by rw [← hz]; rfl
        have hpr : k'.stem.1.take 1 <+: k.stem.1.take d := by
          rw [hp', ← hp]; exact List.take_prefix_take_left (by omega)
        have heq := ((hc.pair _).anti _ _ _ _ e1 e2 (Or.inr hpr)).symm
        have hd : d = 1 := by
          have := congrArg List.length heq
          rw [take_len o1.depth, take_len (by omega)] at this
          exact this.symm
        exact ⟨((hc.pair _).symm.kind _ _ _ _ e2 e1 heq).1.1 rfl, by omega, by rw [a3]⟩
      · rw [if_neg hd1] at b1
        exact absurd b1.symm hne

/-- A path strictly inside the path of a claim, or the path of a stem claim, is opened. -/
theorem Run.paths_empty {kvs : List (Key × Option Value)} (hR : Run hint keys kvs st) {k : Key} (hc : ConsistentAt hint keys k.stem)
    {v : Option Value} {d : ℕ}
    (h : IsClaim (hintByStem hint (stemsOf keys)) kvs k v .none d) : k.stem.1.take d ∉ st.allPaths := by
  intro hm
  rw [hR.inv.paths] at hm
  obtain ⟨z, hz⟩ := hm
  obtain ⟨k', v', e', d', h', ho⟩ := (hR.inv.zs _).1 hz
  have e1 := isClaim_entry h
  have e2 := isClaim_entry h'
  have o1 := hR.claimOk h
  have o2 := hR.claimOk h'
  rcases ho with ⟨h1, h2⟩ | ⟨h1, h2, _⟩ | ⟨h1, ⟨h2, _⟩ | ⟨h2, _⟩⟩
  · simp only at h1 h2
    have hp : k.stem.1.take d <+: k'.stem.1.take d' := by
      have hp1 : k.stem.1.take d <+: k'.stem.1 := (List.prefix_append _ _).trans h1
      rw [prefix_iff_take.1 hp1]
      exact List.take_prefix_take_left (by omega)
    have := (hc.pair _).anti _ _ _ _ e1 e2 (Or.inl hp)
    rw [this, take_len o2.depth] at h2
    omega
  · exact h1 (((hc.pair _).kind _ _ _ _ e1 e2 h2).1.1 rfl)
  · rw [h1] at e2
    exact absurd (((hc.pair _).kind _ _ _ _ e1 e2 h2).1.1 rfl) (by simp)
  · exact no_child (hc.pair _).symm e2 e1 h2.symm

/-- The opening of a suffix commitment in its stem is not overridden. -/
theorem Run.leaf_half {kvs : List (Key × Option Value)} (hR : Run hint keys kvs st) {k : Key} (hc : ConsistentAt hint keys k.stem)
    {v : Option Value} {d : ℕ}
    (h : IsClaim (hintByStem hint (stemsOf keys)) kvs k v .present d) :
    BMap.get (k.stem.1.take d, halfIdx k.suffix) st.leafVals = none := by
  cases hg : BMap.get (k.stem.1.take d, halfIdx k.suffix) st.leafVals with
  | none => rfl
  | some y =>
    exfalso
    obtain ⟨k', v', e', d', h', hw⟩ := hR.inv.leaf _ _ hg
    have e1 := isClaim_entry h
    have e2 := isClaim_entry h'
    have o2 := hR.claimOk h'
    rcases writes_cases hw with ⟨a1, a2, a3⟩ | ⟨a1, a2, a3⟩ | ⟨a1, a2, a3⟩ | ⟨a1, a2, a3⟩ | ⟨a1, a2, a3, enc, a4, a5⟩ | ⟨a1, a2, a3⟩ <;>
      (simp only [Prod.mk.injEq] at a2; obtain ⟨b1, b2⟩ := a2)
    · exact (halfIdx_ne _).1 b2
    · exact (halfIdx_ne _).2 b2
    · exact no_child (hc.pair _).symm e2 e1 b1.symm
    · exact no_child (hc.pair _).symm e2 e1 b1.symm
    · exact (halfIdx_ne _).2 b2
    · subst a1
      exact none_path (hc.pair _).symm e2 (o2.pos rfl) o2.depth e1 (by simp) (Or.inl rfl) b1.symm

end

end Verif.Proof
