import Verif.Proof.Honest

/-!
# What the verifier does with an arbitrary proof

No assumption is made on the hint, the commitments, the keys or the values here.
-/

set_option autoImplicit false

namespace Verif.Proof
open Verif.Spec Verif.Trie BOrd
open scoped Classical

variable {F G : Type} [Field F] [AddCommGroup G] [Module F G]

/-- Stems claimed present that have the given prefix of the given length. -/
def withPrefix (l : List Stem) (p : Path) (d : ℕ) : List Stem := l.filter fun x => decide (x.1.take d = p)

/-- The values a claim fixes. -/
def claimWrites (F : Type) [Field F] (hint : VerificationHint) (swe : List Stem) (k : Key) (v : Option Value) (e : ExtPresent)
    (d : ℕ) : List ((Path × Byte) × F) :=
  let p := k.stem.1.take d
  match e with
  | .present => [((p, 0), 1), ((p, 1), frLe F k.stem.1), ((p ++ [halfIdx k.suffix], lowIdx k.suffix), (valueHalves F v).1),
      ((p ++ [halfIdx k.suffix], highIdx k.suffix), (valueHalves F v).2)]
  | .differentStem =>
    ((p, 0), 1) :: (if withPrefix swe p d = [] then
        match (withPrefix hint.diffStemNoProof p d).getLast? with
        | some enc => [((p, 1), frLe F enc.1)]
        | none => []
      else [])
  | .none => [((if d = 1 then [] else p, k.stem.1.getD (d - 1) 0), 0)]

/-- The openings a claim asks for. -/
def claimOpens (k : Key) (e : ExtPresent) (d : ℕ) (x : Path × Byte) : Prop :=
  (x.1 ++ [x.2] <+: k.stem.1 ∧ x.1.length < d) ∨
  (e ≠ .none ∧ x.1 = k.stem.1.take d ∧ (x.2 = 0 ∨ x.2 = 1)) ∨
  (e = .present ∧ ((x.1 = k.stem.1.take d ∧ x.2 = halfIdx k.suffix) ∨
    (x.1 = k.stem.1.take d ++ [halfIdx k.suffix] ∧ (x.2 = lowIdx k.suffix ∨ x.2 = highIdx k.suffix))))

/-- The conditions under which processing a claim neither panics nor rejects. -/
structure ClaimOk (hint : VerificationHint) (swe : List Stem) (k : Key) (v : Option Value) (e : ExtPresent) (d : ℕ) : Prop where
  depth : d ≤ 31
  value : e ≠ .present → v = none
  pos : e = .none → 1 ≤ d
  diff : e = .differentStem → d < 31 ∧ (withPrefix swe (k.stem.1.take d) d).length ≤ 1 ∧
    (withPrefix swe (k.stem.1.take d) d = [] → withPrefix hint.diffStemNoProof (k.stem.1.take d) d ≠ [])

/-- The stem a `DifferentStem` claim takes from the hint. -/
def claimUses (hint : VerificationHint) (swe : List Stem) (k : Key) (e : ExtPresent) (d : ℕ) (u : Stem) : Prop :=
  e = .differentStem ∧ withPrefix swe (k.stem.1.take d) d = [] ∧
    (withPrefix hint.diffStemNoProof (k.stem.1.take d) d).getLast? = some u

theorem branchLoop_ok (s : Stem) : ∀ (n i : ℕ) (st st' : VState F), branchLoop s i n st = .ok st' → i ≤ 31 → i + n ≤ 31
  | 0, i, _, _, _, hi => by omega
  | n + 1, i, st, st', h, hi => by
    unfold branchLoop at h
    cases hg : s.1[i]? with
    | none => rw [hg] at h; simp [unwrap, bind, Except.bind] at h
    | some z =>
      rw [hg] at h
      simp only [unwrap, bind, Except.bind] at h
      have hlt : i < 31 := by
        have := (List.getElem?_eq_some_iff.1 hg).1
        rwa [s.2] at this
      have := branchLoop_ok s n (i + 1) _ st' h (by omega)
      omega

/-- One claim. -/
theorem keyStep_ok {hint : VerificationHint} {byStem : BMap Stem (ExtPresent × Byte)} {swe : BSet Stem} {k : Key}
    {v : Option Value} {st st' : VState F} (hp : Ascending st.allPaths) (hz : Ascending st.allPathsZs)
    (h : keyStep hint byStem swe k v st = .ok (some st')) :
    ∃ e d, BMap.get k.stem byStem = some (e, d) ∧ ClaimOk hint swe k v e d.val ∧
      st'.leafVals = (claimWrites F hint swe k v e d.val).foldl (fun b w => BMap.insert w.1 w.2 b) st.leafVals ∧
      Ascending st'.allPaths ∧ Ascending st'.allPathsZs ∧
      (∀ x, x ∈ st'.allPathsZs ↔ x ∈ st.allPathsZs ∨ claimOpens k e d.val x) ∧
      (∀ p, p ∈ st'.allPaths ↔ p ∈ st.allPaths ∨ ∃ z, claimOpens k e d.val (p, z)) ∧
      (∀ u, u ∈ st'.otherStemsUsed ↔ u ∈ st.otherStemsUsed ∨ claimUses hint swe k e d.val u) ∧
      (Ascending st.otherStemsUsed → Ascending st'.otherStemsUsed) := by
  simp only [keyStep] at h
  cases hg : BMap.get k.stem byStem with
  | none => rw [hg] at h; simp [unwrap, bind, Except.bind] at h
  | some ed =>
    obtain ⟨e, d⟩ := ed
    rw [hg] at h
    simp only [unwrap, bind, Except.bind] at h
    cases hb : branchLoop k.stem 0 d.val st with
    | error m => rw [hb] at h; simp at h
    | ok st1 =>
      rw [hb] at h
      simp only at h
      have hd := branchLoop_ok k.stem d.val 0 st st1 hb (by omega)
      have hd : d.val ≤ 31 := by omega
      obtain ⟨st1', hb', a1, a2, a3, a4, a5, a6, a7⟩ := branchLoop_spec k.stem d.val 0 st (by omega) hp hz
      rw [hb] at hb'
      have hb' : st1 = st1' := by simpa using hb'
      subst hb'
      have hbp : ∀ p, (∃ z, p ++ [z] <+: k.stem.1 ∧ p.length < d.val) ↔ (p <+: k.stem.1 ∧ p.length < d.val) := by
        intro p
        constructor
        · rintro ⟨z, h1, h2⟩; exact ⟨(List.prefix_append _ _).trans h1, h2⟩
        · rintro ⟨h1, h2⟩
          have hl : p.length < k.stem.1.length := by rw [k.stem.2]; omega
          refine ⟨k.stem.1[p.length], ?_, h2⟩
          have := List.take_append_getElem hl
          rw [← prefix_iff_take.1 h1] at this
          rw [this]
          exact List.take_prefix _ _
      refine ⟨e, d, rfl, ?_⟩
      cases e with
      | present =>
        simp only [Except.ok.injEq, Option.some.injEq] at h
        subst h
        refine ⟨⟨hd, by simp, by simp, by simp⟩, ?_, ?_, ?_, ?_, ?_, ?_, ?_⟩
        · rw [← a2]; rfl
        · exact BSet.asc_insert _ (BSet.asc_insert _ a4)
        · exact BSet.asc_insert _ (BSet.asc_insert _ (BSet.asc_insert _ (BSet.asc_insert _ (BSet.asc_insert _ a5))))
        · rintro ⟨p, z⟩
          show (p, z) ∈ BSet.insert _ (BSet.insert _ (BSet.insert _ (BSet.insert _ (BSet.insert _ st1.allPathsZs)))) ↔ _
          simp only [BSet.mem_insert, a7, claimOpens, Prod.mk.injEq, ne_eq, reduceCtorEq, not_false_eq_true, true_and,
            Nat.zero_le, Nat.zero_add]
          constructor
          · rintro (⟨h1, h2⟩ | ⟨h1, h2⟩ | ⟨h1, h2⟩ | ⟨h1, h2⟩ | ⟨h1, h2⟩ | h | h)
            · exact Or.inr (Or.inr (Or.inr (Or.inr ⟨h1, Or.inr h2⟩)))
            · exact Or.inr (Or.inr (Or.inr (Or.inr ⟨h1, Or.inl h2⟩)))
            · exact Or.inr (Or.inr (Or.inr (Or.inl ⟨h1, h2⟩)))
            · exact Or.inr (Or.inr (Or.inl ⟨h1, Or.inr h2⟩))
            · exact Or.inr (Or.inr (Or.inl ⟨h1, Or.inl h2⟩))
            · exact Or.inl h
            · exact Or.inr (Or.inl h)
          · rintro (h | h | ⟨h1, h2 | h2⟩ | ⟨h1, h2⟩ | ⟨h1, h2 | h2⟩)
            · exact Or.inr (Or.inr (Or.inr (Or.inr (Or.inr (Or.inl h)))))
            · exact Or.inr (Or.inr (Or.inr (Or.inr (Or.inr (Or.inr h)))))
            · exact Or.inr (Or.inr (Or.inr (Or.inr (Or.inl ⟨h1, h2⟩))))
            · exact Or.inr (Or.inr (Or.inr (Or.inl ⟨h1, h2⟩)))
            · exact Or.inr (Or.inr (Or.inl ⟨h1, h2⟩))
            · exact Or.inr (Or.inl ⟨h1, h2⟩)
            · exact Or.inl ⟨h1, h2⟩
        · intro p
          show p ∈ BSet.insert _ (BSet.insert _ st1.allPaths) ↔ _
          simp only [BSet.mem_insert, a6, claimOpens, ne_eq, reduceCtorEq, not_false_eq_true, true_and, Nat.zero_le,
            Nat.zero_add, exists_or, hbp]
          constructor
          · rintro (h | h | h | h)
            · exact Or.inr (Or.inr (Or.inr (Or.inr ⟨_, h, Or.inl rfl⟩)))
            · exact Or.inr (Or.inr (Or.inl ⟨_, h, Or.inl rfl⟩))
            · exact Or.inl h
            · exact Or.inr (Or.inl h)
          · rintro (h | h | ⟨_, h, _⟩ | ⟨_, h, _⟩ | ⟨_, h, _⟩)
            · exact Or.inr (Or.inr (Or.inl h))
            · exact Or.inr (Or.inr (Or.inr h))
            · exact Or.inr (Or.inl h)
            · exact Or.inr (Or.inl h)
            · exact Or.inl h
        · intro u
          show u ∈ st1.otherStemsUsed ↔ _
          simp [claimUses, a1]
        · intro hu
          show Ascending st1.otherStemsUsed
          rw [a1]; exact hu
      | differentStem =>
        simp only at h
        have hv : v = none := by
          cases v with
          | none => rfl
          | some w => simp at h
        subst hv
        simp only [Option.isSome_none, Bool.false_eq_true, if_false] at h
        cases hds : diffStemStep hint swe k.stem d.val (k.stem.1.take d.val) (extStep (k.stem.1.take d.val) st1) with
        | error m => rw [hds] at h; simp at h
        | ok st2 =>
          rw [hds] at h
          simp only [Except.ok.injEq, Option.some.injEq] at h
          subst h
          unfold diffStemStep at hds
          by_cases hd31 : d.val = 31
          · rw [if_pos hd31] at hds; simp at hds
          rw [if_neg hd31] at hds
          have hmain : ∀ st2 : VState F, st2.allPaths = (extStep (k.stem.1.take d.val) st1).allPaths →
              st2.allPathsZs = (extStep (k.stem.1.take d.val) st1).allPathsZs →
              Ascending st2.allPaths ∧ Ascending st2.allPathsZs ∧
              (∀ x, x ∈ st2.allPathsZs ↔ x ∈ st.allPathsZs ∨ claimOpens k .differentStem d.val x) ∧
              (∀ p, p ∈ st2.allPaths ↔ p ∈ st.allPaths ∨ ∃ z, claimOpens k .differentStem d.val (p, z)) := by
            intro st2 e1 e2
            rw [e1, e2]
            refine ⟨BSet.asc_insert _ a4, BSet.asc_insert _ (BSet.asc_insert _ a5), ?_, ?_⟩
            · rintro ⟨p, z⟩
              show (p, z) ∈ BSet.insert _ (BSet.insert _ st1.allPathsZs) ↔ _
              simp only [BSet.mem_insert, a7, claimOpens, Prod.mk.injEq, ne_eq, reduceCtorEq, not_false_eq_true, true_and,
                Nat.zero_le, Nat.zero_add, false_and, or_false]
              constructor
              · rintro (⟨h1, h2⟩ | ⟨h1, h2⟩ | h | h)
                · exact Or.inr (Or.inr ⟨h1, Or.inr h2⟩)
                · exact Or.inr (Or.inr ⟨h1, Or.inl h2⟩)
                · exact Or.inl h
                · exact Or.inr (Or.inl h)
              · rintro (h | h | ⟨h1, h2 | h2⟩)
                · exact Or.inr (Or.inr (Or.inl h))
                · exact Or.inr (Or.inr (Or.inr h))
                · exact Or.inr (Or.inl ⟨h1, h2⟩)
                · exact Or.inl ⟨h1, h2⟩
            · intro p
              show p ∈ BSet.insert _ st1.allPaths ↔ _
              simp only [BSet.mem_insert, a6, claimOpens, ne_eq, reduceCtorEq, not_false_eq_true, true_and, Nat.zero_le,
                Nat.zero_add, false_and, or_false, exists_or, hbp]
              constructor
              · rintro (h | h | h)
                · exact Or.inr (Or.inr ⟨_, h, Or.inl rfl⟩)
                · exact Or.inl h
                · exact Or.inr (Or.inl h)
              · rintro (h | h | ⟨_, h, _⟩)
                · exact Or.inr (Or.inl h)
                · exact Or.inr (Or.inr h)
                · exact Or.inl h
          match hf : withPrefix swe (k.stem.1.take d.val) d.val with
          | a :: b :: rest =>
            unfold withPrefix at hf
            rw [hf] at hds
            simp at hds
          | [x] =>
            have hf' := hf
            unfold withPrefix at hf'
            rw [hf'] at hds
            simp only [Except.ok.injEq] at hds
            subst hds
            obtain ⟨m1, m2, m3, m4⟩ := hmain _ rfl rfl
            refine ⟨⟨hd, fun _ => rfl, by simp, fun _ => ⟨by omega, by simp [hf], by simp [hf]⟩⟩, ?_, m1, m2, m3, m4, ?_, ?_⟩
            · unfold claimWrites
              simp only [hf]
              show BMap.insert _ _ st1.leafVals = _
              rw [a2]
              simp
            · intro u
              show u ∈ st1.otherStemsUsed ↔ _
              simp [claimUses, a1, hf]
            · intro hu
              show Ascending st1.otherStemsUsed
              rw [a1]; exact hu
          | [] =>
            have hf' := hf
            unfold withPrefix at hf'
            rw [hf'] at hds
            simp only [bind, Except.bind] at hds
            have hdef : List.filter (fun x : Stem => decide (x.1.take d.val = k.stem.1.take d.val)) hint.diffStemNoProof =
              withPrefix hint.diffStemNoProof (k.stem.1.take d.val) d.val := rfl
            rw [hdef] at hds
            cases hl : (withPrefix hint.diffStemNoProof (k.stem.1.take d.val) d.val).getLast? with
            | none => rw [hl] at hds; simp [unwrap] at hds
            | some enc =>
              rw [hl] at hds
              simp only [unwrap, Except.ok.injEq] at hds
              subst hds
              obtain ⟨m1, m2, m3, m4⟩ := hmain _ rfl rfl
              refine ⟨⟨hd, fun _ => rfl, by simp, fun _ => ⟨by omega, by simp [hf], fun _ e => ?_⟩⟩, ?_, m1, m2, m3, m4, ?_, ?_⟩
              · rw [e] at hl; simp at hl
              · unfold claimWrites
                simp only [hf, hl]
                show BMap.insert _ _ (BMap.insert _ _ st1.leafVals) = _
                rw [a2]
                simp
              · intro u
                show u ∈ BSet.insert enc st1.otherStemsUsed ↔ _
                simp only [BSet.mem_insert, a1, claimUses, hf, hl, true_and, Option.some.injEq]
                constructor
                · rintro (rfl | h)
                  · exact Or.inr rfl
                  · exact Or.inl h
                · rintro (h | rfl)
                  · exact Or.inr h
                  · exact Or.inl rfl
              · intro hu
                show Ascending (BSet.insert enc st1.otherStemsUsed)
                rw [a1]; exact BSet.asc_insert _ hu
      | none =>
        simp only at h
        have hv : v = none := by
          cases v with
          | none => rfl
          | some w => simp at h
        subst hv
        simp only [Option.isSome_none, Bool.false_eq_true, if_false] at h
        cases hds : noneStep k.stem d.val st1 with
        | error m => rw [hds] at h; simp at h
        | ok st2 =>
          rw [hds] at h
          simp only [Except.ok.injEq, Option.some.injEq] at h
          subst h
          unfold noneStep at hds
          by_cases hd0 : d.val = 0
          · rw [if_pos hd0] at hds; simp at hds
          rw [if_neg hd0] at hds
          have hlt : d.val - 1 < k.stem.1.length := by rw [k.stem.2]; omega
          rw [List.getElem?_eq_getElem hlt] at hds
          simp only [unwrap, bind, Except.bind] at hds
          have hst : st2.allPaths = st1.allPaths ∧ st2.allPathsZs = st1.allPathsZs ∧ st2.otherStemsUsed = st1.otherStemsUsed ∧
              st2.leafVals = BMap.insert (if d.val = 1 then [] else k.stem.1.take d.val, k.stem.1.getD (d.val - 1) 0) 0
                st1.leafVals := by
            rw [List.getD_eq_getElem _ _ hlt]
            by_cases h1 : d.val = 1
            · rw [if_pos h1] at hds
              simp only [Except.ok.injEq] at hds
              subst hds
              rw [if_pos h1]
              exact ⟨rfl, rfl, rfl, rfl⟩
            · rw [if_neg h1] at hds
              simp only [Except.ok.injEq] at hds
              subst hds
              rw [if_neg h1]
              exact ⟨rfl, rfl, rfl, rfl⟩
          obtain ⟨c1, c2, c3, c4⟩ := hst
          refine ⟨⟨hd, fun _ => rfl, fun _ => by omega, by simp⟩, ?_, ?_, ?_, ?_, ?_, ?_, ?_⟩
          · rw [c4, a2]; rfl
          · rw [c1]; exact a4
          · rw [c2]; exact a5
          · rintro ⟨p, z⟩
            rw [c2]
            simp [a7, claimOpens]
          · intro p
            rw [c1, a6]
            simp only [claimOpens, ne_eq, not_true_eq_false, reduceCtorEq, false_and, or_false, hbp]
            simp
          · intro u
            rw [c3, a1]; simp [claimUses]
          · intro hu
            rw [c3, a1]; exact hu

/-! ### The whole loop -/

/-- The claims made by a proof: key, value, hint entry. -/
def IsClaim (byStem : BMap Stem (ExtPresent × Byte)) (kvs : List (Key × Option Value)) (k : Key) (v : Option Value)
    (e : ExtPresent) (d : ℕ) : Prop :=
  (k, v) ∈ kvs ∧ ∃ b : Byte, b.val = d ∧ BMap.get k.stem byStem = some (e, b)

/-- The state after processing the claims `kvs`. -/
structure SInv (hint : VerificationHint) (byStem : BMap Stem (ExtPresent × Byte)) (swe : List Stem)
    (kvs : List (Key × Option Value)) (st : VState F) : Prop where
  ok : ∀ k v, (k, v) ∈ kvs → ∃ e d, IsClaim byStem kvs k v e d ∧ ClaimOk hint swe k v e d
  pathsAsc : Ascending st.allPaths
  zsAsc : Ascending st.allPathsZs
  leafSorted : BMap.Sorted st.leafVals
  zs : ∀ x, x ∈ st.allPathsZs ↔ ∃ k v e d, IsClaim byStem kvs k v e d ∧ claimOpens k e d x
  paths : ∀ p, p ∈ st.allPaths ↔ ∃ z, (p, z) ∈ st.allPathsZs
  leaf : ∀ x y, BMap.get x st.leafVals = some y →
    ∃ k v e d, IsClaim byStem kvs k v e d ∧ (x, y) ∈ claimWrites F hint swe k v e d
  leafMem : ∀ k v e d x y, IsClaim byStem kvs k v e d → (x, y) ∈ claimWrites F hint swe k v e d →
    ∃ y', BMap.get x st.leafVals = some y'
  usedAsc : Ascending st.otherStemsUsed
  used : ∀ u, u ∈ st.otherStemsUsed ↔ ∃ k v e d, IsClaim byStem kvs k v e d ∧ claimUses hint swe k e d u

theorem foldl_insert {α β : Type} [BOrd α] [DecidableEq α] : ∀ (l : List (α × β)) {b : BMap α β}, BMap.Sorted b →
    BMap.Sorted (l.foldl (fun b w => BMap.insert w.1 w.2 b) b) ∧
    (∀ x y, BMap.get x (l.foldl (fun b w => BMap.insert w.1 w.2 b) b) = some y → (x, y) ∈ l ∨ BMap.get x b = some y) ∧
    (∀ x, ((∃ y, (x, y) ∈ l) ∨ BMap.get x b ≠ none) → ∃ y', BMap.get x (l.foldl (fun b w => BMap.insert w.1 w.2 b) b) = some y')
  | [], b, hb => ⟨hb, fun x y h => Or.inr h, fun x h => by
      rcases h with ⟨y, h⟩ | h
      · simp at h
      · exact Option.ne_none_iff_exists'.1 h⟩
  | (a, c) :: l, b, hb => by
    obtain ⟨h1, h2, h3⟩ := foldl_insert l (BMap.sorted_insert a c hb)
    refine ⟨h1, fun x y h => ?_, fun x h => ?_⟩
    · rcases h2 x y h with h | h
      · exact Or.inl (List.mem_cons_of_mem _ h)
      · rw [BMap.get_insert _ _ _ hb] at h
        by_cases he : x = a
        · rw [if_pos he] at h
          have hc : c = y := by simpa using h
          subst he hc
          exact Or.inl (by simp)
        · rw [if_neg he] at h
          exact Or.inr h
    · apply h3
      rw [get_insert_ne_none]
      rcases h with ⟨y, h⟩ | h
      · rcases List.mem_cons.1 h with h | h
        · exact Or.inr (Or.inl (congrArg Prod.fst h))
        · exact Or.inl ⟨y, h⟩
      · exact Or.inr (Or.inr h)

theorem sinv_empty (hint : VerificationHint) (byStem : BMap Stem (ExtPresent × Byte)) (swe : List Stem) :
    SInv hint byStem swe [] (⟨[], [], [], [], []⟩ : VState F) := by
  have hn : ∀ k v e d, ¬ IsClaim byStem [] k v e d := by
    rintro k v e d ⟨h, _⟩; simp at h
  refine ⟨by simp, List.Pairwise.nil, List.Pairwise.nil, List.Pairwise.nil, fun x => ?_, fun p => by simp, ?_, ?_,
    List.Pairwise.nil, fun u => ?_⟩
  · simp only [List.not_mem_nil, false_iff]
    rintro ⟨k, v, e, d, h, _⟩; exact hn _ _ _ _ h
  · intro x y h; simp [BMap.get] at h
  · intro k v e d x y h; exact absurd h (hn _ _ _ _)
  · simp only [List.not_mem_nil, false_iff]
    rintro ⟨k, v, e, d, h, _⟩; exact hn _ _ _ _ h

theorem IsClaim.mono {byStem : BMap Stem (ExtPresent × Byte)} {kvs kvs' : List (Key × Option Value)} {k : Key} {v : Option Value}
    {e : ExtPresent} {d : ℕ} (h : IsClaim byStem kvs k v e d) (hs : ∀ x ∈ kvs, x ∈ kvs') : IsClaim byStem kvs' k v e d :=
  ⟨hs _ h.1, h.2⟩

theorem isClaim_append {byStem : BMap Stem (ExtPresent × Byte)} {kvs : List (Key × Option Value)} {k k' : Key}
    {v v' : Option Value} {e e' : ExtPresent} {d d' : Byte} (hg : BMap.get k'.stem byStem = some (e', d')) :
    IsClaim byStem (kvs ++ [(k', v')]) k v e d.val ↔ IsClaim byStem kvs k v e d.val ∨ (k = k' ∧ v = v' ∧ e = e' ∧ d = d') := by
  unfold IsClaim
  rw [List.mem_append, List.mem_singleton, Prod.mk.injEq]
  constructor
  · rintro ⟨h | ⟨rfl, rfl⟩, b, hb, h2⟩
    · exact Or.inl ⟨h, b, hb, h2⟩
    · rw [hg] at h2
      simp only [Option.some.injEq, Prod.mk.injEq] at h2
      obtain ⟨rfl, rfl⟩ := h2
      exact Or.inr ⟨rfl, rfl, rfl, (Fin.ext hb).symm⟩
  · rintro (⟨h, h2⟩ | ⟨rfl, rfl, rfl, rfl⟩)
    · exact ⟨Or.inl h, h2⟩
    · exact ⟨Or.inr ⟨rfl, rfl⟩, d, rfl, hg⟩

/-- Reformulation with a byte as depth. -/
theorem exists_claim {byStem : BMap Stem (ExtPresent × Byte)} {kvs : List (Key × Option Value)}
    {P : Key → Option Value → ExtPresent → ℕ → Prop} :
    (∃ k v e d, IsClaim byStem kvs k v e d ∧ P k v e d) ↔ ∃ k v e, ∃ d : Byte, IsClaim byStem kvs k v e d.val ∧ P k v e d.val := by
  constructor
  · rintro ⟨k, v, e, d, ⟨h, b, rfl, h2⟩, h3⟩
    exact ⟨k, v, e, b, ⟨h, b, rfl, h2⟩, h3⟩
  · rintro ⟨k, v, e, d, h, h3⟩
    exact ⟨k, v, e, d.val, h, h3⟩

theorem exists_claim_append {byStem : BMap Stem (ExtPresent × Byte)} {kvs : List (Key × Option Value)} {k' : Key}
    {v' : Option Value} {e' : ExtPresent} {d' : Byte} (hg : BMap.get k'.stem byStem = some (e', d'))
    {P : Key → Option Value → ExtPresent → ℕ → Prop} :
    (∃ k v e d, IsClaim byStem (kvs ++ [(k', v')]) k v e d ∧ P k v e d) ↔
      (∃ k v e d, IsClaim byStem kvs k v e d ∧ P k v e d) ∨ P k' v' e' d'.val := by
  rw [exists_claim, exists_claim]
  simp only [isClaim_append hg]
  constructor
  · rintro ⟨k, v, e, d, h | ⟨rfl, rfl, rfl, rfl⟩, h2⟩
    · exact Or.inl ⟨k, v, e, d, h, h2⟩
    · exact Or.inr h2
  · rintro (⟨k, v, e, d, h, h2⟩ | h)
    · exact ⟨k, v, e, d, Or.inl h, h2⟩
    · exact ⟨k', v', e', d', Or.inr ⟨rfl, rfl, rfl, rfl⟩, h⟩

theorem keyStep_inv {hint : VerificationHint} {byStem : BMap Stem (ExtPresent × Byte)} {swe : BSet Stem} {k : Key}
    {v : Option Value} {st st' : VState F} {kvs : List (Key × Option Value)} (hI : SInv hint byStem swe kvs st)
    (h : keyStep hint byStem swe k v st = .ok (some st')) : SInv hint byStem swe (kvs ++ [(k, v)]) st' := by
  obtain ⟨e, d, hg, hok, hl, a1, a2, a3, a4, a5, a6⟩ := keyStep_ok hI.pathsAsc hI.zsAsc h
  obtain ⟨f1, f2, f3⟩ := foldl_insert (claimWrites F hint swe k v e d.val) hI.leafSorted
  rw [← hl] at f1 f2 f3
  refine ⟨?_, a1, a2, f1, ?_, ?_, ?_, ?_, a6 hI.usedAsc, ?_⟩
  · intro k' v' h'
    rcases List.mem_append.1 h' with h' | h'
    · obtain ⟨e', d', h1, h2⟩ := hI.ok k' v' h'
      exact ⟨e', d', h1.mono (by simp +contextual), h2⟩
    · have h' : k' = k ∧ v' = v := by simpa using h'
      obtain ⟨rfl, rfl⟩ := h'
      exact ⟨e, d.val, ⟨by simp, d, rfl, hg⟩, hok⟩
  · intro x
    rw [a3, hI.zs, exists_claim_append hg]
  · intro p
    rw [a4, hI.paths]
    simp only [a3, exists_or]
  · intro x y hy
    rw [exists_claim_append hg]
    rcases f2 x y hy with h | h
    · exact Or.inr h
    · exact Or.inl (hI.leaf x y h)
  · intro k' v' e' d' x y hc hw
    apply f3
    obtain ⟨b, rfl, hb⟩ := hc.2
    rcases (isClaim_append hg).1 hc with h | ⟨rfl, rfl, rfl, rfl⟩
    · obtain ⟨y', h'⟩ := hI.leafMem _ _ _ _ x y h hw
      exact Or.inr (by simp [h'])
    · exact Or.inl ⟨y, hw⟩
  · intro u
    rw [a5, hI.used, exists_claim_append hg]

theorem keyLoop_inv {hint : VerificationHint} {byStem : BMap Stem (ExtPresent × Byte)} {swe : BSet Stem} :
    ∀ (rest : List (Key × Option Value)) {kvs : List (Key × Option Value)} {st st' : VState F},
      SInv hint byStem swe kvs st → keyLoop hint byStem swe rest st = .ok (some st') → SInv hint byStem swe (kvs ++ rest) st'
  | [], kvs, st, st', hI, h => by
    have h : st = st' := by simpa [keyLoop] using h
    subst h
    simpa using hI
  | (k, v) :: rest, kvs, st, st', hI, h => by
    simp only [keyLoop, bind, Except.bind] at h
    cases hk : keyStep hint byStem swe k v st with
    | error m => rw [hk] at h; simp at h
    | ok o =>
      rw [hk] at h
      cases o with
      | none => simp at h
      | some st1 =>
        have := keyLoop_inv rest (keyStep_inv hI hk) h
        simpa using this

/-! ### The hint entries -/

theorem zip_fst_sublist {α β : Type} : ∀ (l : List α) (l' : List β), ((l.zip l').map Prod.fst).Sublist l
  | [], _ => by simp
  | a :: l, [] => by simp
  | a :: l, b :: l' => by
    simp only [List.zip_cons_cons, List.map_cons]
    exact (zip_fst_sublist l l').cons₂ a

theorem hint_nodup (hint : VerificationHint) (keys : List Key) :
    ((((stemsOf keys).zip hint.depths).zip hint.extensionPresent).map fun x => x.1.1).Nodup := by
  have h1 : ((((stemsOf keys).zip hint.depths).zip hint.extensionPresent).map fun x => x.1.1) =
      ((((stemsOf keys).zip hint.depths).zip hint.extensionPresent).map Prod.fst).map Prod.fst := by
    rw [List.map_map]; rfl
  rw [h1]
  have : (stemsOf keys).Nodup := (BSet.asc_ofList _).nodup
  exact this.sublist (((zip_fst_sublist _ _).map Prod.fst).trans (zip_fst_sublist _ _))

theorem hint_fold (s : Stem) (e : ExtPresent) (b : Byte) : ∀ (l : List ((Stem × Byte) × ExtPresent)) {m : BMap Stem (ExtPresent × Byte)},
    BMap.Sorted m → (l.map fun x => x.1.1).Nodup →
    BMap.Sorted (l.foldl (fun m x => BMap.insert x.1.1 (x.2, x.1.2) m) m) ∧
    (BMap.get s (l.foldl (fun m x => BMap.insert x.1.1 (x.2, x.1.2) m) m) = some (e, b) ↔
      ((s, b), e) ∈ l ∨ (s ∉ l.map (fun x => x.1.1)) ∧ BMap.get s m = some (e, b))
  | [], m, hm, _ => ⟨hm, by simp⟩
  | ((t, c), f) :: l, m, hm, hn => by
    simp only [List.map_cons, List.nodup_cons] at hn
    obtain ⟨h1, h2⟩ := hint_fold s e b l (BMap.sorted_insert t (f, c) hm) hn.2
    refine ⟨h1, ?_⟩
    rw [List.foldl_cons, h2, BMap.get_insert _ _ _ hm]
    by_cases hst : s = t
    · subst hst
      rw [if_pos rfl]
      constructor
      · rintro (h | ⟨_, h⟩)
        · exact Or.inl (List.mem_cons_of_mem _ h)
        · simp only [Option.some.injEq, Prod.mk.injEq] at h
          obtain ⟨rfl, rfl⟩ := h
          exact Or.inl (by simp)
      · rintro (h | ⟨h, _⟩)
        · rcases List.mem_cons.1 h with h | h
          · simp only [Prod.mk.injEq, true_and] at h
            obtain ⟨rfl, rfl⟩ := h
            exact Or.inr ⟨hn.1, rfl⟩
          · exact Or.inl h
        · simp at h
    · rw [if_neg hst]
      simp only [List.mem_cons, Prod.mk.injEq, hst, false_and, false_or, List.map_cons]

/-- The hint entry of a stem. -/
theorem get_hintByStem {hint : VerificationHint} {keys : List Key} {s : Stem} {e : ExtPresent} {b : Byte} :
    BMap.get s (hintByStem hint (stemsOf keys)) = some (e, b) ↔
      ((s, b), e) ∈ ((stemsOf keys).zip hint.depths).zip hint.extensionPresent := by
  unfold hintByStem
  rw [(hint_fold s e b _ (m := []) List.Pairwise.nil (hint_nodup hint keys)).2]
  simp [BMap.get]

theorem mem_stemsWithExtension {hint : VerificationHint} {keys : List Key} {s : Stem} :
    s ∈ stemsWithExtension hint (stemsOf keys) ↔ ∃ b, BMap.get s (hintByStem hint (stemsOf keys)) = some (.present, b) := by
  simp only [get_hintByStem]
  unfold stemsWithExtension
  generalize ((stemsOf keys).zip hint.depths).zip hint.extensionPresent = l
  have key : ∀ (l : List ((Stem × Byte) × ExtPresent)) (t : BSet Stem),
      s ∈ l.foldl (fun s x => if x.2 = .present then BSet.insert x.1.1 s else s) t ↔ (∃ b, ((s, b), .present) ∈ l) ∨ s ∈ t := by
    intro l
    induction l with
    | nil => intro t; simp
    | cons x l ih =>
      obtain ⟨⟨u, c⟩, f⟩ := x
      intro t
      rw [List.foldl_cons, ih]
      by_cases hf : f = .present
      · subst hf
        simp only [if_true, BSet.mem_insert, List.mem_cons, Prod.mk.injEq, and_true]
        constructor
        · rintro (⟨b, h⟩ | rfl | h)
          · exact Or.inl ⟨b, Or.inr h⟩
          · exact Or.inl ⟨c, Or.inl ⟨rfl, rfl⟩⟩
          · exact Or.inr h
        · rintro (⟨b, ⟨rfl, _⟩ | h⟩ | h)
          · exact Or.inr (Or.inl rfl)
          · exact Or.inl ⟨b, h⟩
          · exact Or.inr (Or.inr h)
      · have hf' : ExtPresent.present ≠ f := fun h => hf h.symm
        simp only [hf, if_false, List.mem_cons, Prod.mk.injEq, hf', and_false, false_or]
  rw [key]
  simp

/-- Only stems of the requested keys have entries. -/
theorem stem_of_entry {hint : VerificationHint} {keys : List Key} {s : Stem} {e : ExtPresent} {b : Byte}
    (h : BMap.get s (hintByStem hint (stemsOf keys)) = some (e, b)) : ∃ k ∈ keys, k.stem = s := by
  rw [get_hintByStem] at h
  have h1 := (List.of_mem_zip h).1
  have h2 := (List.of_mem_zip h1).1
  obtain ⟨k, hk, he⟩ := mem_stemsOf.1 h2
  exact ⟨k, hk, he⟩

/-! ### The reconstruction -/

theorem mapM_mem {α β : Type} {f : α → Res β} : ∀ {l : List α} {r : List β}, l.mapM f = .ok r →
    (∀ x ∈ l, ∃ y ∈ r, f x = .ok y) ∧ ∀ y ∈ r, ∃ x ∈ l, f x = .ok y
  | [], r, h => by
    have h : [] = r := by simpa [pure, Except.pure] using h
    subst h; simp
  | a :: l, r, h => by
    rw [List.mapM_cons] at h
    simp only [bind, Except.bind, pure, Except.pure] at h
    cases ha : f a with
    | error m => rw [ha] at h; simp at h
    | ok y =>
      rw [ha] at h
      cases hl : l.mapM f with
      | error m => rw [hl] at h; simp at h
      | ok r' =>
        rw [hl] at h
        have h : y :: r' = r := by simpa using h
        subst h
        obtain ⟨h1, h2⟩ := mapM_mem hl
        constructor
        · intro x hx
          rcases List.mem_cons.1 hx with rfl | hx
          · exact ⟨y, by simp, ha⟩
          · obtain ⟨y', hy, he⟩ := h1 x hx
            exact ⟨y', by simp [hy], he⟩
        · intro x hx
          rcases List.mem_cons.1 hx with rfl | hx
          · exact ⟨a, by simp, ha⟩
          · obtain ⟨y', hy, he⟩ := h2 x hx
            exact ⟨y', by simp [hy], he⟩

/-- What an accepted reconstruction looks like. -/
theorem createVerifierQueries_ok {C : Crypto F G} {hint : VerificationHint} {comms : List G} {keys : List Key}
    {values : List (Option Value)} {root : G} {qs : List (VerifierQuery F G)} {uh : UpdateHint G}
    (h : createVerifierQueries C hint comms keys values root = .ok (some (qs, uh))) :
    ∃ st : VState F, SInv hint (hintByStem hint (stemsOf keys)) (stemsWithExtension hint (stemsOf keys)) (keys.zip values) st ∧
      hint.diffStemNoProof = st.otherStemsUsed ∧ (root :: comms).length = st.allPaths.length ∧
      uh.depthsAndExt = hintByStem hint (stemsOf keys) ∧ uh.commsByPath = st.allPaths.zip (root :: comms) ∧
      uh.otherStems = st.otherStems ∧
      (∀ x ∈ st.allPathsZs, ∃ c, BMap.get x.1 uh.commsByPath = some c ∧
        (⟨c, (x.2.val : F), claimedValue C st.leafVals uh.commsByPath x.1 x.2⟩ : VerifierQuery F G) ∈ qs) ∧
      (∀ q ∈ qs, ∃ x ∈ st.allPathsZs, ∃ c, BMap.get x.1 uh.commsByPath = some c ∧
        q = ⟨c, (x.2.val : F), claimedValue C st.leafVals uh.commsByPath x.1 x.2⟩) ∧
      keyLoop hint (hintByStem hint (stemsOf keys)) (stemsWithExtension hint (stemsOf keys)) (keys.zip values)
        ⟨[], [], [], [], []⟩ = .ok (some st) := by
  unfold createVerifierQueries at h
  simp only [bind, Except.bind] at h
  have e : BSet.ofList (keys.map Key.stem) = stemsOf keys := rfl
  rw [e] at h
  cases hk : keyLoop hint (hintByStem hint (stemsOf keys)) (stemsWithExtension hint (stemsOf keys)) (keys.zip values)
      (⟨[], [], [], [], []⟩ : VState F) with
  | error m => rw [hk] at h; simp at h
  | ok o =>
    rw [hk] at h
    cases o with
    | none => simp at h
    | some st =>
      simp only at h
      have hI := keyLoop_inv (keys.zip values) (sinv_empty hint _ _) hk
      rw [List.nil_append] at hI
      unfold assemble at h
      by_cases hd : hint.diffStemNoProof ≠ st.otherStemsUsed
      · rw [if_pos hd] at h; simp at h
      rw [if_neg hd] at h
      by_cases hl : (root :: comms).length ≠ st.allPaths.length
      · rw [if_pos hl] at h; simp at h
      rw [if_neg hl] at h
      simp only [bind, Except.bind] at h
      split at h
      · simp at h
      · rename_i v hv
        simp only [Except.ok.injEq, Option.some.injEq, Prod.mk.injEq] at h
        split at hv
        · simp at hv
        · rename_i qs' hq
          simp only [Except.ok.injEq] at hv
          subst hv
          obtain ⟨rfl, rfl⟩ := h
          refine ⟨st, hI, by simpa using hd, by simpa using hl, rfl, rfl, rfl, ?_, ?_, rfl⟩
          · intro x hx
            obtain ⟨q, hq1, hq2⟩ := (mapM_mem hq).1 x hx
            cases hc : BMap.get x.1 (st.allPaths.zip (root :: comms)) with
            | none => rw [hc] at hq2; simp [unwrap] at hq2
            | some c =>
              rw [hc] at hq2
              simp only [unwrap, Except.ok.injEq] at hq2
              exact ⟨c, rfl, hq2 ▸ hq1⟩
          · intro q hqm
            obtain ⟨x, hx, hq2⟩ := (mapM_mem hq).2 q hqm
            cases hc : BMap.get x.1 (st.allPaths.zip (root :: comms)) with
            | none => rw [hc] at hq2; simp [unwrap] at hq2
            | some c =>
              rw [hc] at hq2
              simp only [unwrap, Except.ok.injEq] at hq2
              exact ⟨x, hx, c, hc, hq2.symm⟩

end Verif.Proof
