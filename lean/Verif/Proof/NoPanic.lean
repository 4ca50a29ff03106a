import Verif.Proof.Truth

/-!
# When the reconstruction of the queries panics
-/

set_option autoImplicit false

namespace Verif.Proof
open Verif.Spec Verif.Trie BOrd
open scoped Classical

variable {F G : Type} [Field F] [AddCommGroup G] [Module F G]

theorem branchLoop_total (s : Stem) : ∀ (n i : ℕ) (st : VState F), i + n ≤ 31 → ∃ st', branchLoop s i n st = .ok st'
  | 0, _, st, _ => ⟨st, rfl⟩
  | n + 1, i, st, h => by
    unfold branchLoop
    rw [List.getElem?_eq_getElem (by rw [s.2]; omega)]
    exact branchLoop_total s n (i + 1) _ (by omega)

theorem diff_filter_eq (l : List Stem) (p : Path) (d : ℕ) :
    (l.filter fun x : Stem => @decide (x.1.take d = p) (instDecidableEqList _ _)) = withPrefix l p d := by
  unfold withPrefix
  congr 1

/-- A claim meeting the conditions is processed. -/
theorem keyStep_fine {hint : VerificationHint} {byStem : BMap Stem (ExtPresent × Byte)} {swe : BSet Stem} {k : Key}
    {v : Option Value} {e : ExtPresent} {d : Byte} (st : VState F) (hg : BMap.get k.stem byStem = some (e, d))
    (ho : ClaimOk hint swe k v e d.val) : ∃ st', keyStep hint byStem swe k v st = .ok (some st') := by
  obtain ⟨st1, h1⟩ := branchLoop_total k.stem d.val 0 st (by have := ho.depth; omega)
  simp only [keyStep, hg, unwrap, bind, Except.bind, h1]
  cases e with
  | present => exact ⟨_, rfl⟩
  | differentStem =>
    have hv := ho.value (by simp)
    subst hv
    obtain ⟨h2, h3, h4⟩ := ho.diff rfl
    simp only [Option.isSome_none, Bool.false_eq_true, if_false, diffStemStep, if_neg (show ¬ d.val = 31 by omega)]
    rw [diff_filter_eq, diff_filter_eq]
    match hf : withPrefix swe (k.stem.1.take d.val) d.val with
    | _ :: _ :: _ => rw [hf] at h3; simp at h3
    | [x] => exact ⟨_, rfl⟩
    | [] =>
      have := h4 hf
      cases hl : (withPrefix hint.diffStemNoProof (k.stem.1.take d.val) d.val).getLast? with
      | none => exact absurd (List.getLast?_eq_none_iff.1 hl) this
      | some enc => exact ⟨_, rfl⟩
  | none =>
    have hv := ho.value (by simp)
    subst hv
    have h2 := ho.pos rfl
    have h3 := ho.depth
    simp only [Option.isSome_none, Bool.false_eq_true, if_false, noneStep, if_neg (show ¬ d.val = 0 by omega)]
    rw [List.getElem?_eq_getElem (by rw [k.stem.2]; omega)]
    simp only [unwrap, bind, Except.bind]
    by_cases h1 : d.val = 1
    · rw [if_pos h1]; exact ⟨_, rfl⟩
    · rw [if_neg h1]; exact ⟨_, rfl⟩

/-- A claim is rejected exactly if it claims a value although its stem is claimed absent. -/
theorem keyStep_reject {hint : VerificationHint} {byStem : BMap Stem (ExtPresent × Byte)} {swe : BSet Stem} {k : Key}
    {v : Option Value} {st : VState F} : keyStep hint byStem swe k v st = .ok none ↔
      ∃ e d, BMap.get k.stem byStem = some (e, d) ∧ d.val ≤ 31 ∧ e ≠ .present ∧ v ≠ none := by
  constructor
  · intro h
    simp only [keyStep] at h
    cases hg : BMap.get k.stem byStem with
    | none => rw [hg] at h; simp [unwrap, bind, Except.bind] at h
    | some ed =>
      obtain ⟨e, d⟩ := ed
      rw [hg] at h
      simp only [unwrap, bind, Except.bind] at h
      cases hb : branchLoop k.stem 0 d.val st with
      | error m => rw [hb] at h; simp at h
      | ok st1 =>
        rw [hb] at h
        have hd := branchLoop_ok k.stem d.val 0 st st1 hb (by omega)
        refine ⟨e, d, rfl, by omega, ?_⟩
        cases e with
        | present => simp at h
        | differentStem =>
          cases v with
          | some w => simp
          | none =>
            simp only [Option.isSome_none, Bool.false_eq_true, if_false] at h
            split at h <;> simp at h
        | none =>
          cases v with
          | some w => simp
          | none =>
            simp only [Option.isSome_none, Bool.false_eq_true, if_false] at h
            split at h <;> simp at h
  · rintro ⟨e, d, hg, hd, he, hv⟩
    obtain ⟨st1, h1⟩ := branchLoop_total k.stem d.val 0 st (by omega)
    obtain ⟨w, rfl⟩ := Option.ne_none_iff_exists'.1 hv
    simp only [keyStep, hg, unwrap, bind, Except.bind, h1]
    cases e with
    | present => exact absurd rfl he
    | differentStem => simp
    | none => simp

/-- The claim is processed without panic and without rejection. -/
def Fine (hint : VerificationHint) (keys : List Key) (k : Key) (v : Option Value) : Prop :=
  ∃ e d, HintEntry hint keys k.stem e d ∧ ClaimOk hint (stemsWithExtension hint (stemsOf keys)) k v e d

/-- The claim is rejected. -/
def Rejected (hint : VerificationHint) (keys : List Key) (k : Key) (v : Option Value) : Prop :=
  ∃ e d, HintEntry hint keys k.stem e d ∧ d ≤ 31 ∧ e ≠ .present ∧ v ≠ none

theorem keyLoop_cases {hint : VerificationHint} {keys : List Key} : ∀ (kvs : List (Key × Option Value)) {st : VState F},
    Ascending st.allPaths → Ascending st.allPathsZs →
    ((∃ o, keyLoop hint (hintByStem hint (stemsOf keys)) (stemsWithExtension hint (stemsOf keys)) kvs st = .ok o) ↔
      (∀ x ∈ kvs, Fine hint keys x.1 x.2) ∨
      ∃ pre k v post, kvs = pre ++ (k, v) :: post ∧ (∀ x ∈ pre, Fine hint keys x.1 x.2) ∧ Rejected hint keys k v) ∧
    ((∃ st', keyLoop hint (hintByStem hint (stemsOf keys)) (stemsWithExtension hint (stemsOf keys)) kvs st = .ok (some st')) ↔
      ∀ x ∈ kvs, Fine hint keys x.1 x.2)
  | [], st, _, _ => by
    simp [keyLoop]
  | (k, v) :: kvs, st, hp, hz => by
    simp only [keyLoop, bind, Except.bind]
    have hsplit : ∀ (P : Key → Option Value → Prop) (Q : Key → Option Value → Prop), P k v → ¬ Q k v →
        (((∀ x ∈ (k, v) :: kvs, P x.1 x.2) ∨
          ∃ pre k' v' post, (k, v) :: kvs = pre ++ (k', v') :: post ∧ (∀ x ∈ pre, P x.1 x.2) ∧ Q k' v') ↔
        ((∀ x ∈ kvs, P x.1 x.2) ∨ ∃ pre k' v' post, kvs = pre ++ (k', v') :: post ∧ (∀ x ∈ pre, P x.1 x.2) ∧ Q k' v')) := by
      intro P Q hP hQ
      constructor
      · rintro (h | ⟨pre, k', v', post, h1, h2, h3⟩)
        · exact Or.inl fun x hx => h x (by simp [hx])
        · cases pre with
          | nil =>
            simp only [List.nil_append, List.cons.injEq, Prod.mk.injEq] at h1
            obtain ⟨⟨rfl, rfl⟩, _⟩ := h1
            exact absurd h3 hQ
          | cons y pre =>
            simp only [List.cons_append, List.cons.injEq] at h1
            exact Or.inr ⟨pre, k', v', post, h1.2, fun x hx => h2 x (by simp [hx]), h3⟩
      · rintro (h | ⟨pre, k', v', post, h1, h2, h3⟩)
        · refine Or.inl fun x hx => ?_
          rcases List.mem_cons.1 hx with rfl | hx
          · exact hP
          · exact h x hx
        · refine Or.inr ⟨(k, v) :: pre, k', v', post, by rw [h1]; rfl, fun x hx => ?_, h3⟩
          rcases List.mem_cons.1 hx with rfl | hx
          · exact hP
          · exact h2 x hx
    have hexcl : Fine hint keys k v → ¬ Rejected hint keys k v := by
      rintro ⟨e, d, h1, h2⟩ ⟨e', d', h3, _, h4, h5⟩
      obtain ⟨rfl, rfl⟩ := entry_unique h1 h3
      exact h5 (h2.value h4)
    cases hk : keyStep hint (hintByStem hint (stemsOf keys)) (stemsWithExtension hint (stemsOf keys)) k v st with
    | error m =>
      have h1 : ¬ Fine hint keys k v := by
        rintro ⟨e, d, h1, h2⟩
        obtain ⟨b, rfl, hb⟩ := entry_get h1
        obtain ⟨st', h⟩ := keyStep_fine st hb h2
        rw [hk] at h; simp at h
      have h2 : ¬ Rejected hint keys k v := by
        rintro ⟨e, d, h1, h2⟩
        obtain ⟨b, rfl, hb⟩ := entry_get h1
        have := keyStep_reject (hint := hint) (swe := stemsWithExtension hint (stemsOf keys)) (st := st) |>.2 ⟨e, b, hb, h2⟩
        rw [hk] at this; simp at this
      refine ⟨⟨fun h => by simp at h, ?_⟩, ⟨fun h => by simp at h, fun h => absurd (h (k, v) (by simp)) h1⟩⟩
      rintro (h | ⟨pre, k', v', post, h3, h4, h5⟩)
      · exact absurd (h (k, v) (by simp)) h1
      · cases pre with
        | nil =>
          simp only [List.nil_append, List.cons.injEq, Prod.mk.injEq] at h3
          obtain ⟨⟨rfl, rfl⟩, _⟩ := h3
          exact absurd h5 h2
        | cons y pre =>
          simp only [List.cons_append, List.cons.injEq] at h3
          exact absurd (h3.1 ▸ h4 y (by simp) : Fine hint keys (k, v).1 (k, v).2) h1
    | ok o =>
      cases o with
      | none =>
        obtain ⟨e, d, h1, h2⟩ := keyStep_reject.1 hk
        have hr : Rejected hint keys k v := ⟨e, d.val, ⟨d, rfl, get_hintByStem.1 h1⟩, h2⟩
        refine ⟨⟨fun _ => Or.inr ⟨[], k, v, kvs, rfl, by simp, hr⟩, fun _ => ⟨_, rfl⟩⟩, ⟨fun h => by simp at h, fun h => ?_⟩⟩
        exact absurd hr (hexcl (h (k, v) (by simp)))
      | some st1 =>
        obtain ⟨e, d, h1, h2, _, a1, a2, _⟩ := keyStep_ok hp hz hk
        have hf : Fine hint keys k v := ⟨e, d.val, ⟨d, rfl, get_hintByStem.1 h1⟩, h2⟩
        obtain ⟨i1, i2⟩ := keyLoop_cases (hint := hint) (keys := keys) kvs a1 a2
        refine ⟨?_, ?_⟩
        · rw [hsplit _ _ hf (hexcl hf)]; exact i1
        · simp only
          rw [i2]
          constructor
          · intro h x hx
            rcases List.mem_cons.1 hx with rfl | hx
            · exact hf
            · exact h x hx
          · exact fun h x hx => h x (by simp [hx])

theorem get_zip_some {α β : Type} [BOrd α] {l : List α} {l' : List β} {k : α} (h : k ∈ l) (hl : l'.length = l.length) :
    ∃ v, BMap.get k (l.zip l') = some v := by
  rw [← Option.ne_none_iff_exists']
  intro he
  rw [BMap.get_eq_none_iff, List.map_fst_zip (by omega)] at he
  exact he h

theorem mapM_total {α β : Type} {f : α → Res β} : ∀ {l : List α}, (∀ a ∈ l, ∃ b, f a = .ok b) → ∃ r, l.mapM f = .ok r
  | [], _ => ⟨[], rfl⟩
  | a :: l, h => by
    obtain ⟨b, hb⟩ := h a (by simp)
    obtain ⟨r, hr⟩ := mapM_total (l := l) fun x hx => h x (by simp [hx])
    exact ⟨b :: r, by rw [List.mapM_cons, hb, hr]; rfl⟩

/-- The assembly succeeds exactly if the counts agree. -/
theorem assemble_total {C : Crypto F G} {hint : VerificationHint} {byStem : BMap Stem (ExtPresent × Byte)} {all : List G}
    {st : VState F} (hp : ∀ x ∈ st.allPathsZs, x.1 ∈ st.allPaths) :
    (∃ r, assemble C hint byStem all st = .ok r) ↔ hint.diffStemNoProof = st.otherStemsUsed ∧ all.length = st.allPaths.length := by
  unfold assemble
  by_cases h1 : hint.diffStemNoProof = st.otherStemsUsed
  · rw [if_neg (by simpa using h1)]
    by_cases h2 : all.length = st.allPaths.length
    · rw [if_neg (by simpa using h2)]
      refine ⟨fun _ => ⟨h1, h2⟩, fun _ => ?_⟩
      obtain ⟨r, hr⟩ := mapM_total (f := fun pz : Path × Byte => do
        let c ← unwrap "no commitment for the path" (BMap.get pz.1 (st.allPaths.zip all))
        .ok (⟨c, (pz.2.val : F), claimedValue C st.leafVals (st.allPaths.zip all) pz.1 pz.2⟩ : VerifierQuery F G))
        (l := st.allPathsZs) (by
          intro x hx
          obtain ⟨c, hc⟩ := get_zip_some (hp x hx) h2
          exact ⟨_, by rw [hc]; rfl⟩)
      simp only [bind, Except.bind] at hr ⊢
      rw [hr]
      exact ⟨_, rfl⟩
    · rw [if_pos (by simpa using h2)]
      simp [h2]
  · rw [if_pos (by simpa using h1)]
    simp [h1]

/-- Exactly when the reconstruction does not panic. -/
theorem createVerifierQueries_total {C : Crypto F G} {hint : VerificationHint} (hasc : Ascending hint.diffStemNoProof)
    {comms : List G} {keys : List Key} {values : List (Option Value)} {root : G} :
    (∃ o, createVerifierQueries C hint comms keys values root = .ok o) ↔
      (∃ pre k v post, keys.zip values = pre ++ (k, v) :: post ∧ (∀ x ∈ pre, Fine hint keys x.1 x.2) ∧ Rejected hint keys k v) ∨
      ((∀ x ∈ keys.zip values, Fine hint keys x.1 x.2) ∧
        (∀ u, u ∈ hint.diffStemNoProof ↔ ∃ k v e d, (k, v) ∈ keys.zip values ∧ HintEntry hint keys k.stem e d ∧
          claimUses hint (stemsWithExtension hint (stemsOf keys)) k e d u) ∧
        ∃ P : List Path, P.Nodup ∧ (∀ p, p ∈ P ↔ ∃ k v e d z, (k, v) ∈ keys.zip values ∧ HintEntry hint keys k.stem e d ∧
          claimOpens k e d (p, z)) ∧ comms.length + 1 = P.length) := by
  have hcl : ∀ {k v e d}, IsClaim (hintByStem hint (stemsOf keys)) (keys.zip values) k v e d ↔
      (k, v) ∈ keys.zip values ∧ HintEntry hint keys k.stem e d := by
    intro k v e d
    constructor
    · exact fun h => ⟨h.1, isClaim_entry h⟩
    · rintro ⟨h1, h2⟩
      obtain ⟨b, hb, hg⟩ := entry_get h2
      exact ⟨h1, b, hb, hg⟩
  obtain ⟨i1, i2⟩ := keyLoop_cases (F := F) (hint := hint) (keys := keys) (keys.zip values) (st := ⟨[], [], [], [], []⟩)
    List.Pairwise.nil List.Pairwise.nil
  unfold createVerifierQueries
  simp only [show BSet.ofList (keys.map Key.stem) = stemsOf keys from rfl, bind, Except.bind]
  by_cases hrej : ∃ pre k v post, keys.zip values = pre ++ (k, v) :: post ∧ (∀ x ∈ pre, Fine hint keys x.1 x.2) ∧ Rejected hint keys k v
  · refine ⟨fun _ => Or.inl hrej, fun _ => ?_⟩
    obtain ⟨o, ho⟩ := i1.2 (Or.inr hrej)
    have hn : o = none := by
      cases o with
      | none => rfl
      | some st' =>
        obtain ⟨pre, k, v, post, h1, _, e, d, h2, h3, h4, h5⟩ := hrej
        obtain ⟨e', d', h6, h7⟩ := i2.1 ⟨st', ho⟩ (k, v) (by rw [h1]; simp)
        obtain ⟨rfl, rfl⟩ := entry_unique h2 h6
        exact absurd (h7.value h4) h5
    subst hn
    rw [ho]
    exact ⟨_, rfl⟩
  · by_cases hfine : ∀ x ∈ keys.zip values, Fine hint keys x.1 x.2
    · obtain ⟨st, hst⟩ := i2.2 hfine
      have hI := keyLoop_inv (keys.zip values) (sinv_empty hint _ _) hst
      rw [List.nil_append] at hI
      rw [hst]
      have ha := assemble_total (C := C) (hint := hint) (byStem := hintByStem hint (stemsOf keys)) (all := root :: comms)
        (st := st) (fun x hx => (hI.paths _).2 ⟨x.2, hx⟩)
      have e2 : hint.diffStemNoProof = st.otherStemsUsed ↔ ∀ u, u ∈ hint.diffStemNoProof ↔
          ∃ k v e d, (k, v) ∈ keys.zip values ∧ HintEntry hint keys k.stem e d ∧
          claimUses hint (stemsWithExtension hint (stemsOf keys)) k e d u := by
        have hu : ∀ u, u ∈ st.otherStemsUsed ↔ ∃ k v e d, (k, v) ∈ keys.zip values ∧ HintEntry hint keys k.stem e d ∧
          claimUses hint (stemsWithExtension hint (stemsOf keys)) k e d u := by
          intro u
          rw [hI.used]
          simp only [hcl, and_assoc]
        constructor
        · intro h u; rw [← hu, ← h]
        · intro h
          exact Ascending.ext hasc hI.usedAsc fun u => by rw [h, hu]
      have hpm : ∀ p, p ∈ st.allPaths ↔ ∃ k v e d z, (k, v) ∈ keys.zip values ∧ HintEntry hint keys k.stem e d ∧
          claimOpens k e d (p, z) := by
        intro p
        rw [hI.paths]
        constructor
        · rintro ⟨z, hz⟩
          obtain ⟨k, v, e, d, h1, h2⟩ := (hI.zs _).1 hz
          exact ⟨k, v, e, d, z, (hcl.1 h1).1, (hcl.1 h1).2, h2⟩
        · rintro ⟨k, v, e, d, z, h1, h2, h3⟩
          exact ⟨z, (hI.zs _).2 ⟨k, v, e, d, hcl.2 ⟨h1, h2⟩, h3⟩⟩
      have hnd : st.allPaths.Nodup := hI.pathsAsc.nodup
      have e3 : (root :: comms).length = st.allPaths.length ↔ ∃ P : List Path, P.Nodup ∧ (∀ p, p ∈ P ↔ ∃ k v e d z,
          (k, v) ∈ keys.zip values ∧ HintEntry hint keys k.stem e d ∧ claimOpens k e d (p, z)) ∧ comms.length + 1 = P.length := by
        constructor
        · intro h
          exact ⟨st.allPaths, hnd, hpm, by simpa using h⟩
        · rintro ⟨P, h1, h2, h3⟩
          have : P.Perm st.allPaths := (List.perm_ext_iff_of_nodup h1 hnd).2 fun p => by rw [h2, hpm]
          rw [List.length_cons, h3, this.length_eq]
      have e4 : (∃ r, assemble C hint (hintByStem hint (stemsOf keys)) (root :: comms) st = .ok r) ↔
          (∃ pre k v post, keys.zip values = pre ++ (k, v) :: post ∧ (∀ x ∈ pre, Fine hint keys x.1 x.2) ∧ Rejected hint keys k v) ∨
          ((∀ x ∈ keys.zip values, Fine hint keys x.1 x.2) ∧
          (∀ u, u ∈ hint.diffStemNoProof ↔ ∃ k v e d, (k, v) ∈ keys.zip values ∧ HintEntry hint keys k.stem e d ∧
            claimUses hint (stemsWithExtension hint (stemsOf keys)) k e d u) ∧
          ∃ P : List Path, P.Nodup ∧ (∀ p, p ∈ P ↔ ∃ k v e d z, (k, v) ∈ keys.zip values ∧ HintEntry hint keys k.stem e d ∧
            claimOpens k e d (p, z)) ∧ comms.length + 1 = P.length) := by
        rw [ha, e2, e3]
        constructor
        · exact fun h => Or.inr ⟨hfine, h⟩
        · rintro (h | h)
          · exact absurd h hrej
          · exact h.2
      rw [← e4]
      simp only
      cases assemble C hint (hintByStem hint (stemsOf keys)) (root :: comms) st <;> simp
    · have hno : ¬ ∃ o, keyLoop hint (hintByStem hint (stemsOf keys)) (stemsWithExtension hint (stemsOf keys))
          (keys.zip values) (⟨[], [], [], [], []⟩ : VState F) = .ok o := by
        rw [i1]; exact fun h => h.elim hfine hrej
      refine ⟨?_, fun h => h.elim (fun h => absurd h hrej) fun h => absurd h.1 hfine⟩
      rintro ⟨o, ho⟩
      cases hk : keyLoop hint (hintByStem hint (stemsOf keys)) (stemsWithExtension hint (stemsOf keys))
          (keys.zip values) (⟨[], [], [], [], []⟩ : VState F) with
      | error m => rw [hk] at ho; simp at ho
      | ok o' => exact absurd ⟨o', hk⟩ hno

end Verif.Proof
