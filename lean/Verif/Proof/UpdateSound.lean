import Verif.Proof.Extract
import Verif.Proof.UpdateRoot

/-!
# The stateless updater on an accepted proof

The update hint of an accepted proof with a consistent hint is right about every written key, and the updater does not return
a root when a written key was claimed to belong to an empty place.
-/

set_option autoImplicit false

namespace Verif.Proof
open Verif.Spec Verif.Trie BOrd
open scoped Classical

variable {F G : Type} [Field F] [AddCommGroup G] [Module F G]

/-! ### The stems recorded as standing in the way -/

theorem OtherOf.unique {hint : VerificationHint} {swe : List Stem} {p : Path} {d : ℕ} {u u' : Stem}
    (h : OtherOf hint swe p d u) (h' : OtherOf hint swe p d u') : u = u' := by
  rcases h with h | ⟨h1, h2⟩ <;> rcases h' with h' | ⟨h1', h2'⟩
  · rw [h] at h'
    simpa using h'
  · rw [h] at h1'
    cases h1'
  · rw [h1] at h'
    cases h'
  · rw [h2] at h2'
    simpa using h2'

omit [AddCommGroup G] [Module F G] in
theorem keyStep_other {hint : VerificationHint} {byStem : BMap Stem (ExtPresent × Byte)} {swe : BSet Stem} {k : Key}
    {v : Option Value} {st st' : VState F} (hp : Ascending st.allPaths) (hz : Ascending st.allPathsZs)
    (h : keyStep hint byStem swe k v st = .ok (some st')) :
    ∃ e d, BMap.get k.stem byStem = some (e, d) ∧ (e ≠ .differentStem → st'.otherStems = st.otherStems) ∧
      (e = .differentStem → d.val ≤ 31 ∧ ∃ u, OtherOf hint swe (k.stem.1.take d.val) d.val u ∧
        st'.otherStems = BMap.insert (k.stem.1.take d.val) u st.otherStems) := by
  simp only [keyStep] at h
  cases hg : BMap.get k.stem byStem with
  | none => rw [hg] at h; simp [unwrap, bind, Except.bind] at h
  | some ed =>
    obtain ⟨e, d⟩ := ed
    rw [hg] at h
    simp only [unwrap, bind, Except.bind] at h
    cases hb : branchLoop k.stem 0 d.val st with
    | error m => rw [hb] at h; simp at h
    | ok st1 =>
      rw [hb] at h
      simp only at h
      have hd := branchLoop_ok k.stem d.val 0 st st1 hb (by omega)
      have hd : d.val ≤ 31 := by omega
      obtain ⟨st1', hb', a1, a2, a3, a4, a5, a6, a7⟩ := branchLoop_spec k.stem d.val 0 st (by omega) hp hz
      rw [hb] at hb'
      have hb' : st1 = st1' := by simpa using hb'
      subst hb'
      refine ⟨e, d, rfl, ?_, ?_⟩
      · intro he
        cases e with
        | present =>
          simp only [Except.ok.injEq, Option.some.injEq] at h
          subst h
          exact a3
        | differentStem => exact absurd rfl he
        | none =>
          simp only at h
          split at h
          · simp at h
          · split at h
            · simp at h
            · rename_i st2 hds
              simp only [Except.ok.injEq, Option.some.injEq] at h
              subst h
              unfold noneStep at hds
              split at hds
              · simp at hds
              · simp only [bind, Except.bind] at hds
                split at hds
                · simp at hds
                · split at hds <;>
                  · simp only [Except.ok.injEq] at hds
                    subst hds
                    exact a3
      · rintro rfl
        refine ⟨hd, ?_⟩
        simp only at h
        split at h
        · simp at h
        · split at h
          · simp at h
          · rename_i st2 hds
            simp only [Except.ok.injEq, Option.some.injEq] at h
            subst h
            unfold diffStemStep at hds
            split at hds
            · simp at hds
            · match hf : withPrefix swe (k.stem.1.take d.val) d.val with
              | a :: b :: rest =>
                unfold withPrefix at hf
                rw [hf] at hds
                simp at hds
              | [x] =>
                have hf' := hf
                unfold withPrefix at hf'
                rw [hf'] at hds
                simp only [Except.ok.injEq] at hds
                subst hds
                exact ⟨x, Or.inl hf, by show BMap.insert _ _ st1.otherStems = _; rw [a3]⟩
              | [] =>
                have hf' := hf
                unfold withPrefix at hf'
                rw [hf'] at hds
                simp only [bind, Except.bind] at hds
                have hdef : List.filter (fun x : Stem => decide (x.1.take d.val = k.stem.1.take d.val)) hint.diffStemNoProof =
                  withPrefix hint.diffStemNoProof (k.stem.1.take d.val) d.val := rfl
                rw [hdef] at hds
                cases hl : (withPrefix hint.diffStemNoProof (k.stem.1.take d.val) d.val).getLast? with
                | none => rw [hl] at hds; simp [unwrap] at hds
                | some enc =>
                  rw [hl] at hds
                  simp only [unwrap, Except.ok.injEq] at hds
                  subst hds
                  exact ⟨enc, Or.inr ⟨hf, hl⟩, by show BMap.insert _ _ st1.otherStems = _; rw [a3]⟩

/-- The stems in the way after the claims `kvs`. -/
structure OInv (hint : VerificationHint) (byStem : BMap Stem (ExtPresent × Byte)) (swe : List Stem)
    (kvs : List (Key × Option Value)) (st : VState F) : Prop where
  sorted : BMap.Sorted st.otherStems
  is : ∀ p u, BMap.get p st.otherStems = some u → OtherOf hint swe p p.length u
  has : ∀ k v d, IsClaim byStem kvs k v .differentStem d → BMap.get (k.stem.1.take d) st.otherStems ≠ none

theorem keyLoop_other {hint : VerificationHint} {byStem : BMap Stem (ExtPresent × Byte)} {swe : BSet Stem} :
    ∀ (rest : List (Key × Option Value)) {kvs : List (Key × Option Value)} {st st' : VState F},
      SInv hint byStem swe kvs st → OInv hint byStem swe kvs st → keyLoop hint byStem swe rest st = .ok (some st') →
      OInv hint byStem swe (kvs ++ rest) st'
  | [], kvs, st, st', _, hO, h => by
    have h : st = st' := by simpa [keyLoop] using h
    subst h
    simpa using hO
  | (k, v) :: rest, kvs, st, st', hI, hO, h => by
    simp only [keyLoop, bind, Except.bind] at h
    cases hk : keyStep hint byStem swe k v st with
    | error m => rw [hk] at h; simp at h
    | ok o =>
      rw [hk] at h
      cases o with
      | none => simp at h
      | some st1 =>
        obtain ⟨e, d, hg, h1, h2⟩ := keyStep_other hI.pathsAsc hI.zsAsc hk
        have hO1 : OInv hint byStem swe (kvs ++ [(k, v)]) st1 := by
          by_cases he : e = .differentStem
          · subst he
            obtain ⟨hd, u, hu, hs⟩ := h2 rfl
            refine ⟨by rw [hs]; exact BMap.sorted_insert _ _ hO.sorted, fun p w hw => ?_, fun k' v' d' hc => ?_⟩
            · rw [hs, BMap.get_insert _ _ _ hO.sorted] at hw
              split at hw
              · rename_i hp
                subst hp
                obtain rfl : u = w := by simpa using hw
                rw [take_stem_length hd]
                exact hu
              · exact hO.is p w hw
            · rw [hs, BMap.get_insert _ _ _ hO.sorted]
              split
              · simp
              · rename_i hne
                obtain ⟨b, rfl, hb⟩ := hc.2
                rcases (isClaim_append hg).1 hc with h | ⟨rfl, rfl, _, rfl⟩
                · exact hO.has k' v' b.val h
                · exact absurd rfl hne
          · refine ⟨by rw [h1 he]; exact hO.sorted, by rw [h1 he]; exact hO.is, fun k' v' d' hc => ?_⟩
            rw [h1 he]
            obtain ⟨b, rfl, hb⟩ := hc.2
            rcases (isClaim_append hg).1 hc with h | ⟨rfl, rfl, h, rfl⟩
            · exact hO.has k' v' b.val h
            · exact absurd h.symm he
        have := keyLoop_other rest (keyStep_inv hI hk) hO1 h
        simpa using this

/-! ### The hint is right about claims of stems -/

section
variable {C : Crypto F G} {m : KV} {W : G → Byte → F} {qs : List (VerifierQuery F G)} {root : G}
  {st : VState F} {hint : VerificationHint} {keys : List Key} {kvs : List (Key × Option Value)} {uh : UpdateHint G}

/-- Where a claim of a stem is made, and of which kind it is. -/
theorem claim_place (hF : BigField F) (hnb : ¬ ProofBreak C m W qs) (hR : Run hint keys kvs st)
    (hO : Openings' C W qs root uh.commsByPath st) (hroot : root = branchComm C m []) {k : Key} (hc : ConsistentAt hint keys k.stem)
    {v : Option Value} (hfun : ∀ v', (k, v') ∈ kvs → v' = v) {e : ExtPresent} {d : ℕ} (h : IsClaim (hintByStem hint (stemsOf keys)) kvs k v e d) (he : e ≠ .none) :
    d = termLen m k.stem ∧ e = extOf m k.stem ∧ ∃ s, TermStem m (termPath m k.stem) s ∧
      BMap.get (termPath m k.stem) uh.commsByPath = some (stemComm C m s) ∧
      (e = .differentStem → OtherOf hint (stemsWithExtension hint (stemsOf keys)) (termPath m k.stem) d s) ∧
      (e = .present → BMap.get (termPath m k.stem ++ [halfIdx k.suffix]) uh.commsByPath
        = some (suffixComm C m k.stem (halfOff k.suffix))) := by
  have ho := hR.claimOk h
  obtain ⟨c, s, h1, h2, h3, h4, h5, h6⟩ := claim_mark hF hnb hR hO hroot hc hfun h he
  have hd : d = termLen m k.stem := by
    apply Nat.le_antisymm
    · rcases Nat.eq_zero_or_pos d with h0 | h0
      · omega
      · have := (isBranch_take_iff (m := m) (s := k.stem) (d := d - 1) (by have := ho.depth; omega)).1 (h6 (d - 1) (by omega))
        omega
    · rw [isBranch_take_iff ho.depth] at h3
      omega
  subst hd
  have hp : k.stem.1.take (termLen m k.stem) = termPath m k.stem := rfl
  rw [hp] at h1 h3 h4
  have hT : TermStem m (termPath m k.stem) s := termStem_termPath h4
  have hcc : c = stemComm C m s := by rw [← h2, h5, stemComm_eq_commit]
  cases e with
  | none => exact absurd rfl he
  | present =>
    obtain ⟨rfl, g2, g3⟩ := claim_present hF hnb hR hO hc hfun h h1 h4.1 h5
    exact ⟨rfl, by rw [extOf, if_pos h4.1], _, hT, by rw [h1, hcc], by simp, fun _ => g3⟩
  | differentStem =>
    obtain ⟨g1, g2⟩ := claim_other hF hR hO hc hfun h h1 h5
    have hno : ¬ HasStem m k.stem := fun hs =>
      g2 (hT.unique (termStem_self hs))
    exact ⟨rfl, by rw [extOf, if_neg hno, if_pos ⟨s, h4⟩], s, hT, by rw [h1, hcc], fun _ => g1, by simp⟩

/-- The hint of an accepted proof is right about the keys for which a stem was claimed, if it is consistent at them. -/
theorem hintFor_accepted (hF : BigField F) (hnb : ¬ ProofBreak C m W qs) (hR : Run hint keys kvs st)
    (hfun : ∀ k v v', (k, v) ∈ kvs → (k, v') ∈ kvs → v' = v)
    (hO : Openings' C W qs root uh.commsByPath st) (hroot : root = branchComm C m [])
    (hdep : uh.depthsAndExt = hintByStem hint (stemsOf keys)) (hoth : uh.otherStems = st.otherStems)
    (hI : OInv hint (hintByStem hint (stemsOf keys)) (stemsWithExtension hint (stemsOf keys)) kvs st) :
    HintFor C m (fun k => k ∈ keys ∧ ConsistentAt hint keys k.stem ∧ ∀ d, ¬ HintEntry hint keys k.stem .none d) uh := by
  have hcl : ∀ k, (k ∈ keys ∧ ConsistentAt hint keys k.stem ∧ ∀ d, ¬ HintEntry hint keys k.stem .none d) → ∃ v e d,
      IsClaim (hintByStem hint (stemsOf keys)) kvs k v e d ∧ e ≠ .none := by
    rintro k ⟨h1, -, h2⟩
    obtain ⟨v, hv⟩ := hR.covers k h1
    obtain ⟨e, d, h3, _⟩ := hR.inv.ok k v hv
    exact ⟨v, e, d, h3, fun he => h2 d (he ▸ isClaim_entry h3)⟩
  -- the commitment at the place of a key
  have hterm : ∀ k, (k ∈ keys ∧ ConsistentAt hint keys k.stem ∧ ∀ d, ¬ HintEntry hint keys k.stem .none d) → ∀ p u, TermStem m p u → p <+: k.stem.1 →
      BMap.get p uh.commsByPath = some (nodeComm C m p) := by
    intro k hk p u hT hp
    obtain ⟨v, e, d, h, he⟩ := hcl k hk
    obtain ⟨_, _, s, h3, h4, _⟩ := claim_place hF hnb hR hO hroot hk.2.1 (fun v' h' => hfun _ _ v' h.1 h') h he
    rw [hT.termPath hp] at h3 h4
    rw [h4, nodeComm_stem h3]
  have hsfx : ∀ k, (k ∈ keys ∧ ConsistentAt hint keys k.stem ∧ ∀ d, ¬ HintEntry hint keys k.stem .none d) → ∀ p, TermStem m p k.stem →
      BMap.get (p ++ [halfIdx k.suffix]) uh.commsByPath = some (nodeComm C m (p ++ [halfIdx k.suffix])) := by
    intro k hk p hT
    obtain ⟨v, e, d, h, he⟩ := hcl k hk
    obtain ⟨_, h2, _, _, _, _, h5⟩ := claim_place hF hnb hR hO hroot hk.2.1 (fun v' h' => hfun _ _ v' h.1 h') h he
    rw [hT.termPath hT.2.2.2] at h5
    rw [h5 (by rw [h2, extOf, if_pos hT.2.2.1]), nodeComm_suffix hT]
  refine ⟨fun k hk => ?_, fun p hp => ?_, fun k hk hno => ?_, fun k u hk hT hne => ?_⟩
  · obtain ⟨v, e, d, h, he⟩ := hcl k hk
    obtain ⟨rfl, rfl, _⟩ := claim_place hF hnb hR hO hroot hk.2.1 (fun v' h' => hfun _ _ v' h.1 h') h he
    obtain ⟨b, hb, hg⟩ := h.2
    rw [hdep, hg]
    have : b = asU8 (termLen m k.stem) := by
      apply Fin.ext
      rw [asU8_val (by have := termLen_le m k.stem; omega), hb]
    rw [this]
  · obtain ⟨z, hz⟩ := hp
    cases hz with
    | branch _ _ k hk hb hpre =>
      obtain ⟨v, e, d, h, he⟩ := hcl k hk
      obtain ⟨hd, _, _⟩ := claim_place hF hnb hR hO hroot hk.2.1 (fun v' h' => hfun _ _ v' h.1 h') h he
      obtain ⟨_, _, _, _, _, _, _, hbr⟩ := claim_mark hF hnb hR hO hroot hk.2.1 (fun v' h' => hfun _ _ v' h.1 h') h he
      have hpk : p <+: k.stem.1 := (List.prefix_append _ _).trans hpre
      have hlt : p.length < d := by rw [hd]; exact (isBranch_prefix_iff hpk).1 hb
      obtain ⟨c, h1, h2, _, h3⟩ := walk hF hnb hR hO hroot hk.2.1 h p.length (Or.inl hlt)
      rw [← prefix_eq_take hpk] at h1 h3
      rw [h1, nodeComm_branch hb]
      rcases h3 with ⟨⟨_, h3⟩ | ⟨h3, _⟩ | ⟨h3, _⟩, _⟩ | ⟨_, j, hj, hj2, _⟩
      · rw [← h2, h3, branchComm_eq_commit _ _ _ (by have := IsBranch.len hb; omega)]
      · exact absurd hb h3
      · exact absurd hb h3
      · exact absurd (hbr j (by omega)) hj2
    | ext _ _ u k hk hu hpre _ => exact hterm k hk p u hu hpre
    | half _ k hk hu => exact hterm k hk p _ hu hu.2.2.2
    | low q k hk hu => exact hsfx k hk q hu
    | high q k hk hu => exact hsfx k hk q hu
  · obtain ⟨v, e, d, h, he⟩ := hcl k hk
    obtain ⟨_, _, s, h3, _⟩ := claim_place hF hnb hR hO hroot hk.2.1 (fun v' h' => hfun _ _ v' h.1 h') h he
    exact absurd ⟨s, h3⟩ hno
  · obtain ⟨v, e, d, h, he⟩ := hcl k hk
    obtain ⟨hd, h2, s, h3, _, h5, _⟩ := claim_place hF hnb hR hO hroot hk.2.1 (fun v' h' => hfun _ _ v' h.1 h') h he
    obtain rfl := hT.unique h3
    have hno : ¬ HasStem m k.stem := fun hs => hne ((termStem_self hs).unique hT)
    have hdiff : e = .differentStem := by rw [h2, extOf, if_neg hno, if_pos ⟨u, hT.2.2⟩]
    subst hdiff
    have hg := hI.has k v d h
    rw [hd] at hg
    have hg : BMap.get (termPath m k.stem) st.otherStems ≠ none := hg
    obtain ⟨w, hw⟩ := Option.ne_none_iff_exists'.1 hg
    have h6 := hI.is _ _ hw
    rw [termPath_length, ← hd] at h6
    rw [hoth, hw, h6.unique (h5 rfl)]

end

/-! ### Writes to places claimed empty -/

section
variable {C : Crypto F G} {uh : UpdateHint G}

theorem mem_addStem {bp : BMap Path (List Stem)} (hs : BMap.Sorted bp) (p : Path) (s : Stem) :
    BMap.Sorted (addStem p s bp) ∧ s ∈ stemsAt (addStem p s bp) p ∧
      ∀ q t, t ∈ stemsAt bp q → t ∈ stemsAt (addStem p s bp) q := by
  obtain ⟨a1, a2, a3, a4⟩ := addStem_spec hs p s
  exact ⟨a1, (a3 _ _).2 (Or.inl ⟨rfl, rfl⟩), fun q t h => (a3 _ _).2 (Or.inr h)⟩

/-- What one iteration keeps. -/
theorem stemStep_ok [DecidableEq G] {s : Stem} {u : SuffixUpdate} {st st' : StemState F G} (hs : BMap.Sorted st.byPrefix)
    (hs' : BMap.Sorted st.byStem) (h : stemStep C uh s u st = .ok (.ok st')) :
    BMap.Sorted st'.byPrefix ∧ BMap.Sorted st'.byStem ∧ ∃ e d, BMap.get s uh.depthsAndExt = some (e, d) ∧
      s ∈ stemsAt st'.byPrefix (s.1.take d.val) ∧ (∀ q t, t ∈ stemsAt st.byPrefix q → t ∈ stemsAt st'.byPrefix q) ∧
      (e = .none → st'.byStem = st.byStem) ∧ ∀ t, t ≠ s → BMap.get t st'.byStem = BMap.get t st.byStem := by
  unfold stemStep at h
  cases hg : BMap.get s uh.depthsAndExt with
  | none => rw [hg] at h; simp [unwrap, bind, Except.bind] at h
  | some ed =>
    obtain ⟨e, d⟩ := ed
    rw [hg] at h
    simp only [unwrap, bind, Except.bind] at h
    split at h
    · simp at h
    · obtain ⟨a1, a2, a3⟩ := mem_addStem hs (s.1.take d.val) s
      cases e with
      | present =>
        simp only at h
        split at h
        · simp at h
        · simp only [Except.ok.injEq] at h
          subst h
          exact ⟨a1, BMap.sorted_insert _ _ hs', _, d, rfl, a2, a3, by simp, fun t ht => by
            show BMap.get t (BMap.insert _ _ st.byStem) = _
            rw [BMap.get_insert _ _ _ hs', if_neg ht]⟩
      | differentStem =>
        simp only at h
        split at h
        · simp at h
        · rename_i other _
          split at h
          · simp at h
          · simp only [Except.ok.injEq] at h
            subst h
            obtain ⟨b1, b2, b3⟩ := mem_addStem a1 (s.1.take d.val) other
            exact ⟨b1, BMap.sorted_insert _ _ hs', _, d, rfl, b3 _ _ a2, fun q t ht => b3 _ _ (a3 q t ht), by simp, fun t ht => by
              show BMap.get t (BMap.insert _ _ st.byStem) = _
              rw [BMap.get_insert _ _ _ hs', if_neg ht]⟩
      | none =>
        simp only [Except.ok.injEq] at h
        subst h
        exact ⟨a1, hs', _, d, rfl, a2, a3, fun _ => rfl, fun t _ => rfl⟩

/-- A written stem claimed to belong to an empty place gets no commitment. -/
theorem stemLoop_ok [DecidableEq G] {s : Stem} {d : Byte} (hg : BMap.get s uh.depthsAndExt = some (.none, d)) :
    ∀ (us : BMap Stem SuffixUpdate) {st st' : StemState F G}, BMap.Sorted st.byPrefix → BMap.Sorted st.byStem →
      BMap.get s st.byStem = none → (s ∈ us.map Prod.fst ∨ s ∈ stemsAt st.byPrefix (s.1.take d.val)) →
      stemLoop C uh us st = .ok (.ok st') →
      BMap.Sorted st'.byPrefix ∧ BMap.get s st'.byStem = none ∧ s ∈ stemsAt st'.byPrefix (s.1.take d.val)
  | [], st, st', h1, _, h3, h4, h => by
    simp only [stemLoop, Except.ok.injEq] at h
    subst h
    exact ⟨h1, h3, by simpa using h4⟩
  | (t, u) :: us, st, st', h1, h2, h3, h4, h => by
    simp only [stemLoop, bind, Except.bind] at h
    cases hk : stemStep C uh t u st with
    | error m => rw [hk] at h; simp at h
    | ok o =>
      rw [hk] at h
      cases o with
      | error e => simp at h
      | ok st1 =>
        simp only at h
        obtain ⟨a1, a2, e, d', a3, a4, a5, a6, a7⟩ := stemStep_ok h1 h2 hk
        refine stemLoop_ok hg us a1 a2 ?_ ?_ h
        · by_cases hts : s = t
          · subst hts
            rw [hg] at a3
            simp only [Option.some.injEq, Prod.mk.injEq] at a3
            rw [a6 a3.1.symm, h3]
          · rw [a7 s hts, h3]
        · rcases h4 with h4 | h4
          · rcases List.mem_cons.1 h4 with rfl | h4
            · rw [hg] at a3
              simp only [Option.some.injEq, Prod.mk.injEq] at a3
              rw [a3.2]
              exact Or.inr a4
            · exact Or.inl h4
          · exact Or.inr (a5 _ _ h4)

theorem prefixLoop_ok {comms : BMap Path G} {byStem : BMap Stem (G × F)} {ord : Path → List Stem → List Stem} :
    ∀ (bp : BMap Path (List Stem)) {t t' : SparseTree G}, prefixLoop C comms byStem ord bp t = .ok t' →
      ∀ e ∈ bp, ∃ y, prefixHash C comms byStem ord e.1 e.2 = .ok y
  | [], _, _, _, _, he => by cases he
  | (p, l) :: bp, t, t', h, e, he => by
    simp only [prefixLoop, bind, Except.bind] at h
    split at h
    · simp at h
    · rename_i y hy
      rcases List.mem_cons.1 he with rfl | he
      · exact ⟨y, hy⟩
      · split at h
        · simp at h
        · split at h
          · simp at h
          · exact prefixLoop_ok bp h e he

theorem prefixHash_missing {comms : BMap Path G} {byStem : BMap Stem (G × F)} {ord : Path → List Stem → List Stem}
    (hord : ∀ p l, (ord p l).Perm l) {p : Path} {l : List Stem} {s : Stem} (hs : s ∈ l) (h1 : BMap.get s byStem = none)
    (h2 : BMap.get p comms = none) (y : F) : prefixHash C comms byStem ord p l ≠ .ok y := by
  intro h
  unfold prefixHash at h
  simp only [bind, Except.bind] at h
  split at h
  · rename_i hl
    obtain ⟨a, rfl⟩ := List.length_eq_one_iff.1 hl
    obtain rfl := List.mem_singleton.1 hs
    rw [List.perm_singleton.1 (hord p [s])] at h
    simp [unwrap, h1] at h
  · split at h
    · simp at h
    · rename_i es hes
      obtain ⟨x, _, hx⟩ := (mapM_mem hes).1 s ((hord p l).mem_iff.2 hs)
      simp [h1, h2, unwrap, bind, Except.bind] at hx

/-- The updater returns no root if a written stem is recorded as belonging to an empty place. -/
theorem updateRoot_missing [DecidableEq G] {ord : Path → List Stem → List Stem} (hord : ∀ p l, (ord p l).Perm l)
    {keys : List Key} {values updated : List (Option Value)} {root r : G}
    (h : updateRoot C ord uh keys values updated root = .ok (.ok r)) {s : Stem} {d : Byte}
    (hs : s ∈ (collectUpdates ((keys.zip values).zip updated) []).map Prod.fst)
    (hg : BMap.get s uh.depthsAndExt = some (.none, d)) (hno : BMap.get (s.1.take d.val) uh.commsByPath = none) : False := by
  unfold updateRoot at h
  split at h
  · simp at h
  split at h
  · simp at h
  split at h
  · simp at h
  simp only [bind, Except.bind] at h
  split at h
  · simp at h
  · split at h
    · simp at h
    · rename_i st hst
      split at h
      · simp at h
      · rename_i t ht
        obtain ⟨a1, a2, a3⟩ := stemLoop_ok (st := ⟨[], []⟩) hg _ List.Pairwise.nil List.Pairwise.nil rfl (Or.inl hs) hst
        unfold stemsAt at a3
        cases hp : BMap.get (s.1.take d.val) st.byPrefix with
        | none => rw [hp] at a3; simp at a3
        | some l =>
          rw [hp] at a3
          obtain ⟨y, hy⟩ := prefixLoop_ok _ ht _ ((BMap.get_eq_some_iff a1).1 hp)
          exact prefixHash_missing hord a3 a2 hno y hy

end

theorem mem_collectUpdates {s : Stem} : ∀ (l : List ((Key × Option Value) × Option Value)) {us : BMap Stem SuffixUpdate},
    BMap.Sorted us → (BMap.get s us ≠ none ∨ ∃ k o v, ((k, o), some v) ∈ l ∧ k.stem = s) →
    s ∈ (collectUpdates l us).map Prod.fst
  | [], us, _, h => by
    rw [collectUpdates, BMap.mem_keys_iff]
    simpa using h
  | ((k, o), none) :: l, us, hs, h => by
    rw [collectUpdates]
    apply mem_collectUpdates l hs
    simpa using h
  | ((k, o), some v) :: l, us, hs, h => by
    rw [collectUpdates]
    apply mem_collectUpdates l (BMap.sorted_insert _ _ hs)
    rw [BMap.get_insert _ _ _ hs]
    by_cases hk : s = k.stem
    · exact Or.inl (by simp [hk])
    · rw [if_neg hk]
      rcases h with h | ⟨k', o', v', h, rfl⟩
      · exact Or.inl h
      · rcases List.mem_cons.1 h with h | h
        · simp only [Prod.mk.injEq] at h
          exact absurd (by rw [h.1.1]) hk
        · exact Or.inr ⟨k', o', v', h, rfl⟩

theorem applyAll_mem (k : Key) : ∀ (l : List (Key × Value)) {m : KV}, applyAll m l k ≠ none → m k ≠ none ∨ ∃ v, (k, v) ∈ l
  | [], _, h => Or.inl h
  | (a, v) :: l, m, h => by
    rcases applyAll_mem k l h with h | ⟨w, h⟩
    · by_cases hk : k = a
      · exact Or.inr ⟨v, by simp [hk]⟩
      · rw [Function.update_of_ne hk] at h
        exact Or.inl h
    · exact Or.inr ⟨w, by simp [h]⟩

/-- The triples of a request. -/
theorem mem_triple {k : Key} {w : Option Value} :
    ∀ {keys : List Key} {values updated : List (Option Value)}, keys.length = values.length → (k, w) ∈ keys.zip updated →
      ∃ o, ((k, o), w) ∈ (keys.zip values).zip updated
  | [], _, _, _, h => by simp at h
  | _ :: _, [], _, hl, _ => by simp at hl
  | _ :: _, _ :: _, [], _, h => by simp at h
  | a :: keys, b :: values, c :: updated, hl, h => by
    simp only [List.zip_cons_cons, List.mem_cons, Prod.mk.injEq] at h ⊢
    rcases h with ⟨rfl, rfl⟩ | h
    · exact ⟨b, Or.inl ⟨⟨rfl, rfl⟩, rfl⟩⟩
    · obtain ⟨o, ho⟩ := mem_triple (values := values) (by simpa using hl) h
      exact ⟨o, Or.inr ho⟩

theorem mem_outer {α β γ : Type} : ∀ {l : List α} {l' : List β} {l'' : List γ} {a b c},
    ((a, b), c) ∈ (l.zip l').zip l'' → (a, c) ∈ l.zip l''
  | [], _, _, _, _, _, h => by simp at h
  | _ :: _, [], _, _, _, _, h => by simp at h
  | _ :: _, _ :: _, [], _, _, _, h => by simp at h
  | x :: l, y :: l', z :: l'', a, b, c, h => by
    simp only [List.zip_cons_cons, List.mem_cons, Prod.mk.injEq] at h ⊢
    rcases h with ⟨⟨rfl, rfl⟩, rfl⟩ | h
    · exact Or.inl ⟨rfl, rfl⟩
    · exact Or.inr (mem_outer h)

/-- The updater on an accepted proof: if it returns a root, the old values of the written keys are the stored ones, and the
root is that of the updated map. -/
theorem updateRoot_accepted [DecidableEq G] (hF : BigField F) {C : Crypto F G} {m : KV} {W : G → Byte → F}
    {hint : VerificationHint} {comms : List G} {keys : List Key} {values updated : List (Option Value)}
    {qs : List (VerifierQuery F G)} {uh : UpdateHint G}
    (hq : createVerifierQueries C hint comms keys values (branchComm C m []) = .ok (some (qs, uh)))
    (hlen : keys.length = values.length) (hc : ∀ k v, (k, some v) ∈ keys.zip updated → ConsistentAt hint keys k.stem)
    (hW : Extracts C W qs) (hnb : ¬ ProofBreak C m W qs) {ord : Path → List Stem → List Stem} (hord : ∀ p l, (ord p l).Perm l) {r : G}
    (h : updateRoot C ord uh keys values updated (branchComm C m []) = .ok (.ok r)) :
    r = branchComm C (applyAll m (writes keys updated)) [] ∧
      ∀ k o v, ((k, o), some v) ∈ (keys.zip values).zip updated → o = m k := by
  have hnd : keys.Nodup := by
    by_contra hn
    unfold updateRoot at h
    simp only [hn, not_false_eq_true, if_true] at h
    split at h
    · simp at h
    · split at h <;> simp at h
  have hl1 : ¬ usizeNot keys.length = updated.length := by
    intro hn
    unfold updateRoot at h
    rw [← hlen, if_pos hn] at h
    simp at h
  rcases keys with _ | ⟨k0, keys'⟩
  · obtain rfl : values = [] := by simpa using hlen.symm
    refine ⟨?_, by simp⟩
    unfold updateRoot at h
    rw [if_neg (by simpa using hl1), if_neg (by simpa using hl1), if_neg (by simp)] at h
    simp only [List.zip_nil_left, collectUpdates, stemLoop, bind, Except.bind, prefixLoop, Except.ok.injEq] at h
    rw [← h]
    rfl
  obtain ⟨st, hR, hO, hdep, hoth, hkl⟩ := openings_of hF hq hlen hW (k := k0) (by simp)
  generalize k0 :: keys' = keys at *
  have hI : OInv hint (hintByStem hint (stemsOf keys)) (stemsWithExtension hint (stemsOf keys)) (keys.zip values) st := by
    have := keyLoop_other (keys.zip values) (kvs := []) (sinv_empty hint _ _)
      ⟨List.Pairwise.nil, by simp [BMap.get], by rintro k v d ⟨h, _⟩; cases h⟩ hkl
    simpa using this
  have H := hintFor_accepted hF hnb hR (fun _ _ _ h h' => zip_functional hnd h' h) hO rfl hdep hoth hI
  have hcz : ∀ {k o v}, ((k, o), some v) ∈ (keys.zip values).zip updated → ConsistentAt hint keys k.stem :=
    fun hm => hc _ _ (mem_outer hm)
  -- a written key was claimed with a stem
  have hst : ∀ k o v, ((k, o), some v) ∈ (keys.zip values).zip updated → ∀ d, ¬ HintEntry hint keys k.stem .none d := by
    intro k o v hm d he
    obtain ⟨b, hb, hg⟩ := entry_get he
    have hcl : IsClaim (hintByStem hint (stemsOf keys)) (keys.zip values) k o .none d := ⟨(List.of_mem_zip hm).1, b, hb, hg⟩
    refine updateRoot_missing hord h (s := k.stem) (d := b) (mem_collectUpdates _ List.Pairwise.nil (Or.inr ⟨k, o, v, hm, rfl⟩))
      (by rw [hdep]; exact hg) ?_
    cases hgc : BMap.get (k.stem.1.take b.val) uh.commsByPath with
    | none => rfl
    | some c => exact absurd (hO.mem _ _ hgc) (by rw [hb]; exact hR.paths_empty (hcz hm) hcl)
  have hv : ∀ k o v, ((k, o), some v) ∈ (keys.zip values).zip updated → o = m k := by
    intro k o v hm
    rcases claims_true hF hq hlen hW hnb (List.of_mem_zip hm).1
      ⟨fun _ h' => zip_functional hnd h' (List.of_mem_zip hm).1, hcz hm⟩ with h1 | ⟨_, d, hd, _⟩
    · exact h1
    · exact absurd hd (hst k o v hm d)
  have hU : ∀ k, applyAll emptyKV (writes keys updated) k ≠ none → k ∈ keys ∧ ConsistentAt hint keys k.stem ∧
      ∀ d, ¬ HintEntry hint keys k.stem .none d := by
    intro k hk
    obtain ⟨v, hv⟩ := (applyAll_mem k _ hk).resolve_left (by simp [emptyKV])
    have hm : (k, some v) ∈ keys.zip updated := by
      unfold writes at hv
      rw [List.mem_filterMap] at hv
      obtain ⟨⟨a, o⟩, h1, h2⟩ := hv
      cases o with
      | none => simp at h2
      | some w =>
        simp only [Option.map_some, Option.some.injEq, Prod.mk.injEq] at h2
        obtain ⟨rfl, rfl⟩ := h2
        exact h1
    obtain ⟨o, ho⟩ := mem_triple (values := values) hlen hm
    exact ⟨(List.of_mem_zip hm).1, hc k v hm, hst k o v ho⟩
  refine ⟨?_, hv⟩
  obtain ⟨r1, r2⟩ := updateRoot_for H hord hnd hlen hl1 hv hU
  rw [nodeComm_branch (Or.inl rfl)] at r1 r2
  by_cases hall : ∀ s, HasStem (applyAll emptyKV (writes keys updated)) s → Occupied m (termPath m s)
  · rw [r1 hall] at h
    simpa using h.symm
  · push Not at hall
    rw [r2 hall] at h
    simp at h

end Verif.Proof
