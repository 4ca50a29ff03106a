import Verif.Proof.UpdateSound
import Verif.Props.Sound
import Verif.Props.Updater

/-!
# Accepted proofs and the stateless updater: C63
-/

set_option autoImplicit false

namespace Verif.Props
open Verif.Spec Verif.Trie Verif.Proof BOrd
open scoped Classical

variable {F G : Type} [Field F] [AddCommGroup G] [Module F G]

/-! ### An accepted proof with a true claim that makes the updater drop a value -/

/-- Another key with the stem of `soloKey`. -/
def sibKey : Key := keyOf [1, 9] 6

theorem sib_stem : sibKey.stem = soloKey.stem := by decide

theorem lastWrite_append (l l' : List (Key × Value)) : lastWrite (l ++ l') = applyAll (lastWrite l) l' := by
  rw [← applyAll_eq, applyAll_append, applyAll_eq]

/-- The root of a trie with values under the stem of `soloKey` only. -/
theorem one_root (C : Crypto F G) {k : Key} (hk : k.stem = soloKey.stem) (v : Value) :
    branchComm C (lastWrite [(k, v)]) [] = C.scalarMul (C.h (stemComm C (lastWrite [(k, v)]) soloKey.stem)) 1 := by
  have hu : ∀ p s, Under (lastWrite [(k, v)]) p s → s = soloKey.stem := by
    rintro p s ⟨h, _⟩
    obtain ⟨x, hx, rfl⟩ := (hasStem_iff _ _).1 h
    rw [List.mem_singleton.1 hx]
    exact hk
  have hm : ∀ p, ¬ Many (lastWrite [(k, v)]) p := fun p ⟨s, t, hne, hs, ht⟩ => hne ((hu p s hs).trans (hu p t ht).symm)
  have h1 : Under (lastWrite [(k, v)]) [1] soloKey.stem :=
    ⟨(hasStem_iff _ _).2 ⟨_, List.mem_singleton.2 rfl, hk⟩, by decide⟩
  rw [branchComm_eq C _ _ (by simp), Finset.sum_eq_single (1 : Byte)]
  · rw [List.nil_append, childHash_single (hm _) h1]
    rfl
  · intro b _ hb
    rw [childHash_none, zero_smul]
    intro s hs
    have := hu _ _ hs
    subst this
    have h2 := hs.2
    rw [List.nil_append, show soloKey.stem.1 = 1 :: soloKey.stem.1.tail by decide, List.cons_prefix_cons] at h2
    exact hb h2.1
  · simp

/-- What the updater puts in the place of the stem. -/
theorem sib_stemComm (C : Crypto F G) (v : Value) :
    (newSuffixes C [(sibKey.suffix, none, v)] (0, 0)).map (newStemComm C soloKey.stem) =
      some (stemComm C (lastWrite [(sibKey, v)]) soloKey.stem) := by
  have hsort : BMap.Sorted [(sibKey.suffix, ((none : Option Value), v))] := by
    show List.Pairwise _ _
    exact List.pairwise_singleton _ _
  have hg : ∀ b, BMap.get b [(sibKey.suffix, ((none : Option Value), v))] =
      ((lastWrite [(sibKey, v)]) (mkKey soloKey.stem b)).map fun v => (emptyKV (mkKey soloKey.stem b), v) := by
    intro b
    by_cases hb : b = sibKey.suffix
    · subst hb
      rw [← sib_stem, mkKey_stem_suffix]
      rfl
    · have h1 : ¬ mkKey soloKey.stem b = sibKey := by
        rw [← mkKey_stem_suffix sibKey, sib_stem, mkKey_inj]
        exact fun h => hb h.2
      have h2 : lastWrite [(sibKey, v)] (mkKey soloKey.stem b) = none := by
        simp [lastWrite, Ne.symm h1]
      rw [h2, Option.map_none]
      cases hget : BMap.get b [(sibKey.suffix, ((none : Option Value), v))] with
      | none => rfl
      | some x =>
        have := (BMap.get_eq_some_iff hsort).1 hget
        simp only [List.mem_singleton, Prod.mk.injEq] at this
        exact absurd this.1 hb
  have hov : overlay emptyKV (lastWrite [(sibKey, v)]) = lastWrite [(sibKey, v)] := by
    funext k
    simp [overlay, emptyKV]
  have h := newSuffixes_spec (F := F) (G := G) (m := emptyKV) (U := lastWrite [(sibKey, v)]) (s := soloKey.stem)
    (u := [(sibKey.suffix, none, v)]) hsort hg C (fun ⟨b, hb⟩ => hb rfl)
  rw [h, hov, Option.map_some, Option.some.injEq]
  unfold newStemComm sparseCommit stemComm Crypto.scalarMul frLe
  simp only [List.foldl_cons, List.foldl_nil, zero_add]

/-- The proof that names the key's own stem as the other stem in its way: every opening is true, and so is the claim that
`sibKey` is absent. -/
theorem sib_accepted (C : Crypto F G) (O : Opener F G) (hO : CompleteOpener C O) :
    ∃ p, p.hint = ⟨[1], [.differentStem], [soloKey.stem]⟩ ∧
      check C O p [sibKey] [none] (branchComm C (lastWrite soloHist) []) = .ok (true, some
        ⟨[(soloKey.stem, (.differentStem, 1))], [([], branchComm C (lastWrite soloHist) []),
          ([1], stemComm C (lastWrite soloHist) soloKey.stem)], [([1], soloKey.stem)]⟩) := by
  refine accept_hint hO (hint := ⟨[1], [.differentStem], [soloKey.stem]⟩)
    (comms := [stemComm C (lastWrite soloHist) soloKey.stem]) (keys := [sibKey]) (values := [none])
    (root := branchComm C (lastWrite soloHist) [])
    (qs := [vecQuery C (branchVec C (lastWrite soloHist) []) 1, vecQuery C (stemVec C (lastWrite soloHist) soloKey.stem) 0,
      vecQuery C (stemVec C (lastWrite soloHist) soloKey.stem) 1]) (by simp)
    (by
      intro q hq
      simp only [List.mem_cons, List.not_mem_nil, or_false] at hq
      rcases hq with rfl | rfl | rfl <;> exact vecQuery_true _ _ _)
    (by
      simp only [List.map_cons, List.map_nil, vecQuery, ProverQuery.toVerifier]
      rw [solo_child, ← branchComm_eq_commit _ _ _ (by simp), ← stemComm_eq_commit]
      generalize branchComm C (lastWrite soloHist) [] = r
      generalize stemComm C (lastWrite soloHist) soloKey.stem = c
      have e0 : stemVec C (lastWrite soloHist) soloKey.stem 0 = 1 := rfl
      have e1 : stemVec C (lastWrite soloHist) soloKey.stem 1 = frLe F soloKey.stem.1 := rfl
      rw [e0, e1]
      rfl)

/-- The updater's answer for that proof. -/
theorem sib_update [DecidableEq G] (C : Crypto F G) {ord : Path → List Stem → List Stem} (hord : ∀ p l, (ord p l).Perm l)
    (r c : G) (v : Value) :
    updateRoot C ord ⟨[(soloKey.stem, (.differentStem, 1))], [([], r), ([1], c)], [([1], soloKey.stem)]⟩ [sibKey] [none]
      [some v] r = .ok (.ok (r + C.scalarMul (C.h (stemComm C (lastWrite [(sibKey, v)]) soloKey.stem) - C.h c) 1)) := by
  obtain ⟨cc, h1, h2⟩ := Option.map_eq_some_iff.1 (sib_stemComm C v)
  have hs : collectUpdates (([sibKey].zip [none]).zip [some v]) [] = [(soloKey.stem, [(sibKey.suffix, none, v)])] := rfl
  have ho : ord [1] [soloKey.stem] = [soloKey.stem] := List.perm_singleton.1 (hord _ _)
  have hst : stemStep C ⟨[(soloKey.stem, (.differentStem, 1))], [([], r), ([1], c)], [([1], soloKey.stem)]⟩ soloKey.stem
      [(sibKey.suffix, none, v)] ⟨[], []⟩ = .ok (.ok ⟨[([1], [soloKey.stem])], [(soloKey.stem,
        (stemComm C (lastWrite [(sibKey, v)]) soloKey.stem, C.h (stemComm C (lastWrite [(sibKey, v)]) soloKey.stem)))]⟩) := by
    rw [← h2]
    have hd : BMap.get soloKey.stem [(soloKey.stem, (ExtPresent.differentStem, (1 : Byte)))] = some (.differentStem, 1) := rfl
    simp only [stemStep, hd, unwrap, bind, Except.bind, h1]
    rfl
  unfold updateRoot
  simp only [List.length_singleton]
  rw [if_neg (usizeNot_ne _), if_neg (usizeNot_ne _), if_neg (by simp), hs]
  simp only [stemLoop, hst, bind, Except.bind]
  have hpre : prefixHash C [([], r), ([1], c)] [(soloKey.stem, (stemComm C (lastWrite [(sibKey, v)]) soloKey.stem,
      C.h (stemComm C (lastWrite [(sibKey, v)]) soloKey.stem)))] ord [1] [soloKey.stem] =
      .ok (C.h (stemComm C (lastWrite [(sibKey, v)]) soloKey.stem)) := by
    unfold prefixHash
    rw [ho]
    rfl
  simp only [prefixLoop, hpre, bind, Except.bind]
  rfl

section
variable [DecidableEq F] [DecidableEq G]

/-- An accepted proof whose openings and claimed old value are all true, and whose update is wrong: a new value under the stem
of `soloKey` replaces the whole stem, so the returned root is that of the trie holding nothing but the new value.  It is also
the root of the updated trie only if the commitment scheme is broken. -/
theorem C63_update_drops_value (hF : BigField F) (C : Crypto F G) (O : Opener F G) (hO : CompleteOpener C O)
    {ord : Path → List Stem → List Stem} (hord : ∀ p l, (ord p l).Perm l) (v : Value) :
    ∃ db root p uh db₁ db₂ r, build C soloHist = .ok db ∧ Trie.rootCommitment db = .ok root ∧
      Trie.get db soloKey = some (valOf 7) ∧ Trie.get db sibKey = none ∧
      check C O p [sibKey] [none] root = .ok (true, some uh) ∧
      verifyAndUpdate C O ord p root [sibKey] [none] [some v] = .ok (.ok r) ∧
      build C [(sibKey, v)] = .ok db₁ ∧ Trie.rootCommitment db₁ = .ok r ∧ Trie.get db₁ soloKey = none ∧
      Trie.insert C db [(sibKey, v)] = .ok db₂ ∧ Trie.get db₂ soloKey = some (valOf 7) ∧
      (Trie.rootCommitment db₂ = .ok r → Broken C (lastWrite [(sibKey, v)]) (lastWrite (soloHist ++ [(sibKey, v)]))) := by
  obtain ⟨p, _, hp⟩ := sib_accepted C O hO
  have hb2 := build_eq C (soloHist ++ [(sibKey, v)])
  refine ⟨_, _, p, _, _, specDb C (lastWrite (soloHist ++ [(sibKey, v)])), _, build_eq C soloHist, rootCommitment_spec _ _, rfl, rfl, hp, ?_, build_eq C [(sibKey, v)],
    rootCommitment_spec _ _, rfl, ?_, ?_, fun h => ?_⟩
  · simp only [verifyAndUpdate, hp, bind, Except.bind, Bool.true_eq_false, if_false, unwrap]
    rw [sib_update C hord, one_root C sib_stem, soloHist, one_root C rfl]
    simp only [Crypto.scalarMul]
    rw [← add_smul, add_sub_cancel]
  · rw [insert_spec, lastWrite_append]
  · rfl
  · rcases C09_root_binds_map hF C _ _ (build_eq C [(sibKey, v)]) hb2 (Or.inl (by rw [rootCommitment_spec, h])) with h1 | h1
    · exact absurd (h1 soloKey) (by
        show (none : Option Value) ≠ some (valOf 7)
        simp)
    · exact h1

omit [DecidableEq F] [DecidableEq G] in
theorem negCrypto_not_broken (m m' : KV) : ¬ Broken negCrypto m m' := by
  rintro (⟨v, w, _, _, hne, h⟩ | ⟨x, y, _, _, hne, h⟩ | ⟨x, _, h⟩)
  · rw [negCrypto_commit, negCrypto_commit] at h; exact hne h
  · exact hne (negCrypto_h_inj h)
  · exact negCrypto_not_nat (by rw [h]; exact one_ne_zero) 1 (by rw [h]; simp)

/-- C63 is false: with parameters that have no break at all, a complete and sound opening argument and a true claim, the updater
returns a root other than that of the updated trie. -/
theorem C63_full_claim_false {ord : Path → List Stem → List Stem} (hord : ∀ p l, (ord p l).Perm l) :
    ∃ db root p db₂ root₂ r, build negCrypto soloHist = .ok db ∧ Trie.rootCommitment db = .ok root ∧
      (∀ qs, lookupOpener.check p.proof qs = .ok true → Extracts negCrypto id qs) ∧
      (∀ qs, ¬ ProofBreak negCrypto (lastWrite soloHist) id qs) ∧
      Trie.get db sibKey = none ∧
      verifyAndUpdate negCrypto lookupOpener ord p root [sibKey] [none] [some (valOf 3)] = .ok (.ok r) ∧
      Trie.insert negCrypto db [(sibKey, valOf 3)] = .ok db₂ ∧ Trie.rootCommitment db₂ = .ok root₂ ∧ r ≠ root₂ := by
  obtain ⟨db, root, p, uh, db₁, db₂, r, h1, h2, _, h4, _, h6, _, _, _, h10, h11, h12⟩ :=
    C63_update_drops_value bigField_rat negCrypto lookupOpener lookupOpener_complete hord (valOf 3)
  obtain ⟨root₂, hr2⟩ : ∃ x, Trie.rootCommitment db₂ = .ok x := by
    rw [build_iff] at h1
    subst h1
    rw [insert_spec] at h10
    rw [← Except.ok.inj h10]
    exact ⟨_, rootCommitment_spec _ _⟩
  refine ⟨db, root, p, db₂, root₂, r, h1, h2, fun qs h => ?_, negCrypto_no_break _, h4, h6, h10, hr2, fun e => ?_⟩
  · have h : Except.ok (decide (Extracts negCrypto id qs)) = (Except.ok true : Res Bool) := h
    simpa using h
  · exact negCrypto_not_broken _ _ (h12 (by rw [hr2, e]))

/-! ### What an accepted proof does guarantee -/

/-- C63 (partial).  Suppose the updater returns a root for any proof at all, one old value per key, with a hint that is
consistent at the stems of the written keys, and from the accepted opening argument a vector can be extracted for each commitment.  Then either the commitment scheme is
explicitly broken, or the old values of the written keys are the stored ones and the returned root is the root of the trie
after inserting the new values.  The hypothesis on the hint is needed: `C63_update_drops_value`. -/
theorem C63_accepted_update_partial (hF : BigField F) (C : Crypto F G) (O : Opener F G)
    {ord : Path → List Stem → List Stem} (hord : ∀ p l, (ord p l).Perm l) (l : List (Key × Value))
    {db : MemoryDb F G} (hb : build C l = .ok db) {root : G} (hr : Trie.rootCommitment db = .ok root)
    (p : VerkleProof G O.Pf) (keys : List Key) (values updated : List (Option Value)) {r : G}
    (hacc : verifyAndUpdate C O ord p root keys values updated = .ok (.ok r)) (hlen : keys.length = values.length)
    (hc : ∀ k v, (k, some v) ∈ keys.zip updated → ConsistentAt p.hint keys k.stem) (W : G → Byte → F)
    (hW : CheckExtracts C W p keys values root) :
    CheckBreak C (lastWrite l) W p keys values root ∨
    ((∀ k o v, ((k, o), some v) ∈ (keys.zip values).zip updated → Trie.get db k = o) ∧
      ∃ db', Trie.insert C db (writes keys updated) = .ok db' ∧ Trie.rootCommitment db' = .ok r) := by
  rw [build_iff] at hb
  subst hb
  rw [rootCommitment_spec] at hr
  have hr : branchComm C (lastWrite l) [] = root := by simpa using hr
  subst hr
  by_cases hnb : CheckBreak C (lastWrite l) W p keys values (branchComm C (lastWrite l) [])
  · exact Or.inl hnb
  refine Or.inr ?_
  simp only [verifyAndUpdate, check, bind, Except.bind] at hacc
  cases hq : createVerifierQueries C p.hint p.comms keys values (branchComm C (lastWrite l) []) with
  | error e => rw [hq] at hacc; simp at hacc
  | ok o =>
    rw [hq] at hacc
    cases o with
    | none => simp at hacc
    | some x =>
      obtain ⟨qs, uh⟩ := x
      simp only at hacc
      cases hck : O.check p.proof qs with
      | error e => rw [hck] at hacc; simp at hacc
      | ok b =>
        rw [hck] at hacc
        cases b with
        | false => simp at hacc
        | true =>
          simp only [Bool.true_eq_false, if_false, unwrap] at hacc
          obtain ⟨h1, h2⟩ := updateRoot_accepted hF hq hlen hc (hW _ _ hq) (fun h => hnb ⟨qs, uh, hq, h⟩) hord hacc
          refine ⟨fun k o v h => (h2 k o v h).symm, _, insert_spec _ _ _, ?_⟩
          rw [rootCommitment_spec, h1]

end

/-- The updater answers for the honest proof of `soloKey`. -/
theorem solo_update [DecidableEq G] (C : Crypto F G) (r c c' : G) (v : Value) :
    ∃ x, updateRoot C (fun _ l => l) ⟨[(soloKey.stem, (.present, 1))], [([], r), ([1], c), ([1, 2], c')], []⟩ [soloKey]
      [some (valOf 7)] [some v] r = .ok (.ok x) := by
  have hs : collectUpdates (([soloKey].zip [some (valOf 7)]).zip [some v]) [] =
    [(soloKey.stem, [(soloKey.suffix, some (valOf 7), v)])] := rfl
  have hd : BMap.get soloKey.stem [(soloKey.stem, (ExtPresent.present, (1 : Byte)))] = some (.present, 1) := rfl
  have hp : soloKey.stem.1.take 1 = [1] := rfl
  obtain ⟨y, hy⟩ : ∃ y, presentComm C [([], r), ([1], c), ([1, 2], c')] [1] [(soloKey.suffix, some (valOf 7), v)] = .ok y := by
    have h0 : (suffixDeltas C [(soloKey.suffix, some (valOf 7), v)]).2 = 0 := rfl
    have h1 : ∀ d : G, ∃ z, hashDelta C [([], r), ([1], c), ([1, 2], c')] ([1] ++ [2]) d = .ok z := by
      intro d
      unfold hashDelta
      split_ifs
      · exact ⟨_, rfl⟩
      · exact ⟨_, rfl⟩
    obtain ⟨z, hz⟩ := h1 (suffixDeltas C [(soloKey.suffix, some (valOf 7), v)]).1
    have h2 : hashDelta C [([], r), ([1], c), ([1, 2], c')] ([1] ++ [3]) 0 = .ok 0 := by simp [hashDelta]
    simp only [presentComm, hz, h0, h2, bind, Except.bind]
    exact ⟨_, rfl⟩
  have hst : stemStep C ⟨[(soloKey.stem, (.present, 1))], [([], r), ([1], c), ([1, 2], c')], []⟩ soloKey.stem
      [(soloKey.suffix, some (valOf 7), v)] ⟨[], []⟩ =
        .ok (.ok ⟨[([1], [soloKey.stem])], [(soloKey.stem, (y, C.h y))]⟩) := by
    have hd1 : ((1 : Byte) : ℕ) = 1 := rfl
    simp only [stemStep, hd, unwrap, bind, Except.bind, hd1, hp, hy]
    rfl
  unfold updateRoot
  simp only [List.length_singleton]
  rw [if_neg (usizeNot_ne _), if_neg (usizeNot_ne _), if_neg (by simp), hs]
  simp only [stemLoop, hst, bind, Except.bind]
  exact ⟨_, rfl⟩

/-- The hypotheses of `C63_accepted_update_partial` can all hold, without a break and with a root that changes. -/
example : ∃ db root p r, BigField ℚ ∧ build negCrypto soloHist = .ok db ∧ Trie.rootCommitment db = .ok root ∧
    verifyAndUpdate negCrypto lookupOpener (fun _ l => l) p root [soloKey] [some (valOf 7)] [some (valOf 8)] = .ok (.ok r) ∧
    HintConsistent p.hint [soloKey] ∧
    CheckExtracts negCrypto id p [soloKey] [some (valOf 7)] root ∧
    (∀ qs, ¬ ProofBreak negCrypto (lastWrite soloHist) id qs) ∧ r ≠ root := by
  obtain ⟨p, hh, hp⟩ := accept_hint lookupOpener_complete (by simp [soloQueries]) (soloQueries_true negCrypto)
    (solo_queries negCrypto)
  obtain ⟨r, hr⟩ := solo_update negCrypto (branchComm negCrypto (lastWrite soloHist) [])
    (stemComm negCrypto (lastWrite soloHist) soloKey.stem) (suffixComm negCrypto (lastWrite soloHist) soloKey.stem 0) (valOf 8)
  have hv : verifyAndUpdate negCrypto lookupOpener (fun _ l => l) p (branchComm negCrypto (lastWrite soloHist) []) [soloKey]
      [some (valOf 7)] [some (valOf 8)] = .ok (.ok r) := by
    simp only [verifyAndUpdate, hp, bind, Except.bind, Bool.true_eq_false, if_false, unwrap, hr]
  have hc : HintConsistent p.hint [soloKey] := hh ▸ solo_consistent
  have hx := lookup_extracts hp
  refine ⟨_, _, p, r, bigField_rat, build_eq _ _, rootCommitment_spec _ _, hv, hc, hx, negCrypto_no_break _, fun e => ?_⟩
  rcases C63_accepted_update_partial bigField_rat negCrypto lookupOpener (fun _ l => List.Perm.refl l) soloHist (build_eq _ _)
    (rootCommitment_spec _ _) p _ _ _ hv rfl (fun _ _ _ => hc.consistentAt _) id hx with ⟨qs, _, _, h⟩ | ⟨_, db', h1, h2⟩
  · exact negCrypto_no_break _ _ h
  · have h3 : build negCrypto (soloHist ++ [(soloKey, valOf 8)]) = .ok db' := by
      rw [insert_spec] at h1
      rw [build_eq, ← h1, lastWrite_append]
      rfl
    rcases C09_root_binds_map bigField_rat negCrypto _ _ (build_eq _ soloHist) h3
      (Or.inl (by rw [rootCommitment_spec, h2, e])) with h4 | h4
    · have h5 := h4 soloKey
      rw [build_iff] at h3
      rw [h3] at h5
      exact absurd h5 (by
        show some (valOf 7) ≠ some (valOf 8)
        decide)
    · exact negCrypto_not_broken _ _ h4

end Verif.Props
