import Verif.Proof.Agree
import Verif.Props.RewindTrie

/-!
# C79: proofs against one root agree

The root may be any element: nothing is known of a trie behind it.
-/

set_option autoImplicit false

namespace Verif.Props
open Verif.Spec Verif.Trie Verif.Proof Verif.Ipa
open scoped Classical

variable {F G : Type} [Field F] [AddCommGroup G] [Module F G]

/-- Claims about one key in two sets of openings against one root. -/
theorem claims_agree_or_pass (hF : BigField F) {C : Crypto F G} {root : G} {W W' : G → Byte → F} {hint hint' : VerificationHint}
    {comms comms' : List G} {keys keys' : List Key} {values values' : List (Option Value)} {qs qs' : List (VerifierQuery F G)}
    {uh uh' : UpdateHint G} (h : createVerifierQueries C hint comms keys values root = .ok (some (qs, uh)))
    (h' : createVerifierQueries C hint' comms' keys' values' root = .ok (some (qs', uh')))
    (hlen : keys.length = values.length) (hlen' : keys'.length = values'.length) (hW : Extracts C W qs) (hW' : Extracts C W' qs')
    (hnb : ¬ PairBreak C W W' qs qs') {k : Key} {v v' : Option Value} (hkv : (k, v) ∈ keys.zip values) (hkv' : (k, v') ∈ keys'.zip values')
    (hud : Undisputed hint keys values k v) (hud' : Undisputed hint' keys' values' k v') (hne : v ≠ v') :
    ∃ e d e' d', HintEntry hint keys k.stem e d ∧ HintEntry hint' keys' k.stem e' d' ∧
      (d < d' ∧ e ≠ .none ∨ d' < d ∧ e' ≠ .none) ∧
      ∃ q ∈ qs, ∃ q' ∈ qs', q'.commitment = q.commitment ∧ W q.commitment = W' q.commitment ∧ W q.commitment 0 = 1 := by
  obtain ⟨st, hR, hO, _⟩ := openings_of hF h hlen hW (List.of_mem_zip hkv).1
  obtain ⟨st', hR', hO', _⟩ := openings_of hF h' hlen' hW' (List.of_mem_zip hkv').1
  obtain ⟨e, d, hcl, _⟩ := hR.inv.ok k v hkv
  obtain ⟨e', d', hcl', _⟩ := hR'.inv.ok k v' hkv'
  refine ⟨e, d, e', d', isClaim_entry hcl, isClaim_entry hcl', ?_⟩
  rcases lt_trichotomy d d' with hd | rfl | hd
  · have he : e ≠ .none := by
      rintro rfl
      have := empty_below hnb hR hO hR' hO' hud.2 hud'.2 hud'.1 hcl hcl' hd
      subst this
      exact hne (by rw [(hR.claimOk hcl).value (by simp), (hR'.claimOk hcl').value (by simp)])
    exact ⟨Or.inl ⟨hd, he⟩, stem_passed hnb hR hO hR' hO' hud.2 hud'.2 hud.1 hcl hcl' he hd⟩
  · exact absurd (claims_agree hF hnb hR hO hR' hO' hud.2 hud'.2 hud.1 hud'.1 hcl hcl').2 hne
  · have he : e' ≠ .none := by
      rintro rfl
      have := empty_below (fun hb => hnb hb.symm) hR' hO' hR hO hud'.2 hud.2 hud.1 hcl' hcl hd
      subst this
      exact hne (by rw [(hR.claimOk hcl).value (by simp), (hR'.claimOk hcl').value (by simp)])
    obtain ⟨q', hq', q, hq, h1, h2, h3⟩ := stem_passed (fun hb => hnb hb.symm) hR' hO' hR hO hud'.2 hud.2 hud'.1 hcl' hcl he hd
    refine ⟨Or.inr ⟨hd, he⟩, q, hq, q', hq', h1.symm, ?_, ?_⟩
    · rw [h1, h2]
    · rw [h1, ← h2]; exact h3

/-- C79.  Suppose two proofs are accepted against the same root, which may be any element, and vectors can be extracted for their
commitments.  Then the commitment scheme is explicitly broken by them, or whenever both make an undisputed claim about a key and
the claims differ, one of the proofs shows a stem at a smaller depth than the other goes to on the path of the key, and both
open the same vector there, with the marker of a stem. -/
theorem C79_claims_agree (hF : BigField F) (C : Crypto F G) (O : Opener F G) (root : G) (p p' : VerkleProof G O.Pf) (keys keys' : List Key)
    (values values' : List (Option Value)) {uh uh' : Option (UpdateHint G)} (hacc : check C O p keys values root = .ok (true, uh))
    (hacc' : check C O p' keys' values' root = .ok (true, uh')) (hlen : keys.length = values.length) (hlen' : keys'.length = values'.length)
    (W W' : G → Byte → F) (hW : CheckExtracts C W p keys values root)
    (hW' : CheckExtracts C W' p' keys' values' root) :
    ∃ qs u qs' u', createVerifierQueries C p.hint p.comms keys values root = .ok (some (qs, u)) ∧
      createVerifierQueries C p'.hint p'.comms keys' values' root = .ok (some (qs', u')) ∧ (PairBreak C W W' qs qs' ∨
    ∀ k v v', (k, v) ∈ keys.zip values → (k, v') ∈ keys'.zip values' → Undisputed p.hint keys values k v →
      Undisputed p'.hint keys' values' k v' → v ≠ v' →
      ∃ e d e' d', HintEntry p.hint keys k.stem e d ∧ HintEntry p'.hint keys' k.stem e' d' ∧
        (d < d' ∧ e ≠ .none ∨ d' < d ∧ e' ≠ .none) ∧
        ∃ q ∈ qs, ∃ q' ∈ qs', q'.commitment = q.commitment ∧ W q.commitment = W' q.commitment ∧ W q.commitment 0 = 1) := by
  obtain ⟨qs, u, hq, hck⟩ := check_queries hacc
  obtain ⟨qs', u', hq', hck'⟩ := check_queries hacc'
  refine ⟨qs, u, qs', u', hq, hq', ?_⟩
  by_cases hnb : PairBreak C W W' qs qs'
  · exact Or.inl hnb
  exact Or.inr fun k v v' hkv hkv' hud hud' hne =>
    claims_agree_or_pass hF hq hq' hlen hlen' (hW _ _ hq) (hW' _ _ hq') hnb hkv hkv' hud hud' hne

/-- C79: proofs that give the stem of a key the same depth agree about the key. -/
theorem C79_same_depth_agree (hF : BigField F) (C : Crypto F G) (O : Opener F G) (root : G) (p p' : VerkleProof G O.Pf) (keys keys' : List Key)
    (values values' : List (Option Value)) {uh uh' : Option (UpdateHint G)} (hacc : check C O p keys values root = .ok (true, uh))
    (hacc' : check C O p' keys' values' root = .ok (true, uh')) (hlen : keys.length = values.length) (hlen' : keys'.length = values'.length)
    (W W' : G → Byte → F) (hW : CheckExtracts C W p keys values root)
    (hW' : CheckExtracts C W' p' keys' values' root) :
    ∃ qs u qs' u', createVerifierQueries C p.hint p.comms keys values root = .ok (some (qs, u)) ∧
      createVerifierQueries C p'.hint p'.comms keys' values' root = .ok (some (qs', u')) ∧ (PairBreak C W W' qs qs' ∨
    ∀ k v v' e e' d, (k, v) ∈ keys.zip values → (k, v') ∈ keys'.zip values' → Undisputed p.hint keys values k v →
      Undisputed p'.hint keys' values' k v' → HintEntry p.hint keys k.stem e d → HintEntry p'.hint keys' k.stem e' d → v = v') := by
  obtain ⟨qs, u, qs', u', hq, hq', h⟩ := C79_claims_agree hF C O root p p' keys keys' values values' hacc hacc' hlen hlen' W W' hW hW'
  refine ⟨qs, u, qs', u', hq, hq', h.imp_right fun h => ?_⟩
  refine fun k v v' e e' d hkv hkv' hud hud' he he' => ?_
  by_contra hne
  obtain ⟨_, _, _, _, h1, h2, h3, _⟩ := h k v v' hkv hkv' hud hud' hne
  obtain ⟨_, rfl⟩ := entry_unique h1 he
  obtain ⟨_, rfl⟩ := entry_unique h2 he'
  rcases h3 with h3 | h3 <;> exact absurd h3.1 (lt_irrefl _)

/-! ### Proofs at different depths may disagree -/

/-- The hint of a proof that shows the stem of `soloKey`, at any depth. -/
theorem present_consistent (b : Byte) : HintConsistent ⟨[b], [.present], []⟩ [soloKey] := by
  have h : ∀ {s e d}, HintEntry ⟨[b], [.present], []⟩ [soloKey] s e d → s = soloKey.stem ∧ e = .present ∧ d = b.val := by
    rintro s e d ⟨b', rfl, hb⟩
    have hs : stemsOf [soloKey] = [soloKey.stem] := rfl
    simp only [hs, List.zip_cons_cons, List.zip_nil_right, List.mem_singleton, Prod.mk.injEq] at hb
    exact ⟨hb.1.1, hb.2, by rw [hb.1.2]⟩
  refine ⟨fun s t e f c d h1 h2 _ => ?_, fun s t e f c d h1 h2 _ => ?_, fun s d h1 => ?_⟩
  · obtain ⟨rfl, rfl, rfl⟩ := h h1
    obtain ⟨rfl, rfl, rfl⟩ := h h2
    rfl
  · obtain ⟨rfl, rfl, rfl⟩ := h h1
    obtain ⟨rfl, rfl, rfl⟩ := h h2
    exact ⟨Iff.rfl, fun _ _ => rfl⟩
  · exact absurd (h h1).2.1 (by simp)

/-- A stem node of `soloKey` with the value 7, whose entry 9 is the hash of another such node. -/
noncomputable def doubleVec (C : Crypto F G) : Byte → F := fun i =>
  if i = 9 then C.h (stemComm C (lastWrite [(soloKey, valOf 8)]) soloKey.stem) else stemVec C (lastWrite soloHist) soloKey.stem i

/-- A root above it. -/
noncomputable def doubleRoot (C : Crypto F G) : Byte → F := fun i => if i = 1 then C.h (commit C (doubleVec C)) else 0

/-- C79: the condition on the depths is needed.  There is a root, whatever the group, the hash and the opening argument, against
which proofs of two different values of one key are accepted, neither of them disputed. -/
theorem C79_two_values_forged (C : Crypto F G) (O : Opener F G) (hO : CompleteOpener C O) :
    ∃ p p' uh uh', check C O p [soloKey] [some (valOf 7)] (commit C (doubleRoot C)) = .ok (true, some uh) ∧
      check C O p' [soloKey] [some (valOf 8)] (commit C (doubleRoot C)) = .ok (true, some uh') ∧
      Undisputed p.hint [soloKey] [some (valOf 7)] soloKey (some (valOf 7)) ∧
      Undisputed p'.hint [soloKey] [some (valOf 8)] soloKey (some (valOf 8)) := by
  have r1 : doubleRoot C 1 = C.h (commit C (doubleVec C)) := rfl
  have d0 : doubleVec C 0 = 1 := rfl
  have d1 : doubleVec C 1 = frLe F soloKey.stem.1 := rfl
  have d2 : doubleVec C 2 = C.h (suffixComm C (lastWrite soloHist) soloKey.stem 0) := rfl
  have d9 : doubleVec C 9 = C.h (stemComm C (lastWrite [(soloKey, valOf 8)]) soloKey.stem) := rfl
  have e0 : stemVec C (lastWrite [(soloKey, valOf 8)]) soloKey.stem 0 = 1 := rfl
  have e1 : stemVec C (lastWrite [(soloKey, valOf 8)]) soloKey.stem 1 = frLe F soloKey.stem.1 := rfl
  have e2 : stemVec C (lastWrite [(soloKey, valOf 8)]) soloKey.stem 2 = C.h (suffixComm C (lastWrite [(soloKey, valOf 8)]) soloKey.stem 0) := rfl
  have s3 : suffixVec (lastWrite soloHist) soloKey.stem 0 F 10 = (valueHalves F (some (valOf 7))).1 := rfl
  have s4 : suffixVec (lastWrite soloHist) soloKey.stem 0 F 11 = (valueHalves F (some (valOf 7))).2 := rfl
  have t3 : suffixVec (lastWrite [(soloKey, valOf 8)]) soloKey.stem 0 F 10 = (valueHalves F (some (valOf 8))).1 := rfl
  have t4 : suffixVec (lastWrite [(soloKey, valOf 8)]) soloKey.stem 0 F 11 = (valueHalves F (some (valOf 8))).2 := rfl
  obtain ⟨p, hh, hp⟩ := accept_hint hO (hint := ⟨[1], [.present], []⟩)
    (comms := [commit C (doubleVec C), suffixComm C (lastWrite soloHist) soloKey.stem 0]) (keys := [soloKey]) (values := [some (valOf 7)])
    (root := commit C (doubleRoot C))
    (qs := [vecQuery C (doubleRoot C) 1, vecQuery C (doubleVec C) 0, vecQuery C (doubleVec C) 1, vecQuery C (doubleVec C) 2,
      vecQuery C (suffixVec (lastWrite soloHist) soloKey.stem 0 F) 10, vecQuery C (suffixVec (lastWrite soloHist) soloKey.stem 0 F) 11])
    (uh := ⟨[(soloKey.stem, (.present, 1))], [([], commit C (doubleRoot C)), ([1], commit C (doubleVec C)),
      ([1, 2], suffixComm C (lastWrite soloHist) soloKey.stem 0)], []⟩) (by simp)
    (by
      intro q hq
      simp only [List.mem_cons, List.not_mem_nil, or_false] at hq
      rcases hq with rfl | rfl | rfl | rfl | rfl | rfl <;> exact vecQuery_true _ _ _)
    (by
      simp only [List.map_cons, List.map_nil, vecQuery, ProverQuery.toVerifier]
      rw [r1, d0, d1, d2, s3, s4, ← suffixComm_eq_commit]
      generalize commit C (doubleRoot C) = r
      generalize commit C (doubleVec C) = c
      generalize suffixComm C (lastWrite soloHist) soloKey.stem 0 = c'
      rfl)
  obtain ⟨p', hh', hp'⟩ := accept_hint hO (hint := ⟨[2], [.present], []⟩)
    (comms := [commit C (doubleVec C), stemComm C (lastWrite [(soloKey, valOf 8)]) soloKey.stem,
      suffixComm C (lastWrite [(soloKey, valOf 8)]) soloKey.stem 0]) (keys := [soloKey]) (values := [some (valOf 8)])
    (root := commit C (doubleRoot C))
    (qs := [vecQuery C (doubleRoot C) 1, vecQuery C (doubleVec C) 9, vecQuery C (stemVec C (lastWrite [(soloKey, valOf 8)]) soloKey.stem) 0,
      vecQuery C (stemVec C (lastWrite [(soloKey, valOf 8)]) soloKey.stem) 1, vecQuery C (stemVec C (lastWrite [(soloKey, valOf 8)]) soloKey.stem) 2,
      vecQuery C (suffixVec (lastWrite [(soloKey, valOf 8)]) soloKey.stem 0 F) 10, vecQuery C (suffixVec (lastWrite [(soloKey, valOf 8)]) soloKey.stem 0 F) 11])
    (uh := ⟨[(soloKey.stem, (.present, 2))], [([], commit C (doubleRoot C)), ([1], commit C (doubleVec C)),
      ([1, 9], stemComm C (lastWrite [(soloKey, valOf 8)]) soloKey.stem), ([1, 9, 2], suffixComm C (lastWrite [(soloKey, valOf 8)]) soloKey.stem 0)], []⟩) (by simp)
    (by
      intro q hq
      simp only [List.mem_cons, List.not_mem_nil, or_false] at hq
      rcases hq with rfl | rfl | rfl | rfl | rfl | rfl | rfl <;> exact vecQuery_true _ _ _)
    (by
      simp only [List.map_cons, List.map_nil, vecQuery, ProverQuery.toVerifier]
      rw [r1, d9, e0, e1, e2, t3, t4, ← suffixComm_eq_commit, ← stemComm_eq_commit]
      generalize commit C (doubleRoot C) = r
      generalize commit C (doubleVec C) = c
      generalize stemComm C (lastWrite [(soloKey, valOf 8)]) soloKey.stem = c''
      generalize suffixComm C (lastWrite [(soloKey, valOf 8)]) soloKey.stem 0 = c'
      rfl)
  refine ⟨p, p', _, _, hp, hp', ?_, ?_⟩
  · rw [hh]
    exact undisputed (by simp) (present_consistent 1) (by simp)
  · rw [hh']
    exact undisputed (by simp) (present_consistent 2) (by simp)

/-! ### With the multipoint argument -/

section
variable [DecidableEq F] [DecidableEq G]

/-- C79 with the real opening argument: from two families of accepted runs of `check` against one root, with vectors computed from them. -/
theorem C79_rewound_claims_agree (hF : BigField F) (C : Crypto F G) (Q : G) (order : List (ProverQuery F G) → List ℕ) (root : G)
    (hint hint' : VerificationHint) (comms comms' : List G) (keys keys' : List Key) (values values' : List (Option Value))
    (hlen : keys.length = values.length) (hlen' : keys'.length = values'.length)
    {qs qs' : List (VerifierQuery F G)} {uh uh' : UpdateHint G} (hq : createVerifierQueries C hint comms keys values root = .ok (some (qs, uh)))
    (hq' : createVerifierQueries C hint' comms' keys' values' root = .ok (some (qs', uh'))) {m m' : ℕ} (hm : 256 + qs.length ≤ m + 1)
    (hm' : 256 + qs'.length ≤ m' + 1) (X : MultiTree F G qs.length m 8) (X' : MultiTree F G qs'.length m' 8) (hX : X.Distinct 256)
    (hX' : X'.Distinct 256)
    (hacc : ∀ i j u, ∀ p ∈ (X.ipa i j u).leaves, ∃ (O : Oracle F G) (u' : Option (UpdateHint G)),
      drawn O (newTranscript (lbl "vt")) ⟨p.2, X.D i⟩ qs = (X.r i, X.t i j, X.w i j u, p.1) ∧
      check C (multiOpener O C Q order) ⟨hint, comms, ⟨p.2, X.D i⟩⟩ keys values root = .ok (true, u'))
    (hacc' : ∀ i j u, ∀ p ∈ (X'.ipa i j u).leaves, ∃ (O : Oracle F G) (u' : Option (UpdateHint G)),
      drawn O (newTranscript (lbl "vt")) ⟨p.2, X'.D i⟩ qs' = (X'.r i, X'.t i j, X'.w i j u, p.1) ∧
      check C (multiOpener O C Q order) ⟨hint', comms', ⟨p.2, X'.D i⟩⟩ keys' values' root = .ok (true, u')) :
    (∃ ρ ∈ X.rels qs.get 256 ++ X'.rels qs'.get 256, ρ ≠ 0 ∧ ∑ i : Fin 256, ρ.1 i • C.g i + ρ.2 • Q = 0) ∨
    PairBreak C (vecOf qs X) (vecOf qs' X') qs qs' ∨
    ∀ k v v', (k, v) ∈ keys.zip values → (k, v') ∈ keys'.zip values' → Undisputed hint keys values k v →
      Undisputed hint' keys' values' k v' → v ≠ v' →
      ∃ e d e' d', HintEntry hint keys k.stem e d ∧ HintEntry hint' keys' k.stem e' d' ∧
        (d < d' ∧ e ≠ .none ∨ d' < d ∧ e' ≠ .none) ∧
        ∃ q ∈ qs, ∃ q' ∈ qs', q'.commitment = q.commitment ∧ vecOf qs X q.commitment = vecOf qs' X' q.commitment ∧ vecOf qs X q.commitment 0 = 1 := by
  have hD : Ipa.Distinct F 256 := fun i j hi hj h => hF i j (hi.trans (by norm_num)) (hj.trans (by norm_num)) h
  obtain ⟨W, hW, _⟩ := new_good hD (by norm_num)
  rcases rewound_extracts hF C Q (queries_at_bytes hq) hW hm X hX (by
    intro i j u p hp
    obtain ⟨O, uh', h1, h2⟩ := hacc i j u p hp
    obtain ⟨t', h3⟩ := check_checkMulti hq hW h2
    exact ⟨O, _, t', h1, h3⟩) with ⟨ρ, h1, h2⟩ | h
  · exact Or.inl ⟨ρ, List.mem_append_left _ h1, h2⟩
  rcases rewound_extracts hF C Q (queries_at_bytes hq') hW hm' X' hX' (by
    intro i j u p hp
    obtain ⟨O, uh', h1, h2⟩ := hacc' i j u p hp
    obtain ⟨t', h3⟩ := check_checkMulti hq' hW h2
    exact ⟨O, _, t', h1, h3⟩) with ⟨ρ, h1, h2⟩ | h'
  · exact Or.inl ⟨ρ, List.mem_append_right _ h1, h2⟩
  refine Or.inr ?_
  by_cases hnb : PairBreak C (vecOf qs X) (vecOf qs' X') qs qs'
  · exact Or.inl hnb
  exact Or.inr fun k v v' hkv hkv' hud hud' hne => claims_agree_or_pass hF hq hq' hlen hlen' h h' hnb hkv hkv' hud hud' hne

end

/-! ### Concrete cases -/

theorem negCrypto_no_pair_break (qs qs' : List (VerifierQuery ℚ (Byte → ℚ))) : ¬ PairBreak negCrypto id id qs qs' := by
  rintro (⟨v, v', _, _, hne, h⟩ | ⟨x, x', _, _, hne, h⟩)
  · rw [negCrypto_commit, negCrypto_commit] at h; exact hne h
  · exact hne (negCrypto_h_inj h)

/-- The hypotheses of `C79_claims_agree` can all hold, without a break, for claims that differ. -/
example : ∃ root p p' uh uh', BigField ℚ ∧ check negCrypto lookupOpener p [soloKey] [some (valOf 7)] root = .ok (true, some uh) ∧
    check negCrypto lookupOpener p' [soloKey] [some (valOf 8)] root = .ok (true, some uh') ∧
    CheckExtracts negCrypto id p [soloKey] [some (valOf 7)] root ∧ CheckExtracts negCrypto id p' [soloKey] [some (valOf 8)] root ∧
    (∀ qs qs', ¬ PairBreak negCrypto id id qs qs') ∧ Undisputed p.hint [soloKey] [some (valOf 7)] soloKey (some (valOf 7)) ∧
    Undisputed p'.hint [soloKey] [some (valOf 8)] soloKey (some (valOf 8)) := by
  obtain ⟨p, p', uh, uh', h1, h2, h3, h4⟩ := C79_two_values_forged negCrypto lookupOpener lookupOpener_complete
  exact ⟨_, p, p', uh, uh', bigField_rat, h1, h2, lookup_extracts h1, lookup_extracts h2, negCrypto_no_pair_break, h3, h4⟩

/-- The hypotheses of `C79_same_depth_agree` can all hold, without a break. -/
example : ∃ root p uh, BigField ℚ ∧ check negCrypto lookupOpener p [soloKey] [some (valOf 7)] root = .ok (true, some uh) ∧
    CheckExtracts negCrypto id p [soloKey] [some (valOf 7)] root ∧
    (∀ qs qs', ¬ PairBreak negCrypto id id qs qs') ∧ Undisputed p.hint [soloKey] [some (valOf 7)] soloKey (some (valOf 7)) ∧
    HintEntry p.hint [soloKey] soloKey.stem .present 1 := by
  obtain ⟨p, uh, hh, hp⟩ := solo_accepted negCrypto lookupOpener lookupOpener_complete
  refine ⟨_, p, uh, bigField_rat, hp, lookup_extracts hp, negCrypto_no_pair_break, ?_, ?_⟩
  · rw [hh]
    exact undisputed (by simp) solo_consistent (by simp)
  · rw [hh]
    exact ⟨1, rfl, by decide⟩

/-- The families that `C79_rewound_claims_agree` asks for exist over Bandersnatch. -/
noncomputable example (Q : Bander.BElem) :=
  letI := Classical.decEq Bander.BElem
  solo_family C52_scalar_field.1 Bander.crypto Bander.codec Q (fun qs => (qs.map ProverQuery.point).dedup)

end Verif.Props
