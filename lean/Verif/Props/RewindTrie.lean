import Verif.Props.Sound
import Verif.Props.Rewind
import Verif.Props.Concrete

/-!
# Soundness of verification with the real opening argument: C21

`C21_accepted_claims_true_partial` assumes that vectors can be extracted from an accepted opening argument.  Here they are
computed, by rewinding, from a family of proofs accepted by `check` itself.
-/

set_option autoImplicit false

namespace Verif.Props
open Verif Verif.Spec Verif.Trie Verif.Proof Verif.Ipa

section
variable {F G : Type} [Field F] [DecidableEq F] [AddCommGroup G] [DecidableEq G] [Module F G]

/-- The vector computed for a commitment: that of the first query about it. -/
def vecOf {m : ℕ} (qs : List (VerifierQuery F G)) (X : MultiTree F G qs.length m 8) (c : G) (b : Byte) : F :=
  match (List.finRange qs.length).find? (fun l => (qs.get l).commitment = c) with
  | some l => (X.vec qs.get 256 l).1 b
  | none => 0

/-- From a family of accepted runs for queries at bytes: a non-trivial relation, or vectors that are openings with the claimed
results. -/
theorem rewound_extracts (hF : BigField F) (C : Crypto F G) (Q : G) {qs : List (VerifierQuery F G)}
    (hpt : ∀ q ∈ qs, ∃ z : Byte, q.point = (z.val : F)) {W : Weights F} (hW : Weights.new F 256 = .ok W) {m : ℕ}
    (hm : 256 + qs.length ≤ m + 1) (X : MultiTree F G qs.length m 8) (hX : X.Distinct 256) (hacc : Accepted (crsOf C Q) W qs X) :
    (∃ ρ ∈ X.rels qs.get 256, ρ ≠ 0 ∧ ∑ i : Fin 256, ρ.1 i • C.g i + ρ.2 • Q = 0) ∨ Extracts C (vecOf qs X) qs := by
  have hD : Ipa.Distinct F 256 := fun i j hi hj h => hF i j (hi.trans (by norm_num)) (hj.trans (by norm_num)) h
  have hgens : ∀ i : Fin 256, (crsOf C Q).gens.getD i 0 = C.g i := by
    intro i
    simp only [crsOf]
    rw [List.getD_eq_getElem _ _ (by simp)]
    simp
  rcases C56_multipoint_sound (k := 8) (crs := crsOf C Q) rfl (by simp [crsOf]) hD hW (qs := qs)
    (fun q hq => by obtain ⟨z, hz⟩ := hpt q hq; exact ⟨z.val, z.2, hz⟩) hm X hX hacc with ⟨ρ, h1, h2, h3⟩ | ⟨v, h1, h2, h3, h4⟩
  · refine Or.inl ⟨ρ, h1, h2, ?_⟩
    rw [← h3]
    exact congrArg (· + ρ.2 • Q) (Finset.sum_congr rfl fun i _ => by rw [hgens i])
  · right
    have hvec : ∀ l, vecOf qs X (qs.get l).commitment = v l := by
      intro l
      funext b
      unfold vecOf
      cases h : (List.finRange qs.length).find? (fun l' => (qs.get l').commitment = (qs.get l).commitment) with
      | none =>
        rw [List.find?_eq_none] at h
        exact absurd (by simp) (h l (List.mem_finRange l))
      | some l' =>
        have h5 := List.find?_some h
        simp only [decide_eq_true_eq] at h5
        have h6 : X.vec qs.get 256 l' = (v l', 0) := h1 l'
        simp only [h6, h4 l' l h5]
    intro q hq
    obtain ⟨l, rfl⟩ := List.get_of_mem hq
    obtain ⟨z, hz⟩ := hpt _ hq
    rw [hvec l]
    refine ⟨z, hz, ?_, h3 l z hz⟩
    rw [← h2 l]
    exact Finset.sum_congr rfl fun i _ => by rw [← hgens i]

/-- The queries of a proof are at bytes. -/
theorem queries_at_bytes {C : Crypto F G} {hint : VerificationHint} {comms : List G} {keys : List Key}
    {values : List (Option Value)} {root : G} {qs : List (VerifierQuery F G)} {uh : UpdateHint G}
    (hq : createVerifierQueries C hint comms keys values root = .ok (some (qs, uh))) :
    ∀ q ∈ qs, ∃ z : Byte, q.point = (z.val : F) := by
  obtain ⟨st, _, _, _, _, _, _, _, hqs, _⟩ := createVerifierQueries_ok hq
  intro q hq
  obtain ⟨x, _, c, _, rfl⟩ := hqs q hq
  exact ⟨x.2, rfl⟩

/-- Vectors that are openings with the claimed results break the commitments of the trie or make the undisputed claims true. -/
theorem extracts_claims (hF : BigField F) (C : Crypto F G) (l : List (Key × Value)) {db : MemoryDb F G}
    (hb : build C l = .ok db) {root : G} (hr : Trie.rootCommitment db = .ok root) {hint : VerificationHint} {comms : List G}
    {keys : List Key} {values : List (Option Value)} (hlen : keys.length = values.length) {qs : List (VerifierQuery F G)} {uh : UpdateHint G}
    (hq : createVerifierQueries C hint comms keys values root = .ok (some (qs, uh))) {vec : G → Byte → F}
    (hext : Extracts C vec qs) :
    ProofBreak C (lastWrite l) vec qs ∨
    ∀ k v, (k, v) ∈ keys.zip values → Undisputed hint keys values k v →
      (∀ w, v = some w → Trie.get db k = some w) ∧
      (v = none → Trie.get db k = none ∨ ∃ d, HintEntry hint keys k.stem .none d ∧
        ∃ j, 0 < j ∧ j < d ∧ ∃ s, Under (lastWrite l) (k.stem.1.take j) s ∧ ∀ t, Under (lastWrite l) (k.stem.1.take j) t → t = s) := by
  rw [build_iff] at hb
  subst hb
  rw [rootCommitment_spec] at hr
  have hr : branchComm C (lastWrite l) [] = root := by simpa using hr
  subst hr
  by_cases hnb : ProofBreak C (lastWrite l) vec qs
  · exact Or.inl hnb
  refine Or.inr fun k v hkv hud => ?_
  have hget : Trie.get (specDb C (lastWrite l)) k = lastWrite l k := rfl
  rw [hget]
  rcases claims_true hF hq hlen hext hnb hkv hud with h1 | ⟨h1, d, h2, j, h3, h4, s, h5⟩
  · subst h1
    exact ⟨fun w h => h, fun h => Or.inl h⟩
  · subst h1
    refine ⟨fun w h => by simp at h, fun _ => Or.inr ⟨d, h2, j, Nat.pos_of_ne_zero (fun h => h4 (Or.inl (by rw [h]; rfl))), h3, s, h5, fun t ht => ?_⟩⟩
    by_contra hne
    exact h4 (Or.inr ⟨t, s, hne, ht, h5⟩)

/-- The multipoint argument of an accepted proof is accepted. -/
theorem check_checkMulti {C : Crypto F G} {Q : G} {order : List (ProverQuery F G) → List ℕ} {O : Oracle F G}
    {hint : VerificationHint} {comms : List G} {keys : List Key} {values : List (Option Value)} {root : G}
    {qs : List (VerifierQuery F G)} {uh : UpdateHint G}
    (hq : createVerifierQueries C hint comms keys values root = .ok (some (qs, uh))) {W : Weights F}
    (hW : Weights.new F 256 = .ok W) {π : MultiProof F G} {uh' : Option (UpdateHint G)}
    (h : check C (multiOpener O C Q order) ⟨hint, comms, π⟩ keys values root = .ok (true, uh')) :
    ∃ t', checkMulti O π (crsOf C Q) W qs (newTranscript (lbl "vt")) = .ok (true, t') := by
  simp only [check, hq, bind, Except.bind, multiOpener, hW] at h
  cases h3 : checkMulti O π (crsOf C Q) W qs (newTranscript (lbl "vt")) with
  | error e => rw [h3] at h; simp at h
  | ok r =>
    rw [h3] at h
    simp only [Except.ok.injEq, Prod.mk.injEq] at h
    exact ⟨r.2, by rw [← h.1]⟩

/-- C21 with the real opening argument (partial: the condition that a claim be undisputed, and the exception for claims of
absence below a stem, are those of `C21_accepted_claims_true_partial`, where they are shown to be needed).  Suppose `check`
has accepted, against the root of a trie built from a history, a family of proofs with the same hint and commitments, whose
hashes draw the challenges of `X`.  Then either one of the relations computed from the family is a non-trivial relation
between the generators and `Q`, or the commitment scheme of the trie is explicitly broken by the vectors computed, or every
undisputed claim is true except possibly claims of absence below the path of a stem. -/
theorem C21_rewound_claims_true_partial (hF : BigField F) (C : Crypto F G) (Q : G) (order : List (ProverQuery F G) → List ℕ)
    (l : List (Key × Value)) {db : MemoryDb F G} (hb : build C l = .ok db) {root : G} (hr : Trie.rootCommitment db = .ok root)
    (hint : VerificationHint) (comms : List G) (keys : List Key) (values : List (Option Value)) (hlen : keys.length = values.length)
    {qs : List (VerifierQuery F G)} {uh : UpdateHint G} (hq : createVerifierQueries C hint comms keys values root = .ok (some (qs, uh))) {m : ℕ} (hm : 256 + qs.length ≤ m + 1)
    (X : MultiTree F G qs.length m 8) (hX : X.Distinct 256)
    (hacc : ∀ i j u, ∀ p ∈ (X.ipa i j u).leaves, ∃ (O : Oracle F G) (uh' : Option (UpdateHint G)),
      drawn O (newTranscript (lbl "vt")) ⟨p.2, X.D i⟩ qs = (X.r i, X.t i j, X.w i j u, p.1) ∧
      check C (multiOpener O C Q order) ⟨hint, comms, ⟨p.2, X.D i⟩⟩ keys values root = .ok (true, uh')) :
    (∃ ρ ∈ X.rels qs.get 256, ρ ≠ 0 ∧ ∑ i : Fin 256, ρ.1 i • C.g i + ρ.2 • Q = 0) ∨
    ProofBreak C (lastWrite l) (vecOf qs X) qs ∨
    ∀ k v, (k, v) ∈ keys.zip values → Undisputed hint keys values k v →
      (∀ w, v = some w → Trie.get db k = some w) ∧
      (v = none → Trie.get db k = none ∨ ∃ d, HintEntry hint keys k.stem .none d ∧
        ∃ j, 0 < j ∧ j < d ∧ ∃ s, Under (lastWrite l) (k.stem.1.take j) s ∧ ∀ t, Under (lastWrite l) (k.stem.1.take j) t → t = s) := by
  have hD : Ipa.Distinct F 256 := fun i j hi hj h => hF i j (hi.trans (by norm_num)) (hj.trans (by norm_num)) h
  obtain ⟨W, hW, _⟩ := new_good hD (by norm_num)
  rcases rewound_extracts hF C Q (queries_at_bytes hq) hW hm X hX (by
    intro i j u p hp
    obtain ⟨O, uh', h1, h2⟩ := hacc i j u p hp
    obtain ⟨t', h3⟩ := check_checkMulti hq hW h2
    exact ⟨O, _, t', h1, h3⟩) with h | h
  · exact Or.inl h
  · exact Or.inr (extracts_claims hF C l hb hr hlen hq h)

omit [DecidableEq F] in
theorem big_ne (hF : BigField F) {a b : ℕ} (ha : a < 2 ^ 252) (hb : b < 2 ^ 252) (h : a ≠ b) : (a : F) ≠ (b : F) :=
  fun h' => h (hF a b ha hb h')

omit [DecidableEq F] in
theorem big_injective (hF : BigField F) {k : ℕ} (c : ℕ) (hk : k + c < 2 ^ 252) :
    Function.Injective fun j : Fin k => ((j + c : ℕ) : F) := by
  intro j j' h
  have := hF (j + c) (j' + c) (by omega) (by omega) h
  exact Fin.ext (by omega)

/-- Challenges for eight rounds. -/
def eightRounds (F : Type) [Field F] : List (Fin 4 → F) := (List.range 8).map fun i j => ((4 * i + j + 1 : ℕ) : F)

omit [DecidableEq F] in
theorem eightRounds_nodup (hF : BigField F) : ((eightRounds F).flatMap List.ofFn).Nodup := by
  have : (eightRounds F).flatMap List.ofFn = ((List.range 32).map (· + 1)).map fun i : ℕ => (i : F) := by
    simp [eightRounds, List.range_succ, List.ofFn_succ]
    norm_num
  rw [this]
  apply List.Nodup.map_on _ (by decide)
  intro i hi j hj h
  simp only [List.mem_map, List.mem_range] at hi hj
  exact hF i j (by omega) (by omega) h

omit [DecidableEq F] in
theorem eightRounds_ne (hF : BigField F) : ∀ x ∈ eightRounds F, ∀ j, x j ≠ 0 := by
  intro x hx j
  simp only [eightRounds, List.mem_map, List.mem_range] at hx
  obtain ⟨i, hi, rfl⟩ := hx
  have := big_ne hF (a := 4 * i + j + 1) (b := 0) (by omega) (by norm_num) (by omega)
  simpa using this

/-- The hypotheses of `C21_rewound_claims_true_partial` hold for the honest proofs of the single key of `soloHist`. -/
theorem solo_family (hF : BigField F) (C : Crypto F G) (K : WireCodec F G) (Q : G) (order : List (ProverQuery F G) → List ℕ) :
    ∃ db root comms qs uh, build C soloHist = .ok db ∧ Trie.rootCommitment db = .ok root ∧
      HintConsistent ⟨[1], [.present], []⟩ [soloKey] ∧
      createVerifierQueries C ⟨[1], [.present], []⟩ comms [soloKey] [some (valOf 7)] root = .ok (some (qs, uh)) ∧
      256 + qs.length ≤ 261 + 1 ∧ ∃ X : MultiTree F G qs.length 261 8, X.Distinct 256 ∧
      ∀ i j u, ∀ p ∈ (X.ipa i j u).leaves, ∃ (O : Oracle F G) (uh' : Option (UpdateHint G)), O.K = K ∧
        drawn O (newTranscript (lbl "vt")) ⟨p.2, X.D i⟩ qs = (X.r i, X.t i j, X.w i j u, p.1) ∧
        check C (multiOpener O C Q order) ⟨⟨[1], [.present], []⟩, comms, ⟨p.2, X.D i⟩⟩ [soloKey] [some (valOf 7)] root =
          .ok (true, uh') := by
  have hD : Ipa.Distinct F 256 := fun i j hi hj h => hF i j (hi.trans (by norm_num)) (hj.trans (by norm_num)) h
  obtain ⟨W, hW, _⟩ := new_good hD (by norm_num)
  have hl : ((soloQueries C).map ProverQuery.toVerifier).length = 6 := rfl
  refine ⟨_, _, _, _, _, build_eq _ _, rootCommitment_spec _ _, solo_consistent, solo_queries C, by rw [hl], ?_⟩
  obtain ⟨X, h1, _, h2⟩ := C56_families_exist (m := 261) (crs := crsOf C Q) (xss := eightRounds F) (by simp [eightRounds])
    (by simp [eightRounds, crsOf]) (by simp [eightRounds, crsOf]) hD hW (qs := soloQueries C) (by simp [soloQueries])
    (fun q hq => (soloQueries_true C q hq).opening Q) (fun i => ((i + 0 : ℕ) : F))
    (big_injective hF 0 (by rw [hl]; norm_num)) (fun j => ((j + 256 : ℕ) : F)) (big_injective hF 256 (by norm_num))
    (fun j p hp => big_ne hF (by omega) (lt_trans hp (by simp [crsOf])) (by simp only [crsOf] at hp; omega)) (fun u => ((u + 1 : ℕ) : F))
    (big_ne hF (by norm_num) (by norm_num) (by norm_num))
    (fun u => by simpa using big_ne hF (a := u + 1) (b := 0) (by omega) (by norm_num) (by omega))
    (eightRounds_nodup hF) (eightRounds_ne hF) K (newTranscript (lbl "vt"))
  refine ⟨X, h1, fun i j u p hp => ?_⟩
  obtain ⟨O, t', h3, h4, h5⟩ := h2 i j u p hp
  have h6 : ∀ uh, createVerifierQueries C ⟨[1], [.present], []⟩
      [stemComm C (lastWrite soloHist) soloKey.stem, suffixComm C (lastWrite soloHist) soloKey.stem 0] [soloKey]
      [some (valOf 7)] (branchComm C (lastWrite soloHist) []) = .ok (some ((soloQueries C).map ProverQuery.toVerifier, uh)) →
      check C (multiOpener O C Q order) ⟨⟨[1], [.present], []⟩,
        [stemComm C (lastWrite soloHist) soloKey.stem, suffixComm C (lastWrite soloHist) soloKey.stem 0], ⟨p.2, X.D i⟩⟩
        [soloKey] [some (valOf 7)] (branchComm C (lastWrite soloHist) []) = .ok (true, some uh) := by
    intro uh h
    simp only [check, h, bind, Except.bind, multiOpener, hW, h5]
  exact ⟨O, _, h3, h4, h6 _ (solo_queries C)⟩

end

/-- In particular they hold over Bandersnatch, with its encoding. -/
noncomputable example (Q : Bander.BElem) :=
  letI := Classical.decEq Bander.BElem
  solo_family C52_scalar_field.1 Bander.crypto Bander.codec Q (fun qs => (qs.map ProverQuery.point).dedup)

end Verif.Props
