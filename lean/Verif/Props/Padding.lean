import Verif.Props.Size
import Verif.Proof.Extract

/-!
# C74: what an accepted proof may carry, and the work of checking it
-/

set_option autoImplicit false

namespace Verif.Props
open Verif.Spec Verif.Trie Verif.Proof Verif.Wire BOrd
open scoped Classical

section
variable {F G : Type} [Field F] [AddCommGroup G] [Module F G]

/-- The entry of the hint for the stem of a key. -/
def entryOf (hint : VerificationHint) (keys : List Key) (k : Key) : ExtPresent × Byte :=
  (BMap.get k.stem (hintByStem hint (stemsOf keys))).getD (.none, 0)

/-- All openings that a claim about a key can ask for. -/
def opensOf (hint : VerificationHint) (keys : List Key) (k : Key) : List (Path × Byte) :=
  let p := k.stem.1.take (entryOf hint keys k).2.val
  (List.range 31).map (fun i => (k.stem.1.take i, k.stem.1.getD i 0)) ++
    [(p, 0), (p, 1), (p, halfIdx k.suffix), (p ++ [halfIdx k.suffix], lowIdx k.suffix), (p ++ [halfIdx k.suffix], highIdx k.suffix)]

/-- All nodes but the root that a claim about a key can open. -/
def nodesOf (hint : VerificationHint) (keys : List Key) (k : Key) : List Path :=
  (List.range 31).map (fun i => k.stem.1.take (i + 1)) ++ [k.stem.1.take (entryOf hint keys k).2.val ++ [halfIdx k.suffix]]

theorem entryOf_eq {hint : VerificationHint} {keys : List Key} {kvs : List (Key × Option Value)} {k : Key} {v : Option Value}
    {e : ExtPresent} {d : ℕ} (h : IsClaim (hintByStem hint (stemsOf keys)) kvs k v e d) : (entryOf hint keys k).2.val = d := by
  obtain ⟨-, b, hb, hg⟩ := h
  rw [entryOf, hg]
  exact hb

theorem opens_mem {hint : VerificationHint} {keys : List Key} {kvs : List (Key × Option Value)} {k : Key} {v : Option Value}
    {e : ExtPresent} {d : ℕ} (h : IsClaim (hintByStem hint (stemsOf keys)) kvs k v e d) {x : Path × Byte} (hx : claimOpens k e d x) :
    x ∈ opensOf hint keys k := by
  have he := entryOf_eq h
  unfold opensOf
  rw [he]
  obtain ⟨p, z⟩ := x
  rcases hx with ⟨h1, h2⟩ | ⟨-, h1, h2⟩ | ⟨-, ⟨h1, h2⟩ | ⟨h1, h2⟩⟩
  · refine List.mem_append_left _ (List.mem_map.2 ⟨p.length, List.mem_range.2 ?_, ?_⟩)
    · have := h1.length_le
      rw [k.stem.2, List.length_append, List.length_singleton] at this
      simp only at this
      omega
    · obtain ⟨t, ht⟩ := h1
      simp only at ht
      rw [← ht]
      simp [List.getD_eq_getElem?_getD]
  · refine List.mem_append_right _ ?_
    simp only at h1 h2
    rw [h1]
    rcases h2 with rfl | rfl <;> simp
  · refine List.mem_append_right _ ?_
    simp only at h1 h2
    rw [h1, h2]
    simp
  · refine List.mem_append_right _ ?_
    simp only at h1 h2
    rw [h1]
    rcases h2 with rfl | rfl <;> simp

theorem nodes_mem {hint : VerificationHint} {keys : List Key} {kvs : List (Key × Option Value)} {k : Key} {v : Option Value}
    {e : ExtPresent} {d : ℕ} (h : IsClaim (hintByStem hint (stemsOf keys)) kvs k v e d) (hd : d ≤ 31) {x : Path × Byte}
    (hx : claimOpens k e d x) (h0 : x.1 ≠ []) : x.1 ∈ nodesOf hint keys k := by
  have he := entryOf_eq h
  unfold nodesOf
  rw [he]
  obtain ⟨p, z⟩ := x
  simp only at h0 ⊢
  have hpos := List.length_pos_iff.2 h0
  have hpre : ∀ {q : Path}, q ≠ [] → q <+: k.stem.1 → q ∈ (List.range 31).map (fun i => k.stem.1.take (i + 1)) := by
    intro q hq hp
    have h1 := List.length_pos_iff.2 hq
    have h2 := hp.length_le
    rw [k.stem.2] at h2
    refine List.mem_map.2 ⟨q.length - 1, List.mem_range.2 (by omega), ?_⟩
    rw [show q.length - 1 + 1 = q.length by omega]
    exact (prefix_eq_take hp).symm
  rcases hx with ⟨h1, h2⟩ | ⟨-, h1, h2⟩ | ⟨-, ⟨h1, h2⟩ | ⟨h1, h2⟩⟩
  · exact List.mem_append_left _ (hpre h0 ((List.prefix_append _ _).trans h1))
  · simp only at h1
    exact List.mem_append_left _ (hpre h0 (h1 ▸ List.take_prefix _ _))
  · simp only at h1
    exact List.mem_append_left _ (hpre h0 (h1 ▸ List.take_prefix _ _))
  · simp only at h1
    exact List.mem_append_right _ (by simp [h1])

theorem mapM_length {α β : Type} {f : α → Res β} : ∀ {l : List α} {r : List β}, l.mapM f = .ok r → r.length = l.length
  | [], r, h => by
    have h : [] = r := by simpa [pure, Except.pure] using h
    subst h; rfl
  | a :: l, r, h => by
    rw [List.mapM_cons] at h
    simp only [bind, Except.bind, pure, Except.pure] at h
    cases ha : f a with
    | error m => rw [ha] at h; simp at h
    | ok y =>
      rw [ha] at h
      cases hl : l.mapM f with
      | error m => rw [hl] at h; simp at h
      | ok r' =>
        rw [hl] at h
        have h : y :: r' = r := by simpa using h
        subst h
        simp [mapM_length hl]

/-- There is one query for every opening. -/
theorem opened_length {C : Crypto F G} {hint : VerificationHint} {comms : List G} {keys : List Key}
    {values : List (Option Value)} {root : G} {qs : List (VerifierQuery F G)} {uh : UpdateHint G} {st : VState F}
    (h : createVerifierQueries C hint comms keys values root = .ok (some (qs, uh)))
    (hk : keyLoop hint (hintByStem hint (stemsOf keys)) (stemsWithExtension hint (stemsOf keys)) (keys.zip values)
        ⟨[], [], [], [], []⟩ = .ok (some st)) : qs.length = st.allPathsZs.length := by
  unfold createVerifierQueries at h
  simp only [bind, Except.bind] at h
  rw [show BSet.ofList (keys.map Key.stem) = stemsOf keys from rfl, hk] at h
  simp only at h
  unfold assemble at h
  split at h
  · simp at h
  · rename_i v hv
    split at hv
    · simp at hv
    split at hv
    · simp at hv
    simp only [bind, Except.bind] at hv
    split at hv
    · simp at hv
    · rename_i r hr
      simp only [Except.ok.injEq] at hv
      subst hv
      simp only [Except.ok.injEq, Option.some.injEq, Prod.mk.injEq] at h
      rw [← h.1]
      exact mapM_length hr

theorem length_flatMap_const {α β : Type} (f : α → List β) {c : ℕ} (h : ∀ a, (f a).length = c) (l : List α) :
    (l.flatMap f).length = c * l.length := by
  rw [List.length_flatMap, List.map_congr_left (g := fun _ => c) fun a _ => h a]
  simp [mul_comm]

/-- C74 (what holds).  Whatever the proof, if its queries can be reconstructed for a request (otherwise it is rejected, or checking
panics), then at most 36 openings per distinct key are checked, the proof carries at most 32 commitments per distinct key, and names
at most one foreign stem per distinct stem asked for.  So the work does not depend on the size of the proof. -/
theorem C74_bounded_partial {C : Crypto F G} {hint : VerificationHint} {comms : List G} {keys : List Key}
    {values : List (Option Value)} {root : G} {qs : List (VerifierQuery F G)} {uh : UpdateHint G}
    (h : createVerifierQueries C hint comms keys values root = .ok (some (qs, uh))) :
    qs.length ≤ 36 * keys.toFinset.card ∧ comms.length ≤ 32 * keys.toFinset.card ∧
      hint.diffStemNoProof.length ≤ (stemSet keys).card := by
  obtain ⟨st, hI, hused, hlen, -, -, -, -, -, hk⟩ := createVerifierQueries_ok h
  have hkey : ∀ {k v e d}, IsClaim (hintByStem hint (stemsOf keys)) (keys.zip values) k v e d → k ∈ keys :=
    fun hc => (List.of_mem_zip hc.1).1
  have hdep : ∀ {k v e d}, IsClaim (hintByStem hint (stemsOf keys)) (keys.zip values) k v e d → d ≤ 31 := by
    rintro k v e d ⟨hm, b, hb, hg⟩
    obtain ⟨e', d', ⟨-, b', hb', hg'⟩, hok⟩ := hI.ok k v hm
    rw [hg] at hg'
    cases hg'
    have := hok.depth
    omega
  refine ⟨?_, ?_, ?_⟩
  · rw [opened_length h hk]
    have hs := (List.subperm_of_subset hI.zsAsc.nodup (l₂ := keys.toFinset.toList.flatMap (opensOf hint keys)) fun x hx => by
      obtain ⟨k, v, e, d, hc, ho⟩ := (hI.zs x).1 hx
      exact List.mem_flatMap.2 ⟨k, by simpa using hkey hc, opens_mem hc ho⟩).length_le
    rwa [length_flatMap_const _ (c := 36) (fun k => by simp [opensOf]), Finset.length_toList] at hs
  · have hs := (List.subperm_of_subset hI.pathsAsc.nodup (l₂ := [] :: keys.toFinset.toList.flatMap (nodesOf hint keys)) fun p hp => by
      obtain ⟨z, hz⟩ := (hI.paths p).1 hp
      obtain ⟨k, v, e, d, hc, ho⟩ := (hI.zs _).1 hz
      by_cases h0 : p = []
      · rw [h0]; simp
      · exact List.mem_cons_of_mem _ (List.mem_flatMap.2 ⟨k, by simpa using hkey hc, nodes_mem hc (hdep hc) ho h0⟩)).length_le
    rw [List.length_cons, length_flatMap_const _ (c := 32) (fun k => by simp [nodesOf]), Finset.length_toList] at hs
    rw [← hlen, List.length_cons] at hs
    omega
  · rw [hused]
    let g : Stem → Stem := fun s =>
      ((withPrefix hint.diffStemNoProof (s.1.take ((BMap.get s (hintByStem hint (stemsOf keys))).getD (.none, 0)).2.val)
        ((BMap.get s (hintByStem hint (stemsOf keys))).getD (.none, 0)).2.val).getLast?).getD s
    have hs := (List.subperm_of_subset hI.usedAsc.nodup (l₂ := (stemsOf keys).map g) fun u hu => by
      obtain ⟨k, v, e, d, hc, -, -, hu⟩ := (hI.used u).1 hu
      refine List.mem_map.2 ⟨k.stem, mem_stemsOf.2 ⟨k, hkey hc, rfl⟩, ?_⟩
      have he := entryOf_eq hc
      unfold entryOf at he
      simp only [g, he, hu, Option.getD_some]).length_le
    rwa [List.length_map, stemsOf_length] at hs

/-! ### Padding -/

/-- The proof with further depths and statuses at the end of its hint. -/
def pad {Pf : Type} (p : VerkleProof G Pf) (ds : List Byte) (es : List ExtPresent) : VerkleProof G Pf :=
  { p with hint := ⟨p.hint.depths ++ ds, p.hint.extensionPresent ++ es, p.hint.diffStemNoProof⟩ }

theorem zip_append_of_le {α β : Type} : ∀ (l : List α) (a b : List β), l.length ≤ a.length → l.zip (a ++ b) = l.zip a
  | [], _, _, _ => by simp
  | x :: l, [], _, h => by simp at h
  | x :: l, y :: a, b, h => by
    simp only [List.cons_append, List.zip_cons_cons]
    rw [zip_append_of_le l a b (by simpa using h)]

theorem keyStep_congr {hint hint' : VerificationHint} (h : hint.diffStemNoProof = hint'.diffStemNoProof)
    (byStem : BMap Stem (ExtPresent × Byte)) (swe : BSet Stem) (k : Key) (v : Option Value) (st : VState F) :
    keyStep hint byStem swe k v st = keyStep hint' byStem swe k v st := by
  unfold keyStep diffStemStep
  rw [h]

theorem keyLoop_congr {hint hint' : VerificationHint} (h : hint.diffStemNoProof = hint'.diffStemNoProof)
    (byStem : BMap Stem (ExtPresent × Byte)) (swe : BSet Stem) : ∀ (kvs : List (Key × Option Value)) (st : VState F),
    keyLoop hint byStem swe kvs st = keyLoop hint' byStem swe kvs st
  | [], _ => rfl
  | (k, v) :: kvs, st => by
    unfold keyLoop
    rw [keyStep_congr h]
    cases keyStep hint' byStem swe k v st with
    | error e => rfl
    | ok o =>
      cases o with
      | none => rfl
      | some st' => exact keyLoop_congr h byStem swe kvs st'

/-- C74.  Depths and statuses beyond the number of distinct stems asked for are ignored: a proof padded with any of them gets the same
verdict, and the same update hint. -/
theorem C74_padding_ignored (C : Crypto F G) (O : Opener F G) (p : VerkleProof G O.Pf) {keys : List Key}
    (values : List (Option Value)) (root : G) (h1 : (stemSet keys).card ≤ p.hint.depths.length)
    (h2 : (stemSet keys).card ≤ p.hint.extensionPresent.length) (ds : List Byte) (es : List ExtPresent) :
    check C O (pad p ds es) keys values root = check C O p keys values root := by
  have hz : ((stemsOf keys).zip (p.hint.depths ++ ds)).zip (p.hint.extensionPresent ++ es) =
      ((stemsOf keys).zip p.hint.depths).zip p.hint.extensionPresent := by
    have e1 : (stemsOf keys).zip (p.hint.depths ++ ds) = (stemsOf keys).zip p.hint.depths :=
      zip_append_of_le _ _ _ (by rw [stemsOf_length]; exact h1)
    rw [e1]
    refine zip_append_of_le _ _ _ ?_
    rw [List.length_zip, stemsOf_length]
    omega
  have e : createVerifierQueries C (pad p ds es).hint p.comms keys values root =
      createVerifierQueries C p.hint p.comms keys values root := by
    unfold createVerifierQueries
    have hs : BSet.ofList (keys.map Key.stem) = stemsOf keys := rfl
    have hb : hintByStem (pad p ds es).hint (stemsOf keys) = hintByStem p.hint (stemsOf keys) := by
      unfold hintByStem; simp only [pad, hz]
    have hw : stemsWithExtension (pad p ds es).hint (stemsOf keys) = stemsWithExtension p.hint (stemsOf keys) := by
      unfold stemsWithExtension; simp only [pad, hz]
    simp only [hs, hb, hw]
    rw [keyLoop_congr (hint := (pad p ds es).hint) (hint' := p.hint) rfl]
    rfl
  unfold check
  rw [show (pad p ds es).comms = p.comms from rfl, e]
  rfl

/-- Whoever holds the bytes of a proof with an entry for each stem asked for can lengthen them by any number of bytes (up to what the
length field can hold) without changing the verdict: the full claim of C74 is false. -/
theorem C74_stretch (C : Crypto F G) (K : WireCodec F G) (openAll : List (ProverQuery F G) → Res (MultiProof F G))
    (chk : MultiProof F G → List (VerifierQuery F G) → Res Bool) {bs : List Byte} {p : VerkleProof G (MultiProof F G)}
    (hr : readProof K bs = .ok (some p)) {keys : List Key} (values : List (Option Value)) (root : G)
    (hk : (stemSet keys).card ≤ p.hint.depths.length) {t : ℕ} (ht : p.hint.depths.length + t < 2 ^ 32) :
    ∃ bs' p', bs'.length = bs.length + t ∧ readProof K bs' = .ok (some p') ∧ p'.hint.depths.length = p.hint.depths.length + t ∧
      check C (⟨MultiProof F G, openAll, chk⟩ : Opener F G) p' keys values root =
        check C (⟨MultiProof F G, openAll, chk⟩ : Opener F G) p keys values root := by
  unfold readProof at hr
  cases hh : readHint bs with
  | error e => rw [hh] at hr; simp [bind, Except.bind] at hr
  | ok o =>
    cases o with
    | none => rw [hh] at hr; simp [bind, Except.bind] at hr
    | some q =>
      obtain ⟨hint, rest⟩ := q
      obtain ⟨stems, body, h1, h2, rfl, h4, h5⟩ := readHint_ok_iff.1 hh
      rw [hh] at hr
      simp only [bind, Except.bind] at hr
      have hp : p.hint = hint := by
        revert hr
        cases readExact 4 rest with
        | none => intro hr; simp at hr
        | some q =>
          simp only
          cases readComms K (leNat q.1) q.2 with
          | none => intro hr; simp at hr
          | some q' =>
            simp only
            rcases multiFromBytes K q'.2 256 with _ | _ | _
            · intro hr; simp at hr
            · intro hr; simp at hr
            · intro hr
              simp only [Except.ok.injEq, Option.some.injEq] at hr
              rw [← hr]
      have hdl : p.hint.depths.length = body.length := by rw [hp, h5]; simp
      have hel : p.hint.extensionPresent.length = body.length := by rw [hp, h5]; simp
      have hd0 : depthOf 0 = 0 := by decide
      have hs0 : statusOf 0 = .none := by decide
      have hok : ∀ b ∈ body ++ List.replicate t 0, b.val % 4 ≠ 3 := fun b hb => by
        rcases List.mem_append.1 hb with hb | hb
        · exact h4 b hb
        · rw [(List.mem_replicate.1 hb).2]; decide
      have hh' : readHint (frame stems (body ++ List.replicate t 0) ++ rest) =
          .ok (some ((pad p (List.replicate t 0) (List.replicate t .none)).hint, rest)) := by
        refine readHint_ok_iff.2 ⟨stems, body ++ List.replicate t 0, h1, by simp; omega, rfl, hok, ?_⟩
        simp only [pad, hp, h5, List.map_append, List.map_replicate, hd0, hs0]
      refine ⟨frame stems (body ++ List.replicate t 0) ++ rest, pad p (List.replicate t 0) (List.replicate t .none), ?_, ?_, ?_, ?_⟩
      · simp only [frame, List.length_append, leBytes_length, List.length_replicate]
        omega
      · unfold readProof
        rw [hh']
        simp only [bind, Except.bind]
        revert hr
        cases readExact 4 rest with
        | none => intro hr; simp at hr
        | some q =>
          simp only
          cases readComms K (leNat q.1) q.2 with
          | none => intro hr; simp at hr
          | some q' =>
            simp only
            rcases multiFromBytes K q'.2 256 with _ | _ | _
            · intro hr; simp at hr
            · intro hr; simp at hr
            · intro hr
              simp only [Except.ok.injEq, Option.some.injEq] at hr
              rw [← hr]
              rfl
      · simp [pad]
      · have hk' : (stemSet keys).card ≤ p.hint.extensionPresent.length := by rw [hel, ← hdl]; exact hk
        exact C74_padding_ignored C (⟨MultiProof F G, openAll, chk⟩ : Opener F G) p values root hk hk' _ _

variable [DecidableEq F] [DecidableEq G]

/-- C74, the full claim is false: for every trie and every request whose honest proof is accepted there are byte strings of any
length up to 2³¹ and beyond that are read as a proof and accepted for the same request. -/
theorem C74_full_claim_false (C : Crypto F G) (K : WireCodec F G) (openAll : List (ProverQuery F G) → Res (MultiProof F G))
    (chk : MultiProof F G → List (VerifierQuery F G) → Res Bool)
    (hC : CompleteOpener C (⟨MultiProof F G, openAll, chk⟩ : Opener F G))
    (hO : ∀ qs p, openAll qs = .ok p → p.openProof.L.length = 8 ∧ p.openProof.R.length = 8)
    (l : List (Key × Value)) {db : MemoryDb F G} (hb : build C l = .ok db) {keys : List Key} (hne : keys ≠ [])
    (hk : 36 * keys.length < 2 ^ 31) {root : G} (hr : Trie.rootCommitment db = .ok root)
    (hs : Separated C (lastWrite l) (· ∈ keys)) {t : ℕ} (ht : t ≤ 2 ^ 31) :
    ∃ bs p uh, t ≤ bs.length ∧ readProof K bs = .ok (some p) ∧
      check C (⟨MultiProof F G, openAll, chk⟩ : Opener F G) p keys (keys.map (Trie.get db)) root = .ok (true, some uh) := by
  obtain ⟨p, hp, hacc, -⟩ := C20_honest_proofs_verify_partial C _ hC l hb hne hr
  obtain ⟨uh, hacc⟩ := hacc hs
  obtain ⟨bs, -, hread⟩ := C24_proof_roundtrip C K openAll chk hO l hb (by omega) hp
  have hdep : p.hint.depths.length = (stemSet keys).card := by
    simp only [createVerkleProof, if_neg hne, bind, Except.bind] at hp
    cases hq : createProverQueries db keys with
    | error e => rw [hq] at hp; simp at hp
    | ok r =>
      obtain ⟨qs, h⟩ := r
      have h1 := (C72_query_count C l hb hq).1
      rw [hq] at hp
      cases qs with
      | nil => simp at hp
      | cons q qs =>
        simp only at hp
        cases ho : openAll (q :: qs) with
        | error e => rw [ho] at hp; simp at hp
        | ok pf =>
          rw [ho] at hp
          simp only [Except.ok.injEq] at hp
          rw [← hp]
          exact h1
  have hle : (stemSet keys).card ≤ keys.length := by
    have := List.toFinset_card_le (keys.map Key.stem)
    rwa [List.length_map] at this
  obtain ⟨bs', p', h1, h2, -, h4⟩ := C74_stretch C K openAll chk hread (keys.map (Trie.get db)) root hdep.ge (t := t) (by omega)
  exact ⟨bs', p', uh, by omega, h2, h4.trans hacc⟩

end

/-- The opener of the examples: a fixed proof, everything accepted. -/
theorem demoOpener_complete : CompleteOpener toy
    (⟨MultiProof (ZMod 101) (ZMod 101), fun _ => .ok demoPf, fun _ _ => .ok true⟩ : Opener (ZMod 101) (ZMod 101)) :=
  fun _ _ _ => ⟨demoPf, rfl, rfl⟩

/-- The hypotheses of C74 hold for the trie and the keys of the other examples: a million bytes are accepted. -/
example : ∃ bs p uh, 1000000 ≤ bs.length ∧ readProof toyWire bs = .ok (some p) ∧
    check toy (⟨MultiProof (ZMod 101) (ZMod 101), fun _ => .ok demoPf, fun _ _ => .ok true⟩ : Opener _ _) p proofKeys
      (proofKeys.map (Trie.get (specDb toy (lastWrite proofHist)))) (nodeComm toy (lastWrite proofHist) []) = .ok (true, some uh) :=
  C74_full_claim_false (t := 1000000) toy toyWire _ _ demoOpener_complete (fun qs p hp => by cases hp; exact ⟨rfl, rfl⟩) proofHist
    (build_eq toy proofHist) (by simp [proofKeys]) (by simp [proofKeys]) root_of_build proofHist_separated (by norm_num)

end Verif.Props
