import Verif.Props.Wire
import Verif.Props.Sound

/-!
# C72: the size of a proof

How many queries, commitments and bytes a proof takes, in terms of the distinct stems asked for and their depths.
-/

set_option autoImplicit false

namespace Verif.Props
open Verif.Spec Verif.Trie Verif.Proof Verif.Wire BOrd
open scoped Classical

/-- The distinct stems of a list of keys. -/
noncomputable def stemSet (keys : List Key) : Finset Stem := (keys.map Key.stem).toFinset

/-- Those of them that satisfy `P`. -/
noncomputable def heldSet (P : Stem → Prop) (keys : List Key) : Finset Stem := (stemSet keys).filter P

/-- The distinct halves (suffixes below 128, the others) of stems that satisfy `P` and are asked for. -/
noncomputable def halfSet (P : Stem → Prop) (keys : List Key) : Finset (Stem × Bool) :=
  (keys.toFinset.filter fun k => P k.stem).image fun k => (k.stem, decide (k.suffix.val < 128))

theorem mem_halfSet {P : Stem → Prop} {keys : List Key} {k : Key} (hk : k ∈ keys) (hP : P k.stem) :
    (k.stem, decide (k.suffix.val < 128)) ∈ halfSet P keys :=
  Finset.mem_image.2 ⟨k, Finset.mem_filter.2 ⟨by simpa using hk, hP⟩, rfl⟩

theorem halfSet_card_le (P : Stem → Prop) (keys : List Key) : (halfSet P keys).card ≤ 2 * (heldSet P keys).card := by
  have h : halfSet P keys ⊆ heldSet P keys ×ˢ (Finset.univ : Finset Bool) := fun x hx => by
    obtain ⟨k, hk, rfl⟩ := Finset.mem_image.1 hx
    obtain ⟨h1, h2⟩ := Finset.mem_filter.1 hk
    refine Finset.mem_product.2 ⟨Finset.mem_filter.2 ⟨?_, h2⟩, Finset.mem_univ _⟩
    rw [stemSet, List.mem_toFinset]
    exact List.mem_map.2 ⟨k, by simpa using h1, rfl⟩
  have := Finset.card_le_card h
  rw [Finset.card_product, Finset.card_univ, Fintype.card_bool] at this
  omega

/-- Counting keys by whether their stem satisfies `P`. -/
theorem key_counts (P : Stem → Prop) (keys : List Key) : ∃ a b, a + b = keys.toFinset.card ∧ (heldSet P keys).card ≤ a ∧
    (halfSet P keys).card ≤ a ∧ (stemSet keys).card ≤ (heldSet P keys).card + b ∧ keys.toFinset.card ≤ keys.length := by
  refine ⟨(keys.toFinset.filter fun k => P k.stem).card, (keys.toFinset.filter fun k => ¬ P k.stem).card,
    Finset.card_filter_add_card_filter_not _, ?_, by unfold halfSet; exact Finset.card_image_le, ?_,
    List.toFinset_card_le _⟩
  · have : heldSet P keys = (keys.toFinset.filter fun k => P k.stem).image Key.stem := by
      ext s
      simp only [heldSet, stemSet, Finset.mem_filter, List.mem_toFinset, List.mem_map, Finset.mem_image]
      constructor
      · rintro ⟨⟨k, hk, rfl⟩, hP⟩; exact ⟨k, ⟨hk, hP⟩, rfl⟩
      · rintro ⟨k, ⟨hk, hP⟩, rfl⟩; exact ⟨⟨k, hk, rfl⟩, hP⟩
    rw [this]; exact Finset.card_image_le
  · have h1 : (stemSet keys).filter (fun s => ¬ P s) = (keys.toFinset.filter fun k => ¬ P k.stem).image Key.stem := by
      ext s
      simp only [stemSet, Finset.mem_filter, List.mem_toFinset, List.mem_map, Finset.mem_image]
      constructor
      · rintro ⟨⟨k, hk, rfl⟩, hP⟩; exact ⟨k, ⟨hk, hP⟩, rfl⟩
      · rintro ⟨k, ⟨hk, hP⟩, rfl⟩; exact ⟨⟨k, hk, rfl⟩, hP⟩
    have h2 := Finset.card_filter_add_card_filter_not (s := stemSet keys) P
    have h3 : ((stemSet keys).filter fun s => ¬ P s).card ≤ (keys.toFinset.filter fun k => ¬ P k.stem).card := by
      rw [h1]; exact Finset.card_image_le
    unfold heldSet
    omega

theorem stemsOf_length (keys : List Key) : (stemsOf keys).length = (stemSet keys).card := by
  have hn := (BSet.asc_ofList (keys.map Key.stem)).nodup
  have e : stemSet keys = (stemsOf keys).toFinset := by
    ext s
    rw [stemSet, List.mem_toFinset, List.mem_toFinset, stemsOf, BSet.mem_ofList]
  rw [e]
  exact (List.toFinset_card_of_nodup hn).symm

section
variable {F G : Type} [Field F] [AddCommGroup G] [Module F G]

/-- The index of a half. -/
def halfByte (b : Bool) : Byte := if b then 2 else 3

theorem halfIdx_eq (k : Key) : halfIdx k.suffix = halfByte (decide (k.suffix.val < 128)) := by
  unfold halfIdx halfByte
  by_cases h : k.suffix.val < 128 <;> simp [h]

theorem asU8_termLen (m : KV) (s : Stem) : (asU8 (termLen m s)).val = termLen m s := by
  have := termLen_le m s
  rw [Wire.asU8_val]; omega

theorem depth_sum (m : KV) (keys : List Key) (d : BSet Stem) :
    ((honestHint m keys d).depths.map Fin.val).sum = ((stemsOf keys).map (termLen m)).sum := by
  simp only [honestHint, List.map_map]
  congr 1
  exact List.map_congr_left fun s _ => asU8_termLen m s

/-- Every opened node but the root lies on the path of an asked stem, or is an asked half of a stem. -/
theorem opened_mem {m : KV} {keys : List Key} {p : Path} (h : Opened m (· ∈ keys) p) (hp0 : p ≠ []) :
    p ∈ (stemsOf keys).flatMap (fun s => (List.range (termLen m s)).map fun i => s.1.take (i + 1)) ++
      (halfSet (HasStem m) keys).toList.map fun x => termPath m x.1 ++ [halfByte x.2] := by
  have hst : ∀ {k : Key}, k ∈ keys → k.stem ∈ stemsOf keys := fun hk => mem_stemsOf.2 ⟨_, hk, rfl⟩
  have hpath : ∀ {k : Key} {q : Path}, k ∈ keys → q ≠ [] → q <+: k.stem.1 → q.length ≤ termLen m k.stem →
      q ∈ (stemsOf keys).flatMap (fun s => (List.range (termLen m s)).map fun i => s.1.take (i + 1)) := by
    intro k q hk hq hpre hl
    have hpos := List.length_pos_iff.2 hq
    refine List.mem_flatMap.2 ⟨_, hst hk, List.mem_map.2 ⟨q.length - 1, List.mem_range.2 (by omega), ?_⟩⟩
    rw [show q.length - 1 + 1 = q.length by omega]
    exact (prefix_eq_take hpre).symm
  have hhalf : ∀ {k : Key} {q : Path}, k ∈ keys → TermStem m q k.stem →
      q ++ [halfIdx k.suffix] ∈ (halfSet (HasStem m) keys).toList.map fun x => termPath m x.1 ++ [halfByte x.2] := by
    intro k q hk hu
    refine List.mem_map.2 ⟨(k.stem, decide (k.suffix.val < 128)), ?_, ?_⟩
    · exact Finset.mem_toList.2 (mem_halfSet hk hu.2.2.1)
    · show termPath m k.stem ++ _ = _
      rw [hu.termPath hu.2.2.2, halfIdx_eq]
  obtain ⟨z, hz⟩ := h
  generalize hx : (p, z) = x at hz
  cases hz with
  | branch q z' k hk hb hp =>
    cases hx
    have hpre : p <+: k.stem.1 := (List.prefix_append _ _).trans hp
    exact List.mem_append_left _ (hpath hk hp0 hpre ((isBranch_prefix_iff hpre).1 hb).le)
  | ext q z' u k hk hu hp hz' =>
    cases hx
    refine List.mem_append_left _ (hpath hk hp0 hp ?_)
    rw [hu.termLen hp]
  | half q k hk hu =>
    cases hx
    refine List.mem_append_left _ (hpath hk hp0 hu.2.2.2 ?_)
    rw [hu.termLen hu.2.2.2]
  | low q k hk hu => cases hx; exact List.mem_append_right _ (hhalf hk hu)
  | high q k hk hu => cases hx; exact List.mem_append_right _ (hhalf hk hu)

/-- Every query opens a child on the path of an asked stem, one of the first two slots of the stem where that path ends, the
commitment to an asked half, or one of the two slots of an asked key. -/
theorem label_mem' {m : KV} {keys : List Key} {x : Path × Byte} (h : Label m (· ∈ keys) x) :
    x ∈ (stemsOf keys).flatMap (fun s => (List.range (termLen m s)).map fun i => (s.1.take i, s.1.getD i 0)) ++
      (stemsOf keys).flatMap (fun s => [(termPath m s, 0), (termPath m s, 1)]) ++
      (halfSet (HasStem m) keys).toList.map (fun x => (termPath m x.1, halfByte x.2)) ++
      keys.toFinset.toList.flatMap fun k => [(termPath m k.stem ++ [halfIdx k.suffix], lowIdx k.suffix),
        (termPath m k.stem ++ [halfIdx k.suffix], highIdx k.suffix)] := by
  have hst : ∀ {k : Key}, k ∈ keys → k.stem ∈ stemsOf keys := fun hk => mem_stemsOf.2 ⟨_, hk, rfl⟩
  have hself : ∀ {p : Path} {k : Key}, TermStem m p k.stem → termPath m k.stem = p := fun hu => hu.termPath hu.2.2.2
  cases h with
  | branch p z k hk hb hp =>
    refine List.mem_append_left _ (List.mem_append_left _ (List.mem_append_left _
      (List.mem_flatMap.2 ⟨_, hst hk, List.mem_map.2 ⟨p.length, List.mem_range.2 ?_, ?_⟩⟩)))
    · exact (isBranch_prefix_iff ((List.prefix_append _ _).trans hp)).1 hb
    · obtain ⟨t, ht⟩ := hp
      rw [← ht]
      simp [List.getD_eq_getElem?_getD]
  | ext p z u k hk hu hp hz =>
    refine List.mem_append_left _ (List.mem_append_left _ (List.mem_append_right _
      (List.mem_flatMap.2 ⟨_, hst hk, ?_⟩)))
    rw [← hu.termPath hp]
    rcases hz with rfl | rfl <;> simp
  | half p k hk hu =>
    refine List.mem_append_left _ (List.mem_append_right _ (List.mem_map.2 ⟨(k.stem, decide (k.suffix.val < 128)), ?_, ?_⟩))
    · exact Finset.mem_toList.2 (mem_halfSet hk hu.2.2.1)
    · show (termPath m k.stem, _) = _
      rw [hself hu, halfIdx_eq]
  | low p k hk hu =>
    exact List.mem_append_right _ (List.mem_flatMap.2 ⟨k, by simpa using hk, by rw [← hself hu]; simp⟩)
  | high p k hk hu =>
    exact List.mem_append_right _ (List.mem_flatMap.2 ⟨k, by simpa using hk, by rw [← hself hu]; simp⟩)

theorem labels_count {m : KV} {keys : List Key} {L : List (Path × Byte)} (hL : Ascending L)
    (hm : ∀ x, x ∈ L ↔ Label m (· ∈ keys) x) :
    L.length ≤ ((stemsOf keys).map (termLen m)).sum + 2 * (stemSet keys).card + (halfSet (HasStem m) keys).card + 2 * keys.toFinset.card := by
  have h1 := (List.subperm_of_subset hL.nodup fun x hx => label_mem' ((hm x).1 hx)).length_le
  simp only [List.length_append, List.length_flatMap, List.length_map, List.length_range, List.length_cons, List.length_nil,
    List.map_const', List.sum_replicate, Finset.length_toList, stemsOf_length, smul_eq_mul] at h1
  change _ ≤ ((stemsOf keys).map (termLen m)).sum + _ + _ + _ at h1
  omega

theorem comms_count {m : KV} {keys : List Key} {P : BSet Path} {R : List Path} (hP : Ascending P)
    (hPm : ∀ p, p ∈ P ↔ Opened m (· ∈ keys) p) (hR : P = [] :: R) :
    R.length ≤ ((stemsOf keys).map (termLen m)).sum + (halfSet (HasStem m) keys).card := by
  subst hR
  have hn : ([] :: R : List Path).Nodup := Ascending.nodup hP
  have hs := (List.subperm_of_subset (List.nodup_cons.1 hn).2 fun p hp =>
    opened_mem ((hPm p).1 (List.mem_cons_of_mem _ hp)) (by rintro rfl; exact (List.nodup_cons.1 hn).1 hp)).length_le
  simp only [List.length_append, List.length_flatMap, List.length_map, List.length_range, Finset.length_toList] at hs
  exact hs

theorem foreign_count {m : KV} {keys : List Key} {d : BSet Stem} (hd : Ascending d)
    (hm : ∀ u, u ∈ d ↔ ForeignStem m (· ∈ keys) u) : d.length + (heldSet (HasStem m) keys).card ≤ (stemSet keys).card := by
  let g : Stem → Stem := fun s => if h : ∃ u, TermStem m (termPath m s) u then h.choose else s
  have hsub : List.toFinset d ⊆ ((stemSet keys).filter fun s => ¬ HasStem m s).image g := fun u hu => by
    obtain ⟨p, hp, ⟨k, hk, hpk⟩, hne⟩ := (hm u).1 (List.mem_toFinset.1 hu)
    refine Finset.mem_image.2 ⟨k.stem, Finset.mem_filter.2 ⟨?_, fun hs => ?_⟩, ?_⟩
    · rw [stemSet, List.mem_toFinset]
      exact List.mem_map.2 ⟨k, hk, rfl⟩
    · exact hne k hk (TermStem.unique ⟨hp.1, hp.2.1, hs, hpk⟩ hp)
    · have hp' : TermStem m (termPath m k.stem) u := by rw [hp.termPath hpk]; exact hp
      have hex : ∃ u, TermStem m (termPath m k.stem) u := ⟨u, hp'⟩
      show (if h : ∃ u, TermStem m (termPath m k.stem) u then h.choose else k.stem) = u
      rw [dif_pos hex]
      exact hex.choose_spec.unique hp'
  have h1 := (Finset.card_le_card hsub).trans Finset.card_image_le
  rw [List.toFinset_card_of_nodup (Ascending.nodup hd)] at h1
  have h2 := Finset.card_filter_add_card_filter_not (s := stemSet keys) (HasStem m)
  unfold heldSet
  omega

theorem depth_sum_le (m : KV) (keys : List Key) : ((stemsOf keys).map (termLen m)).sum ≤ 31 * (stemSet keys).card := by
  have := List.sum_le_card_nsmul ((stemsOf keys).map (termLen m)) 31 fun x hx => by
    obtain ⟨s, -, rfl⟩ := List.mem_map.1 hx
    exact termLen_le m s
  rw [List.length_map, stemsOf_length, smul_eq_mul] at this
  omega

variable [DecidableEq F] [DecidableEq G]

/-- A value was written below the stem. -/
def Stored (l : List (Key × Value)) (s : Stem) : Prop := ∃ x ∈ l, x.1.stem = s

theorem stored_eq (l : List (Key × Value)) : Stored l = HasStem (lastWrite l) := by
  funext s
  exact propext (hasStem_iff l s).symm

/-- C72, queries.  The prover opens at most one child per level above the depth it reports for each distinct stem, two slots per
stem, one per half of a stored stem asked for, and two per distinct key; there is one depth per distinct stem.  Keys repeated
or reordered cost nothing. -/
theorem C72_query_count (C : Crypto F G) (l : List (Key × Value)) {db : MemoryDb F G} (hb : build C l = .ok db) {keys : List Key}
    {qs : List (ProverQuery F G)} {h : VerificationHint} (hq : createProverQueries db keys = .ok (qs, h)) :
    h.depths.length = (stemSet keys).card ∧ h.extensionPresent.length = (stemSet keys).card ∧ (∀ b ∈ h.depths, b.val ≤ 31) ∧
      qs.length ≤ (h.depths.map Fin.val).sum + 2 * (stemSet keys).card + (halfSet (Stored l) keys).card + 2 * keys.toFinset.card ∧
      qs.length ≤ 36 * keys.toFinset.card := by
  rw [build_iff] at hb
  subst hb
  have hne : keys ≠ [] := by
    rintro rfl
    simp [createProverQueries] at hq
  obtain ⟨L, d, he, hL, hLm, hd, hdm⟩ := createProverQueries_spec C (lastWrite l) hne
  rw [he] at hq
  cases hq
  have h1 := labels_count hL hLm
  have h2 := depth_sum_le (lastWrite l) keys
  obtain ⟨a, b, h3, h4, h5, h6, h7⟩ := key_counts (HasStem (lastWrite l)) keys
  rw [depth_sum, List.length_map, stored_eq]
  refine ⟨by simp [honestHint, stemsOf_length], by simp [honestHint, stemsOf_length], fun b hb => ?_, h1, by omega⟩
  obtain ⟨s, -, rfl⟩ := List.mem_map.1 hb
  rw [asU8_termLen]; exact termLen_le _ s

/-- C72.  A proof written out takes 588 bytes, one byte per distinct stem asked for, 31 bytes per foreign stem reported and 32
bytes per commitment.  There are at most as many foreign stems as distinct stems asked for that are not stored, and at most as
many commitments as the sum of the reported depths plus the number of halves of stored stems asked for: the size does not depend
on the number of values asked for below a stem nor on the size of the trie.  It is at most 588 + 1057 bytes per stored stem + 1024
bytes per other stem, and at most 588 + 1025 bytes per distinct key. -/
theorem C72_proof_size (C : Crypto F G) (K : WireCodec F G) (openAll : List (ProverQuery F G) → Res (MultiProof F G))
    (check : MultiProof F G → List (VerifierQuery F G) → Res Bool)
    (hO : ∀ qs p, openAll qs = .ok p → p.openProof.L.length = 8 ∧ p.openProof.R.length = 8)
    (l : List (Key × Value)) {db : MemoryDb F G} (hb : build C l = .ok db) {keys : List Key}
    {p : VerkleProof G (MultiProof F G)}
    (hp : createVerkleProof (⟨MultiProof F G, openAll, check⟩ : Opener F G) db keys = .ok (.ok p)) :
    ∃ bs, writeProof K p = .ok bs ∧
      bs.length = 588 + (stemSet keys).card + 31 * p.hint.diffStemNoProof.length + 32 * p.comms.length ∧
      p.hint.diffStemNoProof.length + (heldSet (Stored l) keys).card ≤ (stemSet keys).card ∧
      p.comms.length ≤ (p.hint.depths.map Fin.val).sum + (halfSet (Stored l) keys).card ∧
      bs.length + 1024 * (heldSet (Stored l) keys).card ≤
        588 + 1057 * (heldSet (Stored l) keys).card + 1024 * (stemSet keys).card ∧
      bs.length ≤ 588 + 1025 * keys.toFinset.card := by
  rw [build_iff] at hb
  subst hb
  have hne : keys ≠ [] := by
    rintro rfl
    simp [createVerkleProof] at hp
  obtain ⟨L, d, he, hL, hLm, hd, hdm⟩ := createProverQueries_spec C (lastWrite l) hne
  simp only [createVerkleProof, if_neg hne, he, bind, Except.bind] at hp
  have hPasc : Ascending (BSet.ofList (L.map Prod.fst)) := BSet.asc_ofList _
  have hPm : ∀ q, q ∈ BSet.ofList (L.map Prod.fst) ↔ Opened (lastWrite l) (· ∈ keys) q := fun q => by
    rw [BSet.mem_ofList, List.mem_map]
    constructor
    · rintro ⟨⟨p', z⟩, h, rfl⟩; exact ⟨z, (hLm _).1 h⟩
    · rintro ⟨z, h⟩; exact ⟨(q, z), (hLm _).2 h, rfl⟩
  obtain ⟨R, hR⟩ := paths_cons hne hPasc hPm
  have hLP := paths_of_labels hL hLm hPasc hPm
  have hcomm := honestComms_eq C (lastWrite l) (hLP.trans hR)
  have hcount := comms_count hPasc hPm hR
  have hlen : (honestComms C (lastWrite l) L).length ≤ R.length := by
    rw [hcomm]
    refine (dedup_length _).trans ?_
    rw [List.length_map]
    exact List.length_filter_le _ _
  cases hq : L.map (labelQuery C (lastWrite l)) with
  | nil => rw [hq] at hp; simp at hp
  | cons q qs =>
    rw [hq] at hp
    simp only at hp
    cases ho : openAll (q :: qs) with
    | error e => rw [ho] at hp; simp at hp
    | ok pf =>
      rw [ho] at hp
      simp only [Except.ok.injEq] at hp
      subst hp
      have hqc : q.commitment = nodeComm C (lastWrite l) [] := by
        cases L with
        | nil => simp at hq
        | cons x L =>
          simp only [List.map_cons, List.cons.injEq] at hq
          rw [← hq.1]
          have hx : x.1 = [] := by
            obtain ⟨t, ht⟩ := dedup_cons_head x.1 (L.map Prod.fst)
            have := hLP.trans hR
            rw [List.map_cons, ht] at this
            exact (List.cons.inj this).1
          simp [labelQuery, hx]
      have hc : commsSorted q.commitment (q :: qs) = honestComms C (lastWrite l) L := by
        rw [honestComms, ← hq, hqc]
      have hw : ∀ b ∈ (honestHint (lastWrite l) keys d).depths, b.val ≤ 31 := fun b hbm => by
        obtain ⟨s, -, rfl⟩ := List.mem_map.1 hbm
        rw [asU8_termLen]; exact termLen_le _ s
      have hwp := writePacked_eq ((honestHint (lastWrite l) keys d).depths.zip (honestHint (lastWrite l) keys d).extensionPresent)
        fun p hp => hw _ (List.of_mem_zip hp).1
      have hfor := foreign_count hd hdm
      have hds := depth_sum_le (lastWrite l) keys
      have hh := halfSet_card_le (HasStem (lastWrite l)) keys
      obtain ⟨a, b, h3, h4, h5, h6, h7⟩ := key_counts (HasStem (lastWrite l)) keys
      have hflat : (List.flatMap Subtype.val d).length = 31 * d.length := by
        rw [List.length_flatMap, List.map_congr_left (g := fun _ => 31) fun s _ => s.2]
        simp [mul_comm]
      refine ⟨_, by simp only [writeProof, writeHint, hwp, bind, Except.bind]; rfl, ?_⟩
      simp only [hc, depth_sum, stored_eq]
      have hbl : (leBytes 4 d.length ++ List.flatMap Subtype.val d ++ leBytes 4 (honestHint (lastWrite l) keys d).depths.length ++
          List.map packed ((honestHint (lastWrite l) keys d).depths.zip (honestHint (lastWrite l) keys d).extensionPresent) ++
          leBytes 4 (honestComms C (lastWrite l) L).length ++ (honestComms C (lastWrite l) L).flatMap K.encE ++
          multiToBytes K pf).length =
          588 + (stemSet keys).card + 31 * d.length + 32 * (honestComms C (lastWrite l) L).length := by
        simp only [List.length_append, leBytes_length, hflat, List.length_map, List.length_zip, flatMap_encE_length,
          multiToBytes_length, (hO _ _ ho).1, (hO _ _ ho).2, honestHint, stemsOf_length, min_self]
        omega
      refine ⟨hbl, hfor, by omega, ?_, ?_⟩
      · exact (Nat.add_le_add_right hbl.le _).trans (by omega)
      · exact hbl.le.trans (by omega)

end

/-! ### Concrete cases -/

/-- The numbers of commitments and of foreign stems, and the depths, of a proof. -/
def sizesOf (l : List (Key × Value)) (keys : List Key) : Option (ℕ × ℕ × List ℕ) :=
  match build toy l >>= fun db => createVerkleProof (⟨MultiProof (ZMod 101) (ZMod 101), fun _ => .ok demoPf, fun _ _ => .ok true⟩
      : Opener _ _) db keys with
  | .ok (.ok p) => some (p.comms.length, p.hint.diffStemNoProof.length, p.hint.depths.map Fin.val)
  | _ => none

/-- Four commitments, one foreign stem and three depths. -/
theorem sizes_demo : sizesOf proofHist wireKeys = some (4, 1, [2, 1, 1]) := by decide +kernel

/-- The hypotheses of C72 hold for that proof, which takes 588 + 3 + 31 + 4 · 32 bytes. -/
example : ∃ db p bs, build toy proofHist = .ok db ∧
    createVerkleProof (⟨MultiProof (ZMod 101) (ZMod 101), fun _ => .ok demoPf, fun _ _ => .ok true⟩ : Opener _ _) db wireKeys
      = .ok (.ok p) ∧ writeProof toyWire p = .ok bs ∧ bs.length = 750 := by
  have h := sizes_demo
  unfold sizesOf at h
  cases hb : build toy proofHist with
  | error e => rw [hb] at h; simp [bind, Except.bind] at h
  | ok db =>
    rw [hb] at h
    simp only [bind, Except.bind] at h
    cases hc : createVerkleProof (⟨MultiProof (ZMod 101) (ZMod 101), fun _ => .ok demoPf, fun _ _ => .ok true⟩ : Opener _ _) db
        wireKeys with
    | error e => rw [hc] at h; simp at h
    | ok r =>
      rw [hc] at h
      cases r with
      | error e => simp at h
      | ok p =>
        simp only [Option.some.injEq, Prod.mk.injEq] at h
        obtain ⟨bs, h1, h2, -⟩ := C72_proof_size toy toyWire _ _ (fun qs p hp => by cases hp; exact ⟨rfl, rfl⟩) proofHist hb hc
        have hs : (stemSet wireKeys).card = 3 := by
          rw [← stemsOf_length]; decide +kernel
        exact ⟨db, p, bs, rfl, hc, h1, by rw [h2, h.1, h.2.1, hs]⟩

end Verif.Props
