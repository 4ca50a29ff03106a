import Verif.Proof.Extract

/-!
# Two proofs against one root

The root may be any element.  Following the openings of two accepted proofs side by side, without an explicit break they pass
through the same commitments and vectors as long as both go on.
-/

set_option autoImplicit false

namespace Verif.Proof
open Verif.Spec Verif.Trie BOrd
open scoped Classical

variable {F G : Type} [Field F] [AddCommGroup G] [Module F G]

/-- The vectors known from a proof: those extracted for its commitments, and zero. -/
def KnownVec (W : G → Byte → F) (qs : List (VerifierQuery F G)) (v : Byte → F) : Prop :=
  v = (fun _ => 0) ∨ ∃ q ∈ qs, v = W q.commitment

/-- The elements known from a proof: its commitments, and zero. -/
def KnownElem (qs : List (VerifierQuery F G)) (x : G) : Prop := x = 0 ∨ ∃ q ∈ qs, x = q.commitment

/-- An explicit break of the commitment scheme by two proofs: two different vectors with the same commitment, or two different
elements with the same hash. -/
def PairBreak (C : Crypto F G) (W W' : G → Byte → F) (qs qs' : List (VerifierQuery F G)) : Prop :=
  (∃ v v', (KnownVec W qs v ∨ KnownVec W' qs' v) ∧ (KnownVec W qs v' ∨ KnownVec W' qs' v') ∧ v ≠ v' ∧ commit C v = commit C v') ∨
  (∃ x x', (KnownElem qs x ∨ KnownElem qs' x) ∧ (KnownElem qs x' ∨ KnownElem qs' x') ∧ x ≠ x' ∧ C.h x = C.h x')

theorem PairBreak.symm {C : Crypto F G} {W W' : G → Byte → F} {qs qs' : List (VerifierQuery F G)} (h : PairBreak C W W' qs qs') :
    PairBreak C W' W qs' qs := by
  rcases h with ⟨v, v', h1, h2, h3⟩ | ⟨x, x', h1, h2, h3⟩
  · exact Or.inl ⟨v, v', h1.symm, h2.symm, h3⟩
  · exact Or.inr ⟨x, x', h1.symm, h2.symm, h3⟩

/-! ### What the openings of one claim say -/

section
variable {C : Crypto F G} {W : G → Byte → F} {qs : List (VerifierQuery F G)} {root : G} {comms : BMap Path G}
  {st : VState F} {hint : VerificationHint} {keys : List Key} {kvs : List (Key × Option Value)}

/-- A claim has commitments down to its depth. -/
theorem claim_at (hR : Run hint keys kvs st) (hO : Openings' C W qs root comms st) {k : Key} {v : Option Value} {e : ExtPresent} {d : ℕ}
    (h : IsClaim (hintByStem hint (stemsOf keys)) kvs k v e d) {i : ℕ} (hi : i < d ∨ i = d ∧ e ≠ .none) :
    ∃ c, BMap.get (k.stem.1.take i) comms = some c ∧ commit C (W c) = c ∧ ∃ q ∈ qs, q.commitment = c := by
  have ho := hR.claimOk h
  obtain ⟨z, hz⟩ : ∃ z, (k.stem.1.take i, z) ∈ st.allPathsZs := by
    rcases hi with hi | ⟨rfl, he⟩
    · obtain ⟨z, _, hz⟩ := take_next (s := k.stem) (i := i) (by have := ho.depth; omega)
      exact ⟨z, (hR.inv.zs _).2 ⟨k, v, e, d, h, Or.inl ⟨hz, by rw [take_len (by have := ho.depth; omega)]; exact hi⟩⟩⟩
    · exact ⟨0, (hR.inv.zs _).2 ⟨k, v, e, i, h, Or.inr (Or.inl ⟨he, rfl, Or.inl rfl⟩)⟩⟩
  obtain ⟨c, hc1, hc2, hq, _⟩ := hO.eq _ hz
  exact ⟨c, hc1, hc2, hq⟩

/-- The vector opened at a path and index. -/
theorem opened_at (hO : Openings' C W qs root comms st) {x : Path × Byte} (hx : x ∈ st.allPathsZs) {c : G}
    (hc : BMap.get x.1 comms = some c) : W c x.2 = claimedValue C st.leafVals comms x.1 x.2 := by
  obtain ⟨c2, hc21, _, _, hval⟩ := hO.eq _ hx
  rw [hc] at hc21
  rw [Option.some.inj hc21]
  exact hval

/-- Each commitment on the path of a claim is the child of the one before. -/
theorem claim_link (hR : Run hint keys kvs st) (hO : Openings' C W qs root comms st) {k : Key} (hc : ConsistentAt hint keys k.stem)
    {v : Option Value} {e : ExtPresent} {d : ℕ} (h : IsClaim (hintByStem hint (stemsOf keys)) kvs k v e d) {i : ℕ}
    (hi : i + 1 < d ∨ i + 1 = d ∧ e ≠ .none) {z : Byte} (hz1 : k.stem.1.take i ++ [z] = k.stem.1.take (i + 1))
    (hz2 : k.stem.1.take i ++ [z] <+: k.stem.1) {c c' : G} (hg : BMap.get (k.stem.1.take i) comms = some c)
    (hg' : BMap.get (k.stem.1.take (i + 1)) comms = some c') : W c z = C.h c' := by
  have ho := hR.claimOk h
  have hid : i < d := by omega
  have hlen : (k.stem.1.take i).length = i := take_len (by have := ho.depth; omega)
  have hzs : (k.stem.1.take i, z) ∈ st.allPathsZs :=
    (hR.inv.zs _).2 ⟨k, v, e, d, h, Or.inl ⟨hz2, by rw [hlen]; exact hid⟩⟩
  have hleaf : BMap.get (k.stem.1.take i, z) st.leafVals = none := by
    rcases hR.leaf_inner hc h hid hz1 with h1 | ⟨h1, h2, _⟩
    · exact h1
    · rcases hi with hi | ⟨_, hi⟩
      · omega
      · exact absurd h1 hi
  rw [opened_at hO hzs hg]
  unfold claimedValue
  simp only [hleaf, hz1, hg']

/-- A claim that nothing is at a path opens zero. -/
theorem claim_empty (hR : Run hint keys kvs st) (hO : Openings' C W qs root comms st) {k : Key} (hc : ConsistentAt hint keys k.stem)
    {v : Option Value} {d : ℕ} (h : IsClaim (hintByStem hint (stemsOf keys)) kvs k v .none (d + 1)) {z : Byte}
    (hz1 : k.stem.1.take d ++ [z] = k.stem.1.take (d + 1)) (hz2 : k.stem.1.take d ++ [z] <+: k.stem.1) {c : G}
    (hg : BMap.get (k.stem.1.take d) comms = some c) : W c z = 0 := by
  have ho := hR.claimOk h
  have hlen : (k.stem.1.take d).length = d := take_len (by have := ho.depth; omega)
  have hzs : (k.stem.1.take d, z) ∈ st.allPathsZs :=
    (hR.inv.zs _).2 ⟨k, v, _, d + 1, h, Or.inl ⟨hz2, by rw [hlen]; omega⟩⟩
  rw [opened_at hO hzs hg]
  unfold claimedValue
  rcases hR.leaf_inner hc h (i := d) (by omega) hz1 with h1 | ⟨_, _, h1⟩
  · simp only [h1]
    cases hg : BMap.get (k.stem.1.take d ++ [z]) comms with
    | none => rfl
    | some c' =>
      have := hO.mem _ _ hg
      rw [hz1] at this
      exact absurd this (hR.paths_empty hc h)
  · simp only [h1]

/-- A claim about a stem opens the marker. -/
theorem claim_one (hR : Run hint keys kvs st) (hO : Openings' C W qs root comms st) {k : Key} (hc : ConsistentAt hint keys k.stem)
    {v : Option Value} (hfun : ∀ v', (k, v') ∈ kvs → v' = v) {e : ExtPresent} {d : ℕ}
    (h : IsClaim (hintByStem hint (stemsOf keys)) kvs k v e d) (he : e ≠ .none) {c : G}
    (hg : BMap.get (k.stem.1.take d) comms = some c) : W c 0 = 1 := by
  have hz : (k.stem.1.take d, (0 : Byte)) ∈ st.allPathsZs :=
    (hR.inv.zs _).2 ⟨k, v, e, d, h, Or.inr (Or.inl ⟨he, rfl, Or.inl rfl⟩)⟩
  have hleaf : BMap.get (k.stem.1.take d, (0 : Byte)) st.leafVals = some 1 := by
    apply hR.leaf_eq hc hfun h
    cases e with
    | none => exact absurd rfl he
    | present => simp [claimWrites]
    | differentStem => simp [claimWrites]
  rw [opened_at hO hz hg]
  unfold claimedValue
  simp only [hleaf]

/-- It opens the number of the stem, or of another. -/
theorem claim_stem (hR : Run hint keys kvs st) (hO : Openings' C W qs root comms st) {k : Key} (hc : ConsistentAt hint keys k.stem)
    {v : Option Value} (hfun : ∀ v', (k, v') ∈ kvs → v' = v) {e : ExtPresent} {d : ℕ}
    (h : IsClaim (hintByStem hint (stemsOf keys)) kvs k v e d) (he : e ≠ .none) {c : G}
    (hg : BMap.get (k.stem.1.take d) comms = some c) : ∃ u : Stem, W c 1 = frLe F u.1 ∧ (e = .present ↔ u = k.stem) := by
  have hz : (k.stem.1.take d, (1 : Byte)) ∈ st.allPathsZs :=
    (hR.inv.zs _).2 ⟨k, v, e, d, h, Or.inr (Or.inl ⟨he, rfl, Or.inr rfl⟩)⟩
  have hval := opened_at hO hz hg
  cases e with
  | none => exact absurd rfl he
  | present =>
    have hleaf : BMap.get (k.stem.1.take d, (1 : Byte)) st.leafVals = some (frLe F k.stem.1) :=
      hR.leaf_eq hc hfun h (by simp [claimWrites])
    refine ⟨k.stem, ?_, by simp⟩
    rw [hval]
    unfold claimedValue
    simp only [hleaf]
  | differentStem =>
    obtain ⟨u, hleaf, _, hu⟩ := leaf_other hR hc hfun h
    refine ⟨u, ?_, by simp [hu]⟩
    rw [hval]
    unfold claimedValue
    simp only [hleaf]

/-- A claim of presence opens the suffix commitment and, in it, the value. -/
theorem claim_value (hR : Run hint keys kvs st) (hO : Openings' C W qs root comms st) {k : Key} (hc : ConsistentAt hint keys k.stem)
    {v : Option Value} (hfun : ∀ v', (k, v') ∈ kvs → v' = v) {d : ℕ}
    (h : IsClaim (hintByStem hint (stemsOf keys)) kvs k v .present d) {c : G} (hg : BMap.get (k.stem.1.take d) comms = some c) :
    ∃ c', commit C (W c') = c' ∧ (∃ q ∈ qs, q.commitment = c') ∧ W c (halfIdx k.suffix) = C.h c' ∧
      W c' (lowIdx k.suffix) = (slot F v).1 ∧ W c' (highIdx k.suffix) = (slot F v).2 := by
  have hz1 : (k.stem.1.take d, halfIdx k.suffix) ∈ st.allPathsZs :=
    (hR.inv.zs _).2 ⟨k, v, _, d, h, Or.inr (Or.inr ⟨rfl, Or.inl ⟨rfl, rfl⟩⟩)⟩
  have hz2 : (k.stem.1.take d ++ [halfIdx k.suffix], lowIdx k.suffix) ∈ st.allPathsZs :=
    (hR.inv.zs _).2 ⟨k, v, _, d, h, Or.inr (Or.inr ⟨rfl, Or.inr ⟨rfl, Or.inl rfl⟩⟩)⟩
  have hz3 : (k.stem.1.take d ++ [halfIdx k.suffix], highIdx k.suffix) ∈ st.allPathsZs :=
    (hR.inv.zs _).2 ⟨k, v, _, d, h, Or.inr (Or.inr ⟨rfl, Or.inr ⟨rfl, Or.inr rfl⟩⟩)⟩
  obtain ⟨c', hc1, hc2, hq, hval2⟩ := hO.eq _ hz2
  simp only at hc1
  have hval1 := opened_at hO hz1 hg
  have hval3 := opened_at hO hz3 hc1
  have hlow : BMap.get (k.stem.1.take d ++ [halfIdx k.suffix], lowIdx k.suffix) st.leafVals = some (valueHalves F v).1 :=
    hR.leaf_eq hc hfun h (by simp [claimWrites])
  have hhigh : BMap.get (k.stem.1.take d ++ [halfIdx k.suffix], highIdx k.suffix) st.leafVals = some (valueHalves F v).2 :=
    hR.leaf_eq hc hfun h (by simp [claimWrites])
  unfold claimedValue at hval1 hval2 hval3
  simp only [hR.leaf_half hc h, hc1] at hval1
  simp only [hlow, hhigh] at hval2 hval3
  rw [valueHalves_eq] at hval2 hval3
  exact ⟨c', hc2, hq, hval1, hval2, hval3⟩

end

/-! ### Two claims about one key -/

section
variable {C : Crypto F G} {root : G} {W W' : G → Byte → F} {qs qs' : List (VerifierQuery F G)} {comms comms' : BMap Path G}
  {st st' : VState F} {hint hint' : VerificationHint} {keys keys' : List Key} {kvs kvs' : List (Key × Option Value)}

/-- Without a break equal hashes come from equal commitments with equal vectors. -/
theorem same_next (hnb : ¬ PairBreak C W W' qs qs') {c c' : G} (hq : ∃ q ∈ qs, q.commitment = c) (hq' : ∃ q ∈ qs', q.commitment = c')
    (hc : commit C (W c) = c) (hc' : commit C (W' c') = c') (h : C.h c = C.h c') : c = c' ∧ W c = W' c' := by
  obtain ⟨q, hq, rfl⟩ := hq
  obtain ⟨q', hq', rfl⟩ := hq'
  have e : q.commitment = q'.commitment := by
    by_contra hne
    exact hnb (Or.inr ⟨_, _, Or.inl (Or.inr ⟨q, hq, rfl⟩), Or.inr (Or.inr ⟨q', hq', rfl⟩), hne, h⟩)
  refine ⟨e, ?_⟩
  by_contra hne
  exact hnb (Or.inl ⟨_, _, Or.inl (Or.inr ⟨q, hq, rfl⟩), Or.inr (Or.inr ⟨q', hq', rfl⟩), hne, by rw [hc, hc', e]⟩)

/-- Two claims about one stem at the same depth pass through the same commitments. -/
theorem same_path (hnb : ¬ PairBreak C W W' qs qs') (hR : Run hint keys kvs st) (hO : Openings' C W qs root comms st)
    (hR' : Run hint' keys' kvs' st') (hO' : Openings' C W' qs' root comms' st') {k k' : Key} (hkk : k'.stem = k.stem) (hc : ConsistentAt hint keys k.stem)
    (hc' : ConsistentAt hint' keys' k'.stem) {v v' : Option Value} {e e' : ExtPresent} {d d' : ℕ}
    (h : IsClaim (hintByStem hint (stemsOf keys)) kvs k v e d) (h' : IsClaim (hintByStem hint' (stemsOf keys')) kvs' k' v' e' d') :
    ∀ i, (i < d ∨ i = d ∧ e ≠ .none) → (i < d' ∨ i = d' ∧ e' ≠ .none) →
      ∃ c, BMap.get (k.stem.1.take i) comms = some c ∧ BMap.get (k.stem.1.take i) comms' = some c ∧ W c = W' c := by
  intro i
  induction i with
  | zero =>
    intro hi hi'
    obtain ⟨c, a1, a2, a3⟩ := claim_at hR hO h hi
    obtain ⟨c', b1, b2, b3⟩ := claim_at hR' hO' h' hi'
    rw [List.take_zero] at a1 b1
    have e1 : c = root := by rw [hO.root] at a1; exact (Option.some.inj a1).symm
    have e2 : c' = root := by rw [hO'.root] at b1; exact (Option.some.inj b1).symm
    subst e2
    subst e1
    exact ⟨c, by rw [List.take_zero]; exact a1, by rw [List.take_zero]; exact b1, (same_next hnb a3 b3 a2 b2 rfl).2⟩
  | succ i ih =>
    intro hi hi'
    obtain ⟨c, a1, b1, hw⟩ := ih (Or.inl (by omega)) (Or.inl (by omega))
    obtain ⟨c₁, a2, a3, a4⟩ := claim_at hR hO h hi
    obtain ⟨c₂, b2, b3, b4⟩ := claim_at hR' hO' h' hi'
    have hd := (hR.claimOk h).depth
    obtain ⟨z, hz1, hz2⟩ := take_next (s := k.stem) (i := i) (by omega)
    have l1 := claim_link hR hO hc h hi hz1 hz2 a1 a2
    rw [hkk] at b2
    have l2 := claim_link hR' hO' hc' h' hi' (z := z) (by rw [hkk]; exact hz1) (by rw [hkk]; exact hz2) (by rw [hkk]; exact b1) (by rw [hkk]; exact b2)
    obtain ⟨rfl, hw'⟩ := same_next hnb a4 b4 a3 b3 (by rw [← l1, ← l2, hw])
    exact ⟨c₁, a2, b2, hw'⟩

/-- A claim of presence and a claim that the path is empty, at the same depth, contradict each other. -/
theorem not_empty (hnb : ¬ PairBreak C W W' qs qs') (hR : Run hint keys kvs st) (hO : Openings' C W qs root comms st)
    (hR' : Run hint' keys' kvs' st') (hO' : Openings' C W' qs' root comms' st') {k k' : Key} (hkk : k'.stem = k.stem)
    (hc : ConsistentAt hint keys k.stem) (hc' : ConsistentAt hint' keys' k'.stem) {v v' : Option Value} {e : ExtPresent} {d : ℕ}
    (hfun : ∀ w, (k, w) ∈ kvs → w = v) (he : e ≠ .none)
    (h : IsClaim (hintByStem hint (stemsOf keys)) kvs k v e d) (h' : IsClaim (hintByStem hint' (stemsOf keys')) kvs' k' v' .none d) : False := by
  have hd1 := (hR'.claimOk h').pos rfl
  have hd := (hR.claimOk h).depth
  obtain ⟨i, rfl⟩ : ∃ i, d = i + 1 := ⟨d - 1, by omega⟩
  obtain ⟨c, a1, b1, hw⟩ := same_path hnb hR hO hR' hO' hkk hc hc' h h' i (Or.inl (by omega)) (Or.inl (by omega))
  obtain ⟨c₁, a2, a3, a4⟩ := claim_at hR hO h (Or.inr ⟨rfl, he⟩)
  obtain ⟨z, hz1, hz2⟩ := take_next (s := k.stem) (i := i) (by omega)
  have l1 := claim_link hR hO hc h (Or.inr ⟨rfl, he⟩) hz1 hz2 a1 a2
  have l2 := claim_empty hR' hO' hc' h' (z := z) (by rw [hkk]; exact hz1) (by rw [hkk]; exact hz2) (by rw [hkk]; exact b1)
  have hm := claim_one hR hO hc hfun h he a2
  rw [hw, l2] at l1
  obtain ⟨q, hq, rfl⟩ := a4
  by_cases h0 : q.commitment = 0
  · refine hnb (Or.inl ⟨W q.commitment, fun _ => 0, Or.inl (Or.inr ⟨q, hq, rfl⟩), Or.inl (Or.inl rfl), fun hz => ?_, ?_⟩)
    · rw [hz] at hm
      exact zero_ne_one hm
    · rw [a3, commit_zero, h0]
  · exact hnb (Or.inr ⟨q.commitment, 0, Or.inl (Or.inr ⟨q, hq, rfl⟩), Or.inl (Or.inl rfl), h0, by rw [← l1, C.h_zero]⟩)

/-- Two claims about one key at the same depth agree. -/
theorem claims_agree (hF : BigField F) (hnb : ¬ PairBreak C W W' qs qs') (hR : Run hint keys kvs st) (hO : Openings' C W qs root comms st)
    (hR' : Run hint' keys' kvs' st') (hO' : Openings' C W' qs' root comms' st') {k : Key} (hc : ConsistentAt hint keys k.stem)
    (hc' : ConsistentAt hint' keys' k.stem) {v v' : Option Value} {e e' : ExtPresent} {d : ℕ} (hfun : ∀ w, (k, w) ∈ kvs → w = v)
    (hfun' : ∀ w, (k, w) ∈ kvs' → w = v')
    (h : IsClaim (hintByStem hint (stemsOf keys)) kvs k v e d) (h' : IsClaim (hintByStem hint' (stemsOf keys')) kvs' k v' e' d) :
    e = e' ∧ v = v' := by
  by_cases he : e = .none <;> by_cases he' : e' = .none
  · subst he he'
    exact ⟨rfl, by rw [(hR.claimOk h).value (by simp), (hR'.claimOk h').value (by simp)]⟩
  · subst he
    exact (not_empty (fun hb => hnb hb.symm) hR' hO' hR hO rfl hc' hc hfun' he' h' h).elim
  · subst he'
    exact (not_empty hnb hR hO hR' hO' rfl hc hc' hfun he h h').elim
  · obtain ⟨c, a1, b1, hw⟩ := same_path hnb hR hO hR' hO' rfl hc hc' h h' d (Or.inr ⟨rfl, he⟩) (Or.inr ⟨rfl, he'⟩)
    obtain ⟨u, a2, a3⟩ := claim_stem hR hO hc hfun h he a1
    obtain ⟨u', b2, b3⟩ := claim_stem hR' hO' hc' hfun' h' he' b1
    have huu : u = u' := stem_enc_inj hF (by rw [hw, b2] at a2; exact a2.symm)
    subst huu
    by_cases hp : e = .present
    · have hp' : e' = .present := b3.2 (a3.1 hp)
      subst hp hp'
      refine ⟨rfl, ?_⟩
      obtain ⟨c₁, x1, x2, x3, x4, x5⟩ := claim_value hR hO hc hfun h a1
      obtain ⟨c₂, y1, y2, y3, y4, y5⟩ := claim_value hR' hO' hc' hfun' h' b1
      obtain ⟨rfl, hw'⟩ := same_next hnb x2 y2 x1 y1 (by rw [← x3, ← y3, hw])
      rw [hw'] at x4 x5
      exact slot_inj hF (Prod.ext (x4.symm.trans y4) (x5.symm.trans y5))
    · have hp' : e' ≠ .present := fun hp' => hp (a3.2 (b3.1 hp'))
      refine ⟨?_, by rw [(hR.claimOk h).value hp, (hR'.claimOk h').value hp']⟩
      cases e <;> cases e' <;> simp_all

/-- If one claim takes the node at its depth for a stem and the other goes on, both open the same vector there, with the marker. -/
theorem stem_passed (hnb : ¬ PairBreak C W W' qs qs') (hR : Run hint keys kvs st) (hO : Openings' C W qs root comms st)
    (hR' : Run hint' keys' kvs' st') (hO' : Openings' C W' qs' root comms' st') {k : Key} (hc : ConsistentAt hint keys k.stem)
    (hc' : ConsistentAt hint' keys' k.stem) {v v' : Option Value} {e e' : ExtPresent} {d d' : ℕ} (hfun : ∀ w, (k, w) ∈ kvs → w = v)
    (h : IsClaim (hintByStem hint (stemsOf keys)) kvs k v e d) (h' : IsClaim (hintByStem hint' (stemsOf keys')) kvs' k v' e' d')
    (he : e ≠ .none) (hd : d < d') :
    ∃ q ∈ qs, ∃ q' ∈ qs', q'.commitment = q.commitment ∧ W q.commitment = W' q.commitment ∧ W q.commitment 0 = 1 := by
  obtain ⟨c, a1, b1, hw⟩ := same_path hnb hR hO hR' hO' rfl hc hc' h h' d (Or.inr ⟨rfl, he⟩) (Or.inl hd)
  obtain ⟨c₁, a2, _, q, hq, a4⟩ := claim_at hR hO h (Or.inr ⟨rfl, he⟩)
  obtain ⟨c₂, b2, _, q', hq', b4⟩ := claim_at hR' hO' h' (Or.inl hd)
  rw [a1] at a2
  rw [b1] at b2
  rw [← Option.some.inj a2] at a4
  rw [← Option.some.inj b2] at b4
  subst a4
  exact ⟨q, hq, q', hq', b4, hw, claim_one hR hO hc hfun h he a1⟩

/-- Nothing is below an empty path. -/
theorem empty_below (hnb : ¬ PairBreak C W W' qs qs') (hR : Run hint keys kvs st) (hO : Openings' C W qs root comms st)
    (hR' : Run hint' keys' kvs' st') (hO' : Openings' C W' qs' root comms' st') {k : Key} (hc : ConsistentAt hint keys k.stem)
    (hc' : ConsistentAt hint' keys' k.stem) {v v' : Option Value} {e' : ExtPresent} {d d' : ℕ} (hfun' : ∀ w, (k, w) ∈ kvs' → w = v')
    (h : IsClaim (hintByStem hint (stemsOf keys)) kvs k v .none d) (h' : IsClaim (hintByStem hint' (stemsOf keys')) kvs' k v' e' d')
    (hd : d < d') : e' = .none := by
  have hd1 := (hR.claimOk h).pos rfl
  have hd31 := (hR'.claimOk h').depth
  obtain ⟨i, rfl⟩ : ∃ i, d = i + 1 := ⟨d - 1, by omega⟩
  have hzero : ∀ {c : G}, (∃ q ∈ qs', q.commitment = c) → commit C (W' c) = c → C.h c = 0 → W' c = fun _ => 0 := by
    rintro c ⟨q, hq, rfl⟩ hcw h0
    have e0 : q.commitment = 0 := by
      by_contra hne
      exact hnb (Or.inr ⟨q.commitment, 0, Or.inr (Or.inr ⟨q, hq, rfl⟩), Or.inl (Or.inl rfl), hne, by rw [h0, C.h_zero]⟩)
    by_contra hne
    exact hnb (Or.inl ⟨_, _, Or.inr (Or.inr ⟨q, hq, rfl⟩), Or.inl (Or.inl rfl), hne, by rw [hcw, e0, commit_zero]⟩)
  have key : ∀ j, i + 1 ≤ j → (j < d' ∨ j = d' ∧ e' ≠ .none) →
      ∃ c, BMap.get (k.stem.1.take j) comms' = some c ∧ W' c = fun _ => 0 := by
    intro j hj
    induction j, hj using Nat.le_induction with
    | base =>
      intro hi'
      obtain ⟨c, a1, b1, hw⟩ := same_path hnb hR hO hR' hO' rfl hc hc' h h' i (Or.inl (by omega)) (Or.inl (by omega))
      obtain ⟨c₂, b2, b3, b4⟩ := claim_at hR' hO' h' hi'
      obtain ⟨z, hz1, hz2⟩ := take_next (s := k.stem) (i := i) (by omega)
      have l1 := claim_empty hR hO hc h hz1 hz2 a1
      have l2 := claim_link hR' hO' hc' h' hi' hz1 hz2 b1 b2
      exact ⟨c₂, b2, hzero b4 b3 (by rw [← l2, ← hw, l1])⟩
    | succ j hj ih =>
      intro hi'
      obtain ⟨c, b1, hw⟩ := ih (Or.inl (by omega))
      obtain ⟨c₂, b2, b3, b4⟩ := claim_at hR' hO' h' hi'
      obtain ⟨z, hz1, hz2⟩ := take_next (s := k.stem) (i := j) (by omega)
      have l2 := claim_link hR' hO' hc' h' hi' hz1 hz2 b1 b2
      exact ⟨c₂, b2, hzero b4 b3 (by rw [← l2, hw])⟩
  by_contra he'
  obtain ⟨c, b1, hw⟩ := key d' hd.le (Or.inr ⟨rfl, he'⟩)
  have hm := claim_one hR' hO' hc' hfun' h' he' b1
  rw [hw] at hm
  exact zero_ne_one hm

end

end Verif.Proof
