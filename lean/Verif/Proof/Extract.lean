import Verif.Proof.Truth

/-!
# From openings to the trie

`W` assigns to each commitment the vector an extractor finds for it.  Without an explicit break, following the openings of a
claim visits the nodes of the trie, or runs into a stem and beyond.
-/

set_option autoImplicit false

namespace Verif.Proof
open Verif.Spec Verif.Trie BOrd
open scoped Classical

variable {F G : Type} [Field F] [AddCommGroup G] [Module F G]

/-- Every query is a true opening of the vector `W` assigns to its commitment. -/
def Extracts (C : Crypto F G) (W : G → Byte → F) (qs : List (VerifierQuery F G)) : Prop :=
  ∀ q ∈ qs, ∃ z : Byte, q.point = (z.val : F) ∧ commit C (W q.commitment) = q.commitment ∧ W q.commitment z = q.result

/-- An explicit break of the commitment scheme: two vectors with the same commitment, two commitments with the same hash, a
commitment of the proof whose hash is a number stored in the trie that is not a hash, or a break inside the trie. -/
def ProofBreak (C : Crypto F G) (m : KV) (W : G → Byte → F) (qs : List (VerifierQuery F G)) : Prop :=
  (∃ q ∈ qs, ∃ v, Vectors C m v ∧ commit C v = q.commitment ∧ commit C (W q.commitment) = q.commitment ∧ v ≠ W q.commitment) ∨
  (∃ q ∈ qs, ∃ x, Comms C m x ∧ x ≠ q.commitment ∧ C.h x = C.h q.commitment) ∨
  (∃ q ∈ qs, C.h q.commitment ≠ 0 ∧ (C.h q.commitment = 1 ∨ ∃ s, HasStem m s ∧ (C.h q.commitment = (leNat s.1 : F) ∨
    ∃ off j, (off = 0 ∨ off = 128) ∧ C.h q.commitment = suffixVec m s off F j))) ∨
  Broken C m (fun _ => none)

/-- The vectors that `W` assigns to the commitments open the queries that `check` makes for a proof. -/
def CheckExtracts {Pf : Type} (C : Crypto F G) (W : G → Byte → F) (p : VerkleProof G Pf) (keys : List Key)
    (values : List (Option Value)) (root : G) : Prop :=
  ∀ qs uh, createVerifierQueries C p.hint p.comms keys values root = .ok (some (qs, uh)) → Extracts C W qs

/-- The queries that `check` makes for a proof break the commitments of the trie. -/
def CheckBreak {Pf : Type} (C : Crypto F G) (m : KV) (W : G → Byte → F) (p : VerkleProof G Pf) (keys : List Key)
    (values : List (Option Value)) (root : G) : Prop :=
  ∃ qs uh, createVerifierQueries C p.hint p.comms keys values root = .ok (some (qs, uh)) ∧ ProofBreak C m W qs

/-- The vector of the true node at a path. -/
def TrueNode (C : Crypto F G) (m : KV) (p : Path) (v : Byte → F) : Prop :=
  (IsBranch m p ∧ v = branchVec C m p) ∨ (¬ IsBranch m p ∧ ∃ s, Under m p s ∧ v = stemVec C m s) ∨
  (¬ IsBranch m p ∧ (∀ s, ¬ Under m p s) ∧ v = fun _ => 0)

/-- Beyond a stem: a suffix vector or nothing. -/
def Beyond (m : KV) (v : Byte → F) : Prop :=
  (v = fun _ => 0) ∨ ∃ s off, HasStem m s ∧ (off = 0 ∨ off = 128) ∧ v = suffixVec m s off F

theorem suffixVec_ne_one (hF : BigField F) (m : KV) (s : Stem) (off : ℕ) : suffixVec m s off F 0 ≠ 1 := by
  intro h
  have v0 : (0 : Byte).val = 0 := rfl
  simp only [suffixVec, v0, Nat.zero_mod, if_true, Nat.zero_div] at h
  cases hm : m (mkKey s (Fin.ofNat 256 (off + 0))) with
  | none => rw [hm] at h; simp [slot] at h
  | some v =>
    rw [hm] at h
    simp only [slot, lowHalf_eq] at h
    have h1 := (half_lt v).1
    have := hF (leNat (v.1.take 16) + 2 ^ 128) 1 (by omega) (by norm_num) (by simpa using h)
    omega

section
variable {C : Crypto F G} {m : KV} {W : G → Byte → F} {qs : List (VerifierQuery F G)} (hnb : ¬ ProofBreak C m W qs)
include hnb

/-- A commitment of the proof with the hash of a committed vector is that vector's. -/
theorem next_vec {c : G} (hq : ∃ q ∈ qs, q.commitment = c) (hcw : commit C (W c) = c) {v : Byte → F} (hv : Vectors C m v)
    (h : C.h (commit C v) = C.h c) : W c = v := by
  obtain ⟨q, hq, rfl⟩ := hq
  have e : commit C v = q.commitment := by
    by_contra hne
    exact hnb (Or.inr (Or.inl ⟨q, hq, _, ⟨v, hv, rfl⟩, hne, h⟩))
  by_contra hne
  exact hnb (Or.inl ⟨q, hq, v, hv, e, hcw, fun h => hne h.symm⟩)

theorem next_zero {c : G} (hq : ∃ q ∈ qs, q.commitment = c) (hcw : commit C (W c) = c) (h : C.h c = 0) : W c = fun _ => 0 :=
  next_vec hnb hq hcw .empty (by rw [commit_zero, C.h_zero, h])

/-- One step along a path. -/
theorem step_true {c : G} (hq : ∃ q ∈ qs, q.commitment = c) (hcw : commit C (W c) = c) {p : Path} {z : Byte}
    (hp : p.length < 31) {v : Byte → F} (hv : TrueNode C m p v) (h : v z = C.h c) :
    (TrueNode C m (p ++ [z]) (W c) ∧ (IsBranch m p ∨ ∀ s, ¬ Under m p s)) ∨
      (Beyond m (W c) ∧ ¬ IsBranch m p ∧ ∃ s, Under m p s) := by
  have hbr : IsBranch m (p ++ [z]) ↔ Many m (p ++ [z]) := by simp [IsBranch]
  rcases hv with ⟨hb, rfl⟩ | ⟨hb, s, hs, rfl⟩ | ⟨hb, hno, rfl⟩
  · refine Or.inl ⟨?_, Or.inl hb⟩
    obtain ⟨v', hv', he, hcase⟩ := childHash_vec (C := C) m (p ++ [z])
    have h : childHash C m (p ++ [z]) = C.h c := h
    rw [he] at h
    have hw := next_vec hnb hq hcw hv' h
    rcases hcase with ⟨hm, rfl⟩ | ⟨hm, s, hs, rfl⟩ | ⟨hno, rfl⟩
    · exact Or.inl ⟨hbr.2 hm, hw⟩
    · exact Or.inr (Or.inl ⟨fun h => hm (hbr.1 h), s, hs, hw⟩)
    · refine Or.inr (Or.inr ⟨fun h => ?_, hno, hw⟩)
      obtain ⟨s, _, _, hs, _⟩ := hbr.1 h
      exact hno _ hs
  · right
    refine ⟨?_, hb, s, hs⟩
    by_cases h0 : C.h c = 0
    · exact Or.inl (next_zero hnb hq hcw h0)
    · obtain ⟨q, hqm, rfl⟩ := id hq
      simp only [stemVec] at h
      split at h
      · exact absurd (Or.inr (Or.inr (Or.inl ⟨q, hqm, h0, Or.inl h.symm⟩))) hnb
      split at h
      · exact absurd (Or.inr (Or.inr (Or.inl ⟨q, hqm, h0, Or.inr ⟨s, hs.1, Or.inl h.symm⟩⟩))) hnb
      split at h
      · rw [suffixComm_eq_commit] at h
        exact Or.inr ⟨s, 0, hs.1, Or.inl rfl, next_vec hnb hq hcw (.suffix s hs.1 0 (Or.inl rfl)) h⟩
      split at h
      · rw [suffixComm_eq_commit] at h
        exact Or.inr ⟨s, 128, hs.1, Or.inr rfl, next_vec hnb hq hcw (.suffix s hs.1 128 (Or.inr rfl)) h⟩
      · exact absurd h.symm h0
  · refine Or.inl ⟨Or.inr (Or.inr ⟨?_, fun s hs => hno s (hs.mono (List.prefix_append _ _)),
      next_zero hnb hq hcw h.symm⟩), Or.inr hno⟩
    intro h
    obtain ⟨s, _, _, hs, _⟩ := hbr.1 h
    exact hno _ (hs.mono (List.prefix_append _ _))

theorem step_beyond {c : G} (hq : ∃ q ∈ qs, q.commitment = c) (hcw : commit C (W c) = c) {z : Byte}
    {v : Byte → F} (hv : Beyond m v) (h : v z = C.h c) : Beyond m (W c) := by
  by_cases h0 : C.h c = 0
  · exact Or.inl (next_zero hnb hq hcw h0)
  · rcases hv with rfl | ⟨s, off, hs, ho, rfl⟩
    · exact absurd h.symm h0
    · obtain ⟨q, hqm, rfl⟩ := id hq
      exact absurd (Or.inr (Or.inr (Or.inl ⟨q, hqm, h0, Or.inr ⟨s, hs, Or.inr ⟨off, z, ho, h.symm⟩⟩⟩))) hnb

/-- A node whose first entry is the stem marker is a true stem. -/
theorem stem_of_marker (hF : BigField F) {p : Path} {v : Byte → F} (hv : TrueNode C m p v) (h : v 0 = 1) :
    ¬ IsBranch m p ∧ ∃ s, Under m p s ∧ v = stemVec C m s := by
  rcases hv with ⟨hb, rfl⟩ | h' | ⟨_, _, rfl⟩
  · exfalso
    have hb' : ¬ Broken C m (fun _ => none) := fun h => hnb (Or.inr (Or.inr (Or.inr h)))
    exact (childHash_ne_one hb' (p ++ [0])).1 h
  · exact h'
  · exact absurd h zero_ne_one

end

/-! ### One claim -/

/-- The openings of an accepted proof, as equations between extracted vectors. -/
structure Openings' (C : Crypto F G) (W : G → Byte → F) (qs : List (VerifierQuery F G)) (root : G) (comms : BMap Path G)
    (st : VState F) : Prop where
  root : BMap.get [] comms = some root
  eq : ∀ x ∈ st.allPathsZs, ∃ c, BMap.get x.1 comms = some c ∧ commit C (W c) = c ∧ (∃ q ∈ qs, q.commitment = c) ∧
    W c x.2 = claimedValue C st.leafVals comms x.1 x.2
  mem : ∀ p c, BMap.get p comms = some c → p ∈ st.allPaths

theorem take_next {s : Stem} {i : ℕ} (hi : i < 31) : ∃ z, s.1.take i ++ [z] = s.1.take (i + 1) ∧ s.1.take i ++ [z] <+: s.1 := by
  have hl : i < s.1.length := by rw [s.2]; exact hi
  refine ⟨s.1[i], List.take_append_getElem hl, ?_⟩
  rw [List.take_append_getElem hl]
  exact List.take_prefix _ _

section
variable {C : Crypto F G} {m : KV} {W : G → Byte → F} {qs : List (VerifierQuery F G)} {root : G} {comms : BMap Path G}
  {st : VState F} {hint : VerificationHint} {keys : List Key} {kvs : List (Key × Option Value)}

/-- Following the openings of a claim from the root. -/
theorem walk (hF : BigField F) (hnb : ¬ ProofBreak C m W qs) (hR : Run hint keys kvs st)
    (hO : Openings' C W qs root comms st) (hroot : root = branchComm C m []) {k : Key} (hc : ConsistentAt hint keys k.stem)
    {v : Option Value} {e : ExtPresent} {d : ℕ}
    (h : IsClaim (hintByStem hint (stemsOf keys)) kvs k v e d) :
    ∀ i, (i < d ∨ i = d ∧ e ≠ .none) → ∃ c, BMap.get (k.stem.1.take i) comms = some c ∧ commit C (W c) = c ∧
      (∃ q ∈ qs, q.commitment = c) ∧
      ((TrueNode C m (k.stem.1.take i) (W c) ∧
          ∀ j, j < i → IsBranch m (k.stem.1.take j) ∨ ∀ s, ¬ Under m (k.stem.1.take j) s) ∨
        (Beyond m (W c) ∧ ∃ j, j < i ∧ ¬ IsBranch m (k.stem.1.take j) ∧ ∃ s, Under m (k.stem.1.take j) s)) := by
  have ho := hR.claimOk h
  have hopen : ∀ i, (i < d ∨ i = d ∧ e ≠ .none) → ∃ z, (k.stem.1.take i, z) ∈ st.allPathsZs := by
    intro i hi
    rcases hi with hi | ⟨rfl, he⟩
    · obtain ⟨z, _, hz⟩ := take_next (s := k.stem) (i := i) (by have := ho.depth; omega)
      exact ⟨z, (hR.inv.zs _).2 ⟨k, v, e, d, h, Or.inl ⟨hz, by rw [take_len (by have := ho.depth; omega)]; exact hi⟩⟩⟩
    · exact ⟨0, (hR.inv.zs _).2 ⟨k, v, e, i, h, Or.inr (Or.inl ⟨he, rfl, Or.inl rfl⟩)⟩⟩
  intro i
  induction i with
  | zero =>
    intro hi
    obtain ⟨z, hz⟩ := hopen 0 hi
    obtain ⟨c, hc1, hc2, hq, _⟩ := hO.eq _ hz
    refine ⟨c, hc1, hc2, hq, Or.inl ⟨Or.inl ⟨Or.inl rfl, ?_⟩, by omega⟩⟩
    have hcr : c = root := by
      rw [List.take_zero, hO.root] at hc1
      exact (Option.some.inj hc1).symm
    subst hcr
    obtain ⟨q, hqm, hqe⟩ := hq
    by_contra hne
    refine hnb (Or.inl ⟨q, hqm, branchVec C m [], .branch [] (Or.inl rfl), ?_, ?_, ?_⟩)
    · rw [hqe, hroot, branchComm_eq_commit _ _ _ (by simp)]
    · rw [hqe]; exact hc2
    · rw [hqe]; exact fun h => hne h.symm
  | succ i ih =>
    intro hi
    have hid : i < d := by omega
    obtain ⟨c, hc1, hc2, hq, hst⟩ := ih (Or.inl hid)
    obtain ⟨z', hz'⟩ := hopen (i + 1) hi
    obtain ⟨c', hc1', hc2', hq', _⟩ := hO.eq _ hz'
    refine ⟨c', hc1', hc2', hq', ?_⟩
    have hi31 : i < 31 := by have := ho.depth; omega
    obtain ⟨z, hz1, hz2⟩ := take_next (s := k.stem) hi31
    have hlen : (k.stem.1.take i).length = i := take_len (by omega)
    have hzs : (k.stem.1.take i, z) ∈ st.allPathsZs :=
      (hR.inv.zs _).2 ⟨k, v, e, d, h, Or.inl ⟨hz2, by rw [hlen]; exact hid⟩⟩
    obtain ⟨c2, hc21, _, _, hval⟩ := hO.eq _ hzs
    have : c2 = c := by
      simp only at hc21
      rw [hc1] at hc21
      exact (Option.some.inj hc21).symm
    subst this
    have hleaf : BMap.get (k.stem.1.take i, z) st.leafVals = none := by
      rcases hR.leaf_inner hc h hid hz1 with h1 | ⟨h1, h2, _⟩
      · exact h1
      · rcases hi with hi | ⟨_, hi⟩
        · omega
        · exact absurd h1 hi
    have hv : W c2 z = C.h c' := by
      rw [hval]
      unfold claimedValue
      simp only [hleaf, hz1, hc1']
    rcases hst with ⟨hst, hbs⟩ | ⟨hst, j, hj, hj2⟩
    · have := step_true hnb hq' hc2' (by rw [hlen]; exact hi31) hst hv
      rw [hz1] at this
      rcases this with ⟨h1, h2⟩ | ⟨h1, h2, h3⟩
      · refine Or.inl ⟨h1, fun j hj => ?_⟩
        rcases Nat.lt_succ_iff_lt_or_eq.1 hj with hj | rfl
        · exact hbs j hj
        · exact h2
      · exact Or.inr ⟨h1, i, by omega, h2, h3⟩
    · exact Or.inr ⟨step_beyond hnb hq' hc2' hst hv, j, by omega, hj2⟩

/-- Beyond a stem there is no marker. -/
theorem beyond_marker (hF : BigField F) {v : Byte → F} (h : Beyond m v) : v 0 ≠ 1 := by
  rcases h with rfl | ⟨s, off, _, _, rfl⟩
  · exact zero_ne_one
  · exact suffixVec_ne_one hF m s off

/-- The stem that a `DifferentStem` claim at path `p` takes for the one in the way. -/
def OtherOf (hint : VerificationHint) (swe : List Stem) (p : Path) (d : ℕ) (u : Stem) : Prop :=
  withPrefix swe p d = [u] ∨ (withPrefix swe p d = [] ∧ (withPrefix hint.diffStemNoProof p d).getLast? = some u)

/-- What a claim says about a stem is said about the true stem at its path. -/
theorem claim_mark (hF : BigField F) (hnb : ¬ ProofBreak C m W qs) (hR : Run hint keys kvs st)
    (hO : Openings' C W qs root comms st) (hroot : root = branchComm C m []) {k : Key} (hc : ConsistentAt hint keys k.stem)
    {v : Option Value} (hfun : ∀ v', (k, v') ∈ kvs → v' = v) {e : ExtPresent} {d : ℕ}
    (h : IsClaim (hintByStem hint (stemsOf keys)) kvs k v e d) (he : e ≠ .none) :
    ∃ c s, BMap.get (k.stem.1.take d) comms = some c ∧ commit C (W c) = c ∧ ¬ IsBranch m (k.stem.1.take d) ∧
      Under m (k.stem.1.take d) s ∧ W c = stemVec C m s ∧ ∀ j, j < d → IsBranch m (k.stem.1.take j) := by
  obtain ⟨c, hc1, hc2, hq, hst⟩ := walk hF hnb hR hO hroot hc h d (Or.inr ⟨rfl, he⟩)
  have hz : (k.stem.1.take d, (0 : Byte)) ∈ st.allPathsZs :=
    (hR.inv.zs _).2 ⟨k, v, e, d, h, Or.inr (Or.inl ⟨he, rfl, Or.inl rfl⟩)⟩
  obtain ⟨c2, hc21, _, _, hval⟩ := hO.eq _ hz
  have : c2 = c := by
    simp only at hc21
    rw [hc1] at hc21
    exact (Option.some.inj hc21).symm
  subst this
  have hleaf : BMap.get (k.stem.1.take d, (0 : Byte)) st.leafVals = some 1 := by
    apply hR.leaf_eq hc hfun h
    cases e with
    | none => exact absurd rfl he
    | present => simp [claimWrites]
    | differentStem => simp [claimWrites]
  have hv : W c2 0 = 1 := by
    rw [hval]
    unfold claimedValue
    simp only [hleaf]
  rcases hst with ⟨hst, hbs⟩ | ⟨hst, _⟩
  · obtain ⟨h1, s, h2, h3⟩ := stem_of_marker hnb hF hst hv
    exact ⟨c2, s, hc1, hc2, h1, h2, h3, fun j hj =>
      (hbs j hj).resolve_right fun hno => hno s (h2.mono (List.take_prefix_take_left hj.le))⟩
  · exact absurd hv (beyond_marker hF hst)

/-- The stem named at the path of a stem claim. -/
theorem claim_name (hF : BigField F) (hR : Run hint keys kvs st)
    (hO : Openings' C W qs root comms st) {k : Key} {v : Option Value} {e : ExtPresent} {d : ℕ}
    (h : IsClaim (hintByStem hint (stemsOf keys)) kvs k v e d) {u : Stem} {c : G} {s : Stem} (he : e ≠ .none)
    (hc1 : BMap.get (k.stem.1.take d) comms = some c) (hws : W c = stemVec C m s)
    (hleaf : BMap.get (k.stem.1.take d, (1 : Byte)) st.leafVals = some (frLe F u.1)) : s = u := by
  have hz : (k.stem.1.take d, (1 : Byte)) ∈ st.allPathsZs :=
    (hR.inv.zs _).2 ⟨k, v, e, d, h, Or.inr (Or.inl ⟨he, rfl, Or.inr rfl⟩)⟩
  obtain ⟨c2, hc21, _, _, hval⟩ := hO.eq _ hz
  have : c2 = c := by
    simp only at hc21
    rw [hc1] at hc21
    exact (Option.some.inj hc21).symm
  subst this
  rw [hws] at hval
  unfold claimedValue at hval
  simp only [hleaf] at hval
  have v1 : (1 : Byte).val = 1 := rfl
  simp only [stemVec, v1] at hval
  norm_num at hval
  exact stem_enc_inj hF hval

/-- A claim of presence is about the stem of its key and its true value, and opens the true suffix commitment. -/
theorem claim_present (hF : BigField F) (hnb : ¬ ProofBreak C m W qs) (hR : Run hint keys kvs st)
    (hO : Openings' C W qs root comms st) {k : Key} (hc : ConsistentAt hint keys k.stem) {v : Option Value}
    (hfun : ∀ v', (k, v') ∈ kvs → v' = v) {d : ℕ}
    (h : IsClaim (hintByStem hint (stemsOf keys)) kvs k v .present d) {c : G} {s : Stem}
    (hc1 : BMap.get (k.stem.1.take d) comms = some c) (hs : HasStem m s) (hws : W c = stemVec C m s) :
    s = k.stem ∧ v = m k ∧ BMap.get (k.stem.1.take d ++ [halfIdx k.suffix]) comms
      = some (suffixComm C m k.stem (halfOff k.suffix)) := by
  have hl1 : BMap.get (k.stem.1.take d, (1 : Byte)) st.leafVals = some (frLe F k.stem.1) :=
    hR.leaf_eq hc hfun h (by simp [claimWrites])
  have hsk := claim_name hF hR hO h (by simp) hc1 hws hl1
  subst hsk
  refine ⟨rfl, ?_⟩
  -- the suffix commitment
  have hz1 : (k.stem.1.take d, halfIdx k.suffix) ∈ st.allPathsZs :=
    (hR.inv.zs _).2 ⟨k, v, _, d, h, Or.inr (Or.inr ⟨rfl, Or.inl ⟨rfl, rfl⟩⟩)⟩
  have hz2 : (k.stem.1.take d ++ [halfIdx k.suffix], lowIdx k.suffix) ∈ st.allPathsZs :=
    (hR.inv.zs _).2 ⟨k, v, _, d, h, Or.inr (Or.inr ⟨rfl, Or.inr ⟨rfl, Or.inl rfl⟩⟩)⟩
  have hz3 : (k.stem.1.take d ++ [halfIdx k.suffix], highIdx k.suffix) ∈ st.allPathsZs :=
    (hR.inv.zs _).2 ⟨k, v, _, d, h, Or.inr (Or.inr ⟨rfl, Or.inr ⟨rfl, Or.inr rfl⟩⟩)⟩
  obtain ⟨c2, hc21, _, _, hval⟩ := hO.eq _ hz1
  have : c2 = c := by
    simp only at hc21
    rw [hc1] at hc21
    exact (Option.some.inj hc21).symm
  subst this
  obtain ⟨c3, hc31, hc32, hq3, hval2⟩ := hO.eq _ hz2
  obtain ⟨c4, hc41, _, _, hval3⟩ := hO.eq _ hz3
  have : c4 = c3 := by
    simp only at hc31 hc41
    rw [hc31] at hc41
    exact (Option.some.inj hc41).symm
  subst this
  simp only at hc31
  have hhash : stemVec C m k.stem (halfIdx k.suffix) = C.h c4 := by
    rw [← hws, hval]
    unfold claimedValue
    simp only [hR.leaf_half hc h, hc31]
  have hsfx : stemVec C m k.stem (halfIdx k.suffix) = C.h (commit C (suffixVec m k.stem (halfOff k.suffix) F)) := by
    rw [← suffixComm_eq_commit]
    unfold halfIdx halfOff
    by_cases hlt : k.suffix.val < 128
    · simp [stemVec, hlt]
    · simp only [hlt, if_false]
      have v3 : (3 : Byte).val = 3 := rfl
      simp [stemVec]
  rw [hsfx] at hhash
  have hoff : halfOff k.suffix = 0 ∨ halfOff k.suffix = 128 := by
    unfold halfOff; split
    · exact Or.inl rfl
    · exact Or.inr rfl
  have hvec := next_vec hnb hq3 hc32 (.suffix k.stem hs _ hoff) hhash
  have hlow : BMap.get (k.stem.1.take d ++ [halfIdx k.suffix], lowIdx k.suffix) st.leafVals = some (valueHalves F v).1 :=
    hR.leaf_eq hc hfun h (by simp [claimWrites])
  have hhigh : BMap.get (k.stem.1.take d ++ [halfIdx k.suffix], highIdx k.suffix) st.leafVals = some (valueHalves F v).2 :=
    hR.leaf_eq hc hfun h (by simp [claimWrites])
  unfold claimedValue at hval2 hval3
  simp only [hlow, hhigh] at hval2 hval3
  rw [hvec, suffixVec_low, valueHalves_eq] at hval2
  rw [hvec, suffixVec_high, valueHalves_eq] at hval3
  refine ⟨(slot_inj hF (Prod.ext hval2 hval3)).symm, ?_⟩
  rw [hc31, ← hc32, hvec, suffixComm_eq_commit]

/-- A claim that another stem is in the way fixes the number of another stem at its path. -/
theorem leaf_other (hR : Run hint keys kvs st) {k : Key} (hc : ConsistentAt hint keys k.stem) {v : Option Value}
    (hfun : ∀ v', (k, v') ∈ kvs → v' = v) {d : ℕ} (h : IsClaim (hintByStem hint (stemsOf keys)) kvs k v .differentStem d) :
    ∃ u, BMap.get (k.stem.1.take d, (1 : Byte)) st.leafVals = some (frLe F u.1) ∧
      OtherOf hint (stemsWithExtension hint (stemsOf keys)) (k.stem.1.take d) d u ∧ u ≠ k.stem := by
  have ho := hR.claimOk h
  by_cases hwp : withPrefix (stemsWithExtension hint (stemsOf keys)) (k.stem.1.take d) d = []
  · obtain ⟨_, _, hne⟩ := ho.diff rfl
    have hne := hne hwp
    obtain ⟨enc, henc⟩ : ∃ enc, (withPrefix hint.diffStemNoProof (k.stem.1.take d) d).getLast? = some enc :=
      ⟨_, List.getLast?_eq_some_getLast hne⟩
    have hl1 : BMap.get (k.stem.1.take d, (1 : Byte)) st.leafVals = some (frLe F enc.1) :=
      hR.leaf_eq hc hfun h (by simp [claimWrites, hwp, henc])
    refine ⟨enc, hl1, Or.inr ⟨hwp, henc⟩, fun he => ?_⟩
    have := List.mem_of_getLast? henc
    unfold withPrefix at this
    rw [List.mem_filter] at this
    exact hc.diff d (isClaim_entry h) (he ▸ this.1)
  · obtain ⟨x, hwx⟩ : ∃ x, withPrefix (stemsWithExtension hint (stemsOf keys)) (k.stem.1.take d) d = [x] :=
      List.length_eq_one_iff.1 (by
        have := (ho.diff rfl).2.1
        have := List.length_pos_of_ne_nil hwp
        omega)
    have hx : x ∈ withPrefix (stemsWithExtension hint (stemsOf keys)) (k.stem.1.take d) d := by rw [hwx]; simp
    unfold withPrefix at hx
    rw [List.mem_filter] at hx
    obtain ⟨hx1, hx2⟩ := hx
    have hx2 : x.1.take d = k.stem.1.take d := by simpa using hx2
    obtain ⟨d', hx'⟩ := swe_iff.1 hx1
    obtain ⟨b, hb, hg⟩ := entry_get hx'
    obtain ⟨k', hk', hks⟩ := stem_of_entry hg
    obtain ⟨v', hv'⟩ := hR.covers k' hk'
    have hcl : IsClaim (hintByStem hint (stemsOf keys)) kvs k' v' .present d' := ⟨hv', b, hb, by rw [hks]; exact hg⟩
    have ho' := hR.claimOk hcl
    have e1 := isClaim_entry h
    have hdd : x.1.take d' = k.stem.1.take d := by
      rcases Nat.le_total d' d with hle | hle
      · exact ((hc.pair x).anti _ _ _ _ e1 hx' (Or.inr (by rw [← hx2]; exact List.take_prefix_take_left hle))).symm
      · exact ((hc.pair x).anti _ _ _ _ e1 hx' (Or.inl (by rw [← hx2]; exact List.take_prefix_take_left hle))).symm
    have hl1 : BMap.get (k.stem.1.take d, (1 : Byte)) st.leafVals = some (frLe F x.1) := by
      have hwr : ((k.stem.1.take d, (1 : Byte)), frLe F x.1) ∈
          claimWrites F hint (stemsWithExtension hint (stemsOf keys)) k' v' .present d' := by
        simp [claimWrites, hks, hdd]
      obtain ⟨y, hy⟩ := hR.inv.leafMem _ _ _ _ _ _ hcl hwr
      obtain ⟨k'', v'', e'', d'', h'', hw''⟩ := hR.inv.leaf _ _ hy
      have e2 := isClaim_entry h''
      have o2 := hR.claimOk h''
      rw [hy]
      rcases writes_cases hw'' with ⟨a1, a2, a3⟩ | ⟨a1, a2, a3⟩ | ⟨a1, a2, a3⟩ | ⟨a1, a2, a3⟩ | ⟨a1, a2, a3, enc, a4, a5⟩ | ⟨a1, a2, a3⟩ <;>
        (simp only [Prod.mk.injEq] at a2; obtain ⟨b1, b2⟩ := a2)
      · exact absurd b2 (by decide)
      · -- another claim of presence at this path is about the same stem
        subst a1
        have hlen := congrArg List.length b1
        rw [take_len ho.depth, take_len o2.depth] at hlen
        have : k''.stem ∈ withPrefix (stemsWithExtension hint (stemsOf keys)) (k.stem.1.take d) d := by
          unfold withPrefix
          rw [List.mem_filter]
          refine ⟨swe_iff.2 ⟨_, e2⟩, ?_⟩
          rw [hlen]
          simpa [hlen] using b1.symm
        rw [hwx, List.mem_singleton] at this
        rw [a3, this]
      · exact absurd b1.symm (no_child (hc.pair _).symm e2 e1)
      · exact absurd b1.symm (no_child (hc.pair _).symm e2 e1)
      · have hlen := congrArg List.length b1
        rw [take_len ho.depth, take_len o2.depth] at hlen
        rw [← b1, ← hlen, hwx] at a3
        simp at a3
      · subst a1
        exact absurd b1.symm (none_path (hc.pair _).symm e2 (o2.pos rfl) o2.depth e1 (by simp) (Or.inl rfl))
    refine ⟨x, hl1, Or.inl hwx, ?_⟩
    rintro rfl
    have := (entry_unique hx' e1).1
    simp at this

/-- A claim that another stem is in the way names the true stem at its path, and it is another. -/
theorem claim_other (hF : BigField F) (hR : Run hint keys kvs st)
    (hO : Openings' C W qs root comms st) {k : Key} (hc : ConsistentAt hint keys k.stem) {v : Option Value}
    (hfun : ∀ v', (k, v') ∈ kvs → v' = v) {d : ℕ}
    (h : IsClaim (hintByStem hint (stemsOf keys)) kvs k v .differentStem d) {c : G} {s : Stem}
    (hc1 : BMap.get (k.stem.1.take d) comms = some c) (hws : W c = stemVec C m s) :
    OtherOf hint (stemsWithExtension hint (stemsOf keys)) (k.stem.1.take d) d s ∧ s ≠ k.stem := by
  obtain ⟨u, hl1, h1, h2⟩ := leaf_other hR hc hfun h
  obtain rfl := claim_name hF hR hO h (by simp) hc1 hws hl1
  exact ⟨h1, h2⟩

/-- A claim is true, or claims a slot empty that lies beyond a stem. -/
theorem claim_true (hF : BigField F) (hnb : ¬ ProofBreak C m W qs) (hR : Run hint keys kvs st)
    (hO : Openings' C W qs root comms st) (hroot : root = branchComm C m []) {k : Key} (hc : ConsistentAt hint keys k.stem)
    {v : Option Value} (hfun : ∀ v', (k, v') ∈ kvs → v' = v) {e : ExtPresent} {d : ℕ}
    (h : IsClaim (hintByStem hint (stemsOf keys)) kvs k v e d) :
    v = m k ∨ (v = none ∧ e = .none ∧ ∃ j, j < d ∧ ¬ IsBranch m (k.stem.1.take j) ∧ ∃ s, Under m (k.stem.1.take j) s) := by
  have ho := hR.claimOk h
  have hw := walk hF hnb hR hO hroot hc h
  have hb' : ¬ Broken C m (fun _ => none) := fun h => hnb (Or.inr (Or.inr (Or.inr h)))
  have hhas : m k ≠ none → ∀ i, Under m (k.stem.1.take i) k.stem := fun hk i =>
    ⟨⟨k.suffix, by rw [mkKey_stem_suffix]; exact hk⟩, List.take_prefix _ _⟩
  cases e with
  | present =>
    left
    obtain ⟨c, s, hc1, _, hnbr, hs, hws, _⟩ := claim_mark hF hnb hR hO hroot hc hfun h (by simp)
    exact (claim_present hF hnb hR hO hc hfun h hc1 hs.1 hws).2.1
  | differentStem =>
    left
    obtain ⟨c, s, hc1, _, hnbr, hs, hws, _⟩ := claim_mark hF hnb hR hO hroot hc hfun h (by simp)
    have hvn := ho.value (by simp)
    subst hvn
    have hnot := (claim_other hF hR hO hc hfun h hc1 hws).2
    by_contra hne
    have hmk : m k ≠ none := fun e => hne e.symm
    have hnm : ¬ Many m (k.stem.1.take d) := fun hm => hnbr (Or.inr hm)
    exact hnot (Under.unique hnm hs (hhas hmk d))
  | none =>
    have hvn := ho.value (by simp)
    subst hvn
    have hd1 := ho.pos rfl
    obtain ⟨c, hc1, hc2, hq, hst⟩ := hw (d - 1) (Or.inl (by omega))
    rcases hst with ⟨hst, _⟩ | ⟨_, j, hj, hj2⟩
    · have hd31 := ho.depth
      obtain ⟨z, hz1, hz2⟩ := take_next (s := k.stem) (i := d - 1) (by omega)
      have hdd : d - 1 + 1 = d := by omega
      have hlen : (k.stem.1.take (d - 1)).length = d - 1 := take_len (by omega)
      have hzs : (k.stem.1.take (d - 1), z) ∈ st.allPathsZs :=
        (hR.inv.zs _).2 ⟨k, none, _, d, h, Or.inl ⟨hz2, by rw [hlen]; omega⟩⟩
      obtain ⟨c2, hc21, _, _, hval⟩ := hO.eq _ hzs
      have : c2 = c := by
        simp only at hc21
        rw [hc1] at hc21
        exact (Option.some.inj hc21).symm
      subst this
      have hv : W c2 z = 0 := by
        rw [hval]
        unfold claimedValue
        rcases hR.leaf_inner hc h (i := d - 1) (by omega) hz1 with h1 | ⟨_, _, h1⟩
        · simp only [h1]
          cases hg : BMap.get (k.stem.1.take (d - 1) ++ [z]) comms with
          | none => rfl
          | some c' =>
            have := hO.mem _ _ hg
            rw [hz1, hdd] at this
            exact absurd this (hR.paths_empty hc h)
        · simp only [h1]
      rcases hst with ⟨hb, hwb⟩ | ⟨hb, s, hs, _⟩ | ⟨hb, hno, _⟩
      · left
        rw [hwb] at hv
        have hv : childHash C m (k.stem.1.take (d - 1) ++ [z]) = 0 := hv
        rw [hz1, hdd] at hv
        have h0 : childHash C (fun _ => none) (k.stem.1.take d) = 0 := childHash_none (by
          rintro s ⟨⟨b, hb⟩, _⟩
          exact hb rfl)
        have := agree_of_childHash hF hb' 31 (k.stem.1.take d) (by omega) (hv.trans h0.symm) k.stem k.suffix (List.take_prefix _ _)
        rw [mkKey_stem_suffix] at this
        exact this.symm
      · exact Or.inr ⟨rfl, rfl, d - 1, by omega, hb, s, hs⟩
      · left
        by_contra hne
        exact hno _ (hhas (fun e => hne e.symm) _)
    · exact Or.inr ⟨rfl, rfl, j, by omega, hj2⟩

end

/-! ### Assembly -/

theorem get_zip_mem {α β : Type} [BOrd α] {l : List α} {l' : List β} {k : α} {v : β} (h : BMap.get k (l.zip l') = some v) : k ∈ l := by
  have : k ∈ (l.zip l').map Prod.fst := BMap.mem_keys_iff.2 (by rw [h]; simp)
  exact (zip_fst_sublist l l').subset this

theorem zip_functional {α β : Type} : ∀ {l : List α} {l' : List β}, l.Nodup → ∀ {a b b'}, (a, b) ∈ l.zip l' → (a, b') ∈ l.zip l' → b = b'
  | [], _, _, _, _, _, h, _ => by simp at h
  | _ :: _, [], _, _, _, _, h, _ => by simp at h
  | x :: l, y :: l', hn, a, b, b', h, h' => by
    rw [List.nodup_cons] at hn
    simp only [List.zip_cons_cons, List.mem_cons, Prod.mk.injEq] at h h'
    rcases h with ⟨rfl, rfl⟩ | h <;> rcases h' with ⟨h1, h2⟩ | h'
    · exact h2.symm
    · exact absurd (List.of_mem_zip h').1 hn.1
    · rw [h1] at h
      exact absurd (List.of_mem_zip h).1 hn.1
    · exact zip_functional hn.2 h h'

/-- With distinct keys and a consistent hint no claim is disputed. -/
theorem undisputed {hint : VerificationHint} {keys : List Key} {values : List (Option Value)} (hnd : keys.Nodup)
    (hc : HintConsistent hint keys) {k : Key} {v : Option Value} (h : (k, v) ∈ keys.zip values) : Undisputed hint keys values k v :=
  ⟨fun _ h' => zip_functional hnd h' h, hc.consistentAt _⟩

theorem zip_covers {α β : Type} : ∀ {l : List α} {l' : List β}, l.length = l'.length → ∀ a ∈ l, ∃ b, (a, b) ∈ l.zip l'
  | [], _, _, _, h => by simp at h
  | _ :: _, [], hl, _, _ => by simp at hl
  | x :: l, y :: l', hl, a, h => by
    rcases List.mem_cons.1 h with rfl | h
    · exact ⟨y, by simp⟩
    · obtain ⟨b, hb⟩ := zip_covers (l := l) (l' := l') (by simpa using hl) a h
      exact ⟨b, by simp [hb]⟩

/-- Every claim of an accepted proof is opened at the root. -/
theorem root_opened {hint : VerificationHint} {keys : List Key} {kvs : List (Key × Option Value)} {st : VState F}
    (hR : Run hint keys kvs st) {k : Key} (hk : k ∈ keys) : ([] : Path) ∈ st.allPaths := by
  obtain ⟨v, hv⟩ := hR.covers k hk
  obtain ⟨e, d, hcl, ho⟩ := hR.inv.ok k v hv
  rw [hR.inv.paths]
  by_cases hd : d = 0
  · subst hd
    refine ⟨0, (hR.inv.zs _).2 ⟨k, v, e, 0, hcl, Or.inr (Or.inl ⟨?_, by simp, Or.inl rfl⟩)⟩⟩
    intro he
    have := ho.pos he
    omega
  · obtain ⟨z, _, hz⟩ := take_next (s := k.stem) (i := 0) (by omega)
    exact ⟨z, (hR.inv.zs _).2 ⟨k, v, e, d, hcl, Or.inl ⟨by simpa using hz, by simp; omega⟩⟩⟩

/-- The run of the verifier behind a reconstruction, and its openings. -/
theorem openings_of (hF : BigField F) {C : Crypto F G} {root : G} {W : G → Byte → F} {hint : VerificationHint} {comms : List G}
    {keys : List Key} {values : List (Option Value)} {qs : List (VerifierQuery F G)} {uh : UpdateHint G}
    (h : createVerifierQueries C hint comms keys values root = .ok (some (qs, uh)))
    (hlen : keys.length = values.length) (hW : Extracts C W qs) {k : Key} (hk : k ∈ keys) :
    ∃ st : VState F, Run hint keys (keys.zip values) st ∧ Openings' C W qs root uh.commsByPath st ∧
      uh.depthsAndExt = hintByStem hint (stemsOf keys) ∧ uh.otherStems = st.otherStems ∧
      keyLoop hint (hintByStem hint (stemsOf keys)) (stemsWithExtension hint (stemsOf keys)) (keys.zip values)
        ⟨[], [], [], [], []⟩ = .ok (some st) := by
  obtain ⟨st, hI, _, hl, hdep, hcomms, hoth, hq1, hq2, hkl⟩ := createVerifierQueries_ok h
  have hR : Run hint keys (keys.zip values) st :=
    ⟨hI, zip_covers hlen, fun _ _ h => (List.of_mem_zip h).1⟩
  have hroot := root_opened hR hk
  obtain ⟨R, hRr⟩ : ∃ R, st.allPaths = [] :: R := by
    cases hp : st.allPaths with
    | nil => rw [hp] at hroot; simp at hroot
    | cons p R =>
      rw [hp] at hroot
      have ha := hI.pathsAsc
      rw [hp] at ha
      rcases List.mem_cons.1 hroot with e | e
      · exact ⟨R, by rw [e]⟩
      · have := (List.pairwise_cons.1 ha).1 _ e
        rw [not_lt_nil] at this
        simp at this
  have hO : Openings' C W qs root uh.commsByPath st := by
    refine ⟨?_, ?_, ?_⟩
    · rw [hcomms, hRr, List.zip_cons_cons]
      simp [BMap.get, ltSelf]
    · intro x hx
      obtain ⟨c, h1, h2⟩ := hq1 x hx
      obtain ⟨z, h3, h4, h5⟩ := hW _ h2
      have : z = x.2 := by
        have h6 : ((x.2.val : ℕ) : F) = ((z.val : ℕ) : F) := h3
        have h7 := x.2.2
        have h8 := z.2
        exact (Fin.ext (hF _ _ (by omega) (by omega) h6)).symm
      subst this
      exact ⟨c, h1, h4, ⟨_, h2, rfl⟩, h5⟩
    · intro p c hp
      rw [hcomms] at hp
      exact get_zip_mem hp
  exact ⟨st, hR, hO, hdep, hoth, hkl⟩

/-- The claims of a proof whose queries were reconstructed and extracted. -/
theorem claims_true (hF : BigField F) {C : Crypto F G} {m : KV} {W : G → Byte → F} {hint : VerificationHint} {comms : List G}
    {keys : List Key} {values : List (Option Value)} {qs : List (VerifierQuery F G)} {uh : UpdateHint G}
    (h : createVerifierQueries C hint comms keys values (branchComm C m []) = .ok (some (qs, uh)))
    (hlen : keys.length = values.length) (hW : Extracts C W qs) (hnb : ¬ ProofBreak C m W qs) {k : Key} {v : Option Value}
    (hkv : (k, v) ∈ keys.zip values) (hud : Undisputed hint keys values k v) :
    v = m k ∨ (v = none ∧ ∃ d, HintEntry hint keys k.stem .none d ∧
      ∃ j, j < d ∧ ¬ IsBranch m (k.stem.1.take j) ∧ ∃ s, Under m (k.stem.1.take j) s) := by
  obtain ⟨st, hR, hO, _⟩ := openings_of hF h hlen hW (List.of_mem_zip hkv).1
  obtain ⟨e, d, hcl, _⟩ := hR.inv.ok k v hkv
  rcases claim_true hF hnb hR hO rfl hud.2 hud.1 hcl with h1 | ⟨h1, h2, h3⟩
  · exact Or.inl h1
  · subst h2
    exact Or.inr ⟨h1, d, isClaim_entry hcl, h3⟩

/-! ### Honest hints are consistent -/

theorem honest_entry {m : KV} {keys : List Key} {d : BSet Stem} {s : Stem} {e : ExtPresent} {n : ℕ}
    (h : HintEntry (honestHint m keys d) keys s e n) : (∃ k, k ∈ keys ∧ k.stem = s) ∧ e = extOf m s ∧ n = termLen m s := by
  obtain ⟨b, hb, hg⟩ := entry_get h
  rw [hintByStem_spec] at hg
  split at hg
  · rename_i hk
    simp only [Option.some.injEq, Prod.mk.injEq] at hg
    refine ⟨hk, hg.1.symm, ?_⟩
    rw [← hb, ← hg.2, asU8_val]
    have := termLen_le m s
    omega
  · simp at hg

theorem termPath_anti {m : KV} {s t : Stem} (h : termPath m s <+: termPath m t) : termPath m s = termPath m t := by
  have hp : termPath m s <+: t.1 := h.trans (termPath_prefix m t)
  have h1 : ¬ IsBranch m (termPath m s) := termLen_spec m s
  rw [isBranch_prefix_iff hp] at h1
  have := h.length_le
  rw [termPath_length] at h1
  rw [termPath_length, termPath_length] at this
  exact h.eq_of_length (by rw [termPath_length, termPath_length]; omega)

theorem honest_consistent {m : KV} {keys : List Key} {d : BSet Stem} (hd : ∀ u, u ∈ d ↔ ForeignStem m (· ∈ keys) u) :
    HintConsistent (honestHint m keys d) keys := by
  have hx : ∀ s, extOf m s = .none ↔ ∀ u, ¬ Under m (termPath m s) u := by
    intro s
    unfold extOf
    constructor
    · intro h u hu
      split at h
      · simp at h
      · rw [if_pos ⟨u, hu⟩] at h; simp at h
    · intro h
      rw [if_neg fun hs => h s ⟨hs, termPath_prefix m s⟩, if_neg fun ⟨u, hu⟩ => h u hu]
  have hp : ∀ s, extOf m s = .present ↔ HasStem m s := by
    intro s
    unfold extOf
    constructor
    · intro h
      by_contra hs
      rw [if_neg hs] at h
      split at h <;> simp at h
    · intro h; rw [if_pos h]
  refine ⟨?_, ?_, ?_⟩
  · intro s t e f a b h1 h2 h
    obtain ⟨_, rfl, rfl⟩ := honest_entry h1
    obtain ⟨_, rfl, rfl⟩ := honest_entry h2
    exact termPath_anti h
  · intro s t e f a b h1 h2 h
    obtain ⟨_, rfl, rfl⟩ := honest_entry h1
    obtain ⟨_, rfl, rfl⟩ := honest_entry h2
    have h : termPath m s = termPath m t := h
    refine ⟨by rw [hx, hx, h], fun h3 h4 => ?_⟩
    rw [hp] at h3 h4
    exact Under.unique (termPath_not_many m t) (h ▸ ⟨h3, termPath_prefix m s⟩) ⟨h4, termPath_prefix m t⟩
  · intro s n h1 h2
    obtain ⟨⟨k, hk, hks⟩, he, _⟩ := honest_entry h1
    obtain ⟨p, h3, h4, h5⟩ := (hd s).1 h2
    have : HasStem m s := h3.2.2.1
    rw [← hp, ← he] at this
    simp at this

end Verif.Proof
