import Verif.Proof.Extract
import Verif.Props.Proof

/-!
# Soundness of verification: C21
-/

set_option autoImplicit false

namespace Verif.Props
open Verif.Spec Verif.Trie Verif.Proof BOrd
open scoped Classical

variable {F G : Type} [Field F] [AddCommGroup G] [Module F G]

/-! ### Forged proofs

In each of the following cases every opening of the forged proof is a true statement about the committed vectors, so the
proof is accepted with every complete opening argument and every choice of the cryptographic parameters. -/

/-- A true query against a vector. -/
def vecQuery (C : Crypto F G) (v : Byte → F) (z : Byte) : ProverQuery F G :=
  ⟨commit C v, (List.finRange 256).map v, z.val, v z⟩

theorem vecQuery_true (C : Crypto F G) (v : Byte → F) (z : Byte) : TrueQuery C (vecQuery C v z) := by
  have h : ∀ i : Byte, ((List.finRange 256).map v).getD i.val 0 = v i := by
    intro i
    rw [List.getD_eq_getElem _ _ (by simp)]
    simp
  refine ⟨by simp [vecQuery], z.2, ?_, (h z).symm⟩
  show commit C v = commit C _
  congr 1
  funext i
  exact (h i).symm

/-- A proof all of whose openings are true is accepted. -/
theorem accept_hint {C : Crypto F G} {O : Opener F G} (hO : CompleteOpener C O) {hint : VerificationHint} {comms : List G}
    {keys : List Key} {values : List (Option Value)} {root : G} {qs : List (ProverQuery F G)} {uh : UpdateHint G}
    (hne : qs ≠ []) (ht : ∀ q ∈ qs, TrueQuery C q)
    (h : createVerifierQueries C hint comms keys values root = .ok (some (qs.map ProverQuery.toVerifier, uh))) :
    ∃ p, p.hint = hint ∧ check C O p keys values root = .ok (true, some uh) := by
  obtain ⟨pf, _, hp⟩ := hO qs hne ht
  refine ⟨⟨hint, comms, pf⟩, rfl, ?_⟩
  simp only [check, h, bind, Except.bind, hp]

/-- A proof all of whose openings are true is accepted. -/
theorem accept_of_true {C : Crypto F G} {O : Opener F G} (hO : CompleteOpener C O) {hint : VerificationHint} {comms : List G}
    {keys : List Key} {values : List (Option Value)} {root : G} {qs : List (ProverQuery F G)} {uh : UpdateHint G}
    (hne : qs ≠ []) (ht : ∀ q ∈ qs, TrueQuery C q)
    (h : createVerifierQueries C hint comms keys values root = .ok (some (qs.map ProverQuery.toVerifier, uh))) :
    ∃ p, check C O p keys values root = .ok (true, some uh) :=
  (accept_hint hO hne ht h).imp fun _ h => h.2

theorem hasStem_lastWrite {l : List (Key × Value)} {s : Stem} (h : HasStem (lastWrite l) s) : ∃ a ∈ l, a.1.stem = s := by
  obtain ⟨b, hb⟩ := h
  simp only [lastWrite, ne_eq, Option.map_eq_none_iff] at hb
  cases hf : l.reverse.find? (fun p => p.1 = mkKey s b) with
  | none => exact absurd hf hb
  | some a =>
    have h1 := List.find?_some hf
    have h2 := List.mem_of_find?_eq_some hf
    exact ⟨a, by simpa using h2, by simp at h1; rw [h1]; simp⟩

/-- The stems of a history. -/
theorem hasStem_iff (l : List (Key × Value)) (s : Stem) : HasStem (lastWrite l) s ↔ ∃ x ∈ l, x.1.stem = s := by
  refine ⟨fun h => hasStem_lastWrite h, ?_⟩
  rintro ⟨⟨k, v⟩, hx, rfl⟩
  refine ⟨k.suffix, ?_⟩
  rw [mkKey_stem_suffix]
  intro h
  simp only [lastWrite, Option.map_eq_none_iff, List.find?_eq_none, List.mem_reverse] at h
  exact h (k, v) hx (by simp)

/-- One key. -/
def soloKey : Key := keyOf [1, 9] 5
/-- One insertion. -/
def soloHist : List (Key × Value) := [(soloKey, valOf 7)]

theorem solo_under : Under (lastWrite soloHist) [1] soloKey.stem := by
  refine ⟨(hasStem_iff _ _).2 ⟨_, List.mem_singleton.2 rfl, rfl⟩, ?_⟩
  decide

theorem solo_not_many (p : Path) : ¬ Many (lastWrite soloHist) p := by
  rintro ⟨s, t, hne, hs, ht⟩
  obtain ⟨x, hx, rfl⟩ := (hasStem_iff _ _).1 hs.1
  obtain ⟨y, hy, rfl⟩ := (hasStem_iff _ _).1 ht.1
  simp only [soloHist, List.mem_singleton] at hx hy
  rw [hx, hy] at hne
  exact hne rfl

theorem solo_child (C : Crypto F G) :
    branchVec C (lastWrite soloHist) [] 1 = C.h (stemComm C (lastWrite soloHist) soloKey.stem) :=
  childHash_single (solo_not_many _) solo_under

/-- Forged absence, first kind: the key is present, and the proof names the key's own stem as the other stem standing in its
way. -/
theorem C21_absence_forged_by_own_stem (C : Crypto F G) (O : Opener F G) (hO : CompleteOpener C O) :
    ∃ db root p uh, build C soloHist = .ok db ∧ Trie.rootCommitment db = .ok root ∧ Trie.get db soloKey = some (valOf 7) ∧
      check C O p [soloKey] [none] root = .ok (true, some uh) := by
  have hb := build_eq C soloHist
  have hr := rootCommitment_spec C (lastWrite soloHist)
  obtain ⟨p, hp⟩ := accept_of_true hO (hint := ⟨[1], [.differentStem], [soloKey.stem]⟩)
    (comms := [stemComm C (lastWrite soloHist) soloKey.stem]) (keys := [soloKey]) (values := [none])
    (root := branchComm C (lastWrite soloHist) [])
    (qs := [vecQuery C (branchVec C (lastWrite soloHist) []) 1, vecQuery C (stemVec C (lastWrite soloHist) soloKey.stem) 0,
      vecQuery C (stemVec C (lastWrite soloHist) soloKey.stem) 1])
    (uh := ⟨[(soloKey.stem, (.differentStem, 1))], [([], branchComm C (lastWrite soloHist) []),
      ([1], stemComm C (lastWrite soloHist) soloKey.stem)], [([1], soloKey.stem)]⟩) (by simp)
    (by
      intro q hq
      simp only [List.mem_cons, List.not_mem_nil, or_false] at hq
      rcases hq with rfl | rfl | rfl <;> exact vecQuery_true _ _ _)
    (by
      simp only [List.map_cons, List.map_nil, vecQuery, ProverQuery.toVerifier]
      rw [solo_child, ← branchComm_eq_commit _ _ _ (by simp), ← stemComm_eq_commit]
      generalize branchComm C (lastWrite soloHist) [] = r
      generalize stemComm C (lastWrite soloHist) soloKey.stem = c
      have e0 : stemVec C (lastWrite soloHist) soloKey.stem 0 = 1 := rfl
      have e1 : stemVec C (lastWrite soloHist) soloKey.stem 1 = frLe F soloKey.stem.1 := rfl
      rw [e0, e1]
      rfl)
  exact ⟨_, _, p, _, hb, hr, rfl, hp⟩

/-- Forged absence, second kind: the key is present, and the proof claims an empty slot below the node of its stem, opening
the stem's vector as if it were a branch. -/
theorem C21_absence_forged_through_stem (C : Crypto F G) (O : Opener F G) (hO : CompleteOpener C O) :
    ∃ db root p uh, build C soloHist = .ok db ∧ Trie.rootCommitment db = .ok root ∧ Trie.get db soloKey = some (valOf 7) ∧
      check C O p [soloKey] [none] root = .ok (true, some uh) := by
  have hb := build_eq C soloHist
  have hr := rootCommitment_spec C (lastWrite soloHist)
  obtain ⟨p, hp⟩ := accept_of_true hO (hint := ⟨[2], [.none], []⟩)
    (comms := [stemComm C (lastWrite soloHist) soloKey.stem]) (keys := [soloKey]) (values := [none])
    (root := branchComm C (lastWrite soloHist) [])
    (qs := [vecQuery C (branchVec C (lastWrite soloHist) []) 1, vecQuery C (stemVec C (lastWrite soloHist) soloKey.stem) 9])
    (uh := ⟨[(soloKey.stem, (.none, 2))], [([], branchComm C (lastWrite soloHist) []),
      ([1], stemComm C (lastWrite soloHist) soloKey.stem)], []⟩) (by simp)
    (by
      intro q hq
      simp only [List.mem_cons, List.not_mem_nil, or_false] at hq
      rcases hq with rfl | rfl <;> exact vecQuery_true _ _ _)
    (by
      simp only [List.map_cons, List.map_nil, vecQuery, ProverQuery.toVerifier]
      rw [solo_child, ← branchComm_eq_commit _ _ _ (by simp), ← stemComm_eq_commit]
      generalize branchComm C (lastWrite soloHist) [] = r
      generalize stemComm C (lastWrite soloHist) soloKey.stem = c
      have e9 : stemVec C (lastWrite soloHist) soloKey.stem 9 = 0 := rfl
      rw [e9]
      rfl)
  exact ⟨_, _, p, _, hb, hr, rfl, hp⟩

/-- Forged value: the same key twice with different values; only the last value is checked. -/
theorem C21_value_forged_by_repetition (C : Crypto F G) (O : Opener F G) (hO : CompleteOpener C O) (w : Value) :
    ∃ db root p uh, build C soloHist = .ok db ∧ Trie.rootCommitment db = .ok root ∧ Trie.get db soloKey = some (valOf 7) ∧
      check C O p [soloKey, soloKey] [some w, some (valOf 7)] root = .ok (true, some uh) := by
  have hb := build_eq C soloHist
  have hr := rootCommitment_spec C (lastWrite soloHist)
  obtain ⟨p, hp⟩ := accept_of_true hO (hint := ⟨[1], [.present], []⟩)
    (comms := [stemComm C (lastWrite soloHist) soloKey.stem, suffixComm C (lastWrite soloHist) soloKey.stem 0])
    (keys := [soloKey, soloKey]) (values := [some w, some (valOf 7)])
    (root := branchComm C (lastWrite soloHist) [])
    (qs := [vecQuery C (branchVec C (lastWrite soloHist) []) 1, vecQuery C (stemVec C (lastWrite soloHist) soloKey.stem) 0,
      vecQuery C (stemVec C (lastWrite soloHist) soloKey.stem) 1, vecQuery C (stemVec C (lastWrite soloHist) soloKey.stem) 2,
      vecQuery C (suffixVec (lastWrite soloHist) soloKey.stem 0 F) 10,
      vecQuery C (suffixVec (lastWrite soloHist) soloKey.stem 0 F) 11])
    (uh := ⟨[(soloKey.stem, (.present, 1))], [([], branchComm C (lastWrite soloHist) []),
      ([1], stemComm C (lastWrite soloHist) soloKey.stem), ([1, 2], suffixComm C (lastWrite soloHist) soloKey.stem 0)], []⟩)
    (by simp)
    (by
      intro q hq
      simp only [List.mem_cons, List.not_mem_nil, or_false] at hq
      rcases hq with rfl | rfl | rfl | rfl | rfl | rfl <;> exact vecQuery_true _ _ _)
    (by
      simp only [List.map_cons, List.map_nil, vecQuery, ProverQuery.toVerifier]
      have e0 : stemVec C (lastWrite soloHist) soloKey.stem 0 = 1 := rfl
      have e1 : stemVec C (lastWrite soloHist) soloKey.stem 1 = frLe F soloKey.stem.1 := rfl
      have e2 : stemVec C (lastWrite soloHist) soloKey.stem 2 = C.h (suffixComm C (lastWrite soloHist) soloKey.stem 0) := rfl
      have e3 : suffixVec (lastWrite soloHist) soloKey.stem 0 F 10 = (valueHalves F (some (valOf 7))).1 := rfl
      have e4 : suffixVec (lastWrite soloHist) soloKey.stem 0 F 11 = (valueHalves F (some (valOf 7))).2 := rfl
      rw [solo_child, e0, e1, e2, e3, e4, ← branchComm_eq_commit _ _ _ (by simp), ← stemComm_eq_commit, ← suffixComm_eq_commit]
      generalize branchComm C (lastWrite soloHist) [] = r
      generalize stemComm C (lastWrite soloHist) soloKey.stem = c
      generalize suffixComm C (lastWrite soloHist) soloKey.stem 0 = c'
      rfl)
  exact ⟨_, _, p, _, hb, hr, rfl, hp⟩

/-- A key that was never inserted, on the path of `soloKey`. -/
def twinKey : Key := keyOf [1, 4] 5

/-- Forged presence, first kind: an absent key is claimed present at the same path as a present one; the comparison with its
stem is overwritten by that of the present one. -/
theorem C21_presence_forged_at_shared_path (C : Crypto F G) (O : Opener F G) (hO : CompleteOpener C O) :
    ∃ db root p uh, build C soloHist = .ok db ∧ Trie.rootCommitment db = .ok root ∧ Trie.get db twinKey = none ∧
      check C O p [twinKey, soloKey] [some (valOf 7), some (valOf 7)] root = .ok (true, some uh) := by
  have hb := build_eq C soloHist
  have hr := rootCommitment_spec C (lastWrite soloHist)
  obtain ⟨p, hp⟩ := accept_of_true hO (hint := ⟨[1, 1], [.present, .present], []⟩)
    (comms := [stemComm C (lastWrite soloHist) soloKey.stem, suffixComm C (lastWrite soloHist) soloKey.stem 0])
    (keys := [twinKey, soloKey]) (values := [some (valOf 7), some (valOf 7)])
    (root := branchComm C (lastWrite soloHist) [])
    (qs := [vecQuery C (branchVec C (lastWrite soloHist) []) 1, vecQuery C (stemVec C (lastWrite soloHist) soloKey.stem) 0,
      vecQuery C (stemVec C (lastWrite soloHist) soloKey.stem) 1, vecQuery C (stemVec C (lastWrite soloHist) soloKey.stem) 2,
      vecQuery C (suffixVec (lastWrite soloHist) soloKey.stem 0 F) 10,
      vecQuery C (suffixVec (lastWrite soloHist) soloKey.stem 0 F) 11])
    (uh := ⟨[(twinKey.stem, (.present, 1)), (soloKey.stem, (.present, 1))], [([], branchComm C (lastWrite soloHist) []),
      ([1], stemComm C (lastWrite soloHist) soloKey.stem), ([1, 2], suffixComm C (lastWrite soloHist) soloKey.stem 0)], []⟩)
    (by simp)
    (by
      intro q hq
      simp only [List.mem_cons, List.not_mem_nil, or_false] at hq
      rcases hq with rfl | rfl | rfl | rfl | rfl | rfl <;> exact vecQuery_true _ _ _)
    (by
      simp only [List.map_cons, List.map_nil, vecQuery, ProverQuery.toVerifier]
      have e0 : stemVec C (lastWrite soloHist) soloKey.stem 0 = 1 := rfl
      have e1 : stemVec C (lastWrite soloHist) soloKey.stem 1 = frLe F soloKey.stem.1 := rfl
      have e2 : stemVec C (lastWrite soloHist) soloKey.stem 2 = C.h (suffixComm C (lastWrite soloHist) soloKey.stem 0) := rfl
      have e3 : suffixVec (lastWrite soloHist) soloKey.stem 0 F 10 = (valueHalves F (some (valOf 7))).1 := rfl
      have e4 : suffixVec (lastWrite soloHist) soloKey.stem 0 F 11 = (valueHalves F (some (valOf 7))).2 := rfl
      rw [solo_child, e0, e1, e2, e3, e4, ← branchComm_eq_commit _ _ _ (by simp), ← stemComm_eq_commit, ← suffixComm_eq_commit]
      generalize branchComm C (lastWrite soloHist) [] = r
      generalize stemComm C (lastWrite soloHist) soloKey.stem = c
      generalize suffixComm C (lastWrite soloHist) soloKey.stem 0 = c'
      rfl)
  exact ⟨_, _, p, _, hb, hr, rfl, hp⟩

/-- Two stems sharing two bytes. -/
def forkHist : List (Key × Value) := [(keyOf [5, 5, 1] 0, valOf 1), (keyOf [5, 5, 2] 0, valOf 1)]
/-- An absent key. -/
def ghostKey : Key := keyOf [5, 5, 5] 5
/-- Another absent key. -/
def helperKey : Key := keyOf [5, 5, 9] 5

theorem fork_many (n : ℕ) (hn : n ≤ 2) : Many (lastWrite forkHist) ([5, 5].take n) := by
  refine ⟨(keyOf [5, 5, 1] 0).stem, (keyOf [5, 5, 2] 0).stem, by decide,
    ⟨(hasStem_iff _ _).2 ⟨_, by simp [forkHist]; exact Or.inl rfl, rfl⟩, ?_⟩,
    ⟨(hasStem_iff _ _).2 ⟨_, by simp [forkHist]; exact Or.inr rfl, rfl⟩, ?_⟩⟩ <;>
  · have : n = 0 ∨ n = 1 ∨ n = 2 := by omega
    rcases this with rfl | rfl | rfl <;> decide

theorem fork_none : ∀ s, ¬ Under (lastWrite forkHist) [5, 5, 5] s := by
  rintro s ⟨hs, hp⟩
  obtain ⟨x, hx, rfl⟩ := (hasStem_iff _ _).1 hs
  simp only [forkHist, List.mem_cons, List.not_mem_nil, or_false] at hx
  rcases hx with rfl | rfl <;> revert hp <;> decide

theorem fork_child (C : Crypto F G) :
    branchVec C (lastWrite forkHist) [] 5 = C.h (branchComm C (lastWrite forkHist) [5]) ∧
    branchVec C (lastWrite forkHist) [5] 5 = C.h (branchComm C (lastWrite forkHist) [5, 5]) ∧
    branchVec C (lastWrite forkHist) [5, 5] 5 = 0 :=
  ⟨childHash_many (fork_many 1 (by omega)), childHash_many (fork_many 2 (by omega)), childHash_none fork_none⟩

/-- Forged presence, second kind: an absent key is claimed present with an arbitrary value.  Its (empty) slot is opened
truthfully as zero, because the proof also claims, for another key, an empty slot at the path of the node above, and the
verifier records that zero one level too low, where it replaces the hash of the forged node. -/
theorem C21_presence_forged_by_stray_zero (C : Crypto F G) (O : Opener F G) (hO : CompleteOpener C O) (w : Value) :
    ∃ db root p uh, build C forkHist = .ok db ∧ Trie.rootCommitment db = .ok root ∧ Trie.get db ghostKey = none ∧
      Trie.get db helperKey = none ∧ check C O p [ghostKey, helperKey] [some w, none] root = .ok (true, some uh) := by
  have hb := build_eq C forkHist
  have hr := rootCommitment_spec C (lastWrite forkHist)
  obtain ⟨h1, h2, h3⟩ := fork_child C
  have hg : lastWrite [(ghostKey, w)] ghostKey = some w := by simp [lastWrite]
  obtain ⟨p, hp⟩ := accept_of_true hO (hint := ⟨[3, 2], [.present, .none], []⟩)
    (comms := [branchComm C (lastWrite forkHist) [5], branchComm C (lastWrite forkHist) [5, 5],
      stemComm C (lastWrite [(ghostKey, w)]) ghostKey.stem, suffixComm C (lastWrite [(ghostKey, w)]) ghostKey.stem 0])
    (keys := [ghostKey, helperKey]) (values := [some w, none])
    (root := branchComm C (lastWrite forkHist) [])
    (qs := [vecQuery C (branchVec C (lastWrite forkHist) []) 5, vecQuery C (branchVec C (lastWrite forkHist) [5]) 5,
      vecQuery C (branchVec C (lastWrite forkHist) [5, 5]) 5,
      vecQuery C (stemVec C (lastWrite [(ghostKey, w)]) ghostKey.stem) 0,
      vecQuery C (stemVec C (lastWrite [(ghostKey, w)]) ghostKey.stem) 1,
      vecQuery C (stemVec C (lastWrite [(ghostKey, w)]) ghostKey.stem) 2,
      vecQuery C (suffixVec (lastWrite [(ghostKey, w)]) ghostKey.stem 0 F) 10,
      vecQuery C (suffixVec (lastWrite [(ghostKey, w)]) ghostKey.stem 0 F) 11])
    (uh := ⟨[(ghostKey.stem, (.present, 3)), (helperKey.stem, (.none, 2))], [([], branchComm C (lastWrite forkHist) []),
      ([5], branchComm C (lastWrite forkHist) [5]), ([5, 5], branchComm C (lastWrite forkHist) [5, 5]),
      ([5, 5, 5], stemComm C (lastWrite [(ghostKey, w)]) ghostKey.stem),
      ([5, 5, 5, 2], suffixComm C (lastWrite [(ghostKey, w)]) ghostKey.stem 0)], []⟩)
    (by simp)
    (by
      intro q hq
      simp only [List.mem_cons, List.not_mem_nil, or_false] at hq
      rcases hq with rfl | rfl | rfl | rfl | rfl | rfl | rfl | rfl <;> exact vecQuery_true _ _ _)
    (by
      simp only [List.map_cons, List.map_nil, vecQuery, ProverQuery.toVerifier]
      have e0 : stemVec C (lastWrite [(ghostKey, w)]) ghostKey.stem 0 = 1 := rfl
      have e1 : stemVec C (lastWrite [(ghostKey, w)]) ghostKey.stem 1 = frLe F ghostKey.stem.1 := rfl
      have e2 : stemVec C (lastWrite [(ghostKey, w)]) ghostKey.stem 2 =
        C.h (suffixComm C (lastWrite [(ghostKey, w)]) ghostKey.stem 0) := rfl
      have e3 : suffixVec (lastWrite [(ghostKey, w)]) ghostKey.stem 0 F 10 = (valueHalves F (some w)).1 := rfl
      have e4 : suffixVec (lastWrite [(ghostKey, w)]) ghostKey.stem 0 F 11 = (valueHalves F (some w)).2 := rfl
      rw [h1, h2, h3, e0, e1, e2, e3, e4, ← branchComm_eq_commit _ _ _ (by simp), ← branchComm_eq_commit _ _ _ (by simp),
        ← branchComm_eq_commit _ _ _ (by simp), ← stemComm_eq_commit, ← suffixComm_eq_commit]
      generalize branchComm C (lastWrite forkHist) [] = r
      generalize branchComm C (lastWrite forkHist) [5] = b1
      generalize branchComm C (lastWrite forkHist) [5, 5] = b2
      generalize stemComm C (lastWrite [(ghostKey, w)]) ghostKey.stem = c
      generalize suffixComm C (lastWrite [(ghostKey, w)]) ghostKey.stem 0 = c'
      rfl)
  exact ⟨_, _, p, _, hb, hr, rfl, rfl, hp⟩

/-! ### What acceptance does guarantee -/

/-- C21 (partial).  Suppose a proof, one value per key, is accepted against the root of a trie built from a history, and from
the accepted opening argument a vector can be extracted for each commitment.  Then either the commitment scheme is explicitly
broken, or every undisputed claim - its key is given one value only and the entry of its stem in the hint is compatible with
the other entries, whatever these do to each other - is true except possibly claims of absence below the path of a stem.  In
particular every undisputed value is the stored one.  Each restriction is needed: see the forgeries above. -/
theorem C21_accepted_claims_true_partial (hF : BigField F) (C : Crypto F G) (O : Opener F G) (l : List (Key × Value))
    {db : MemoryDb F G} (hb : build C l = .ok db) {root : G} (hr : Trie.rootCommitment db = .ok root)
    (p : VerkleProof G O.Pf) (keys : List Key) (values : List (Option Value)) {uh : Option (UpdateHint G)}
    (hacc : check C O p keys values root = .ok (true, uh)) (hlen : keys.length = values.length) (W : G → Byte → F)
    (hW : CheckExtracts C W p keys values root) :
    CheckBreak C (lastWrite l) W p keys values root ∨
    ∀ k v, (k, v) ∈ keys.zip values → Undisputed p.hint keys values k v →
      (∀ w, v = some w → Trie.get db k = some w) ∧
      (v = none → Trie.get db k = none ∨ ∃ d, HintEntry p.hint keys k.stem .none d ∧
        ∃ j, 0 < j ∧ j < d ∧ ∃ s, Under (lastWrite l) (k.stem.1.take j) s ∧ ∀ t, Under (lastWrite l) (k.stem.1.take j) t → t = s) := by
  rw [build_iff] at hb
  subst hb
  rw [rootCommitment_spec] at hr
  have hr : branchComm C (lastWrite l) [] = root := by simpa using hr
  subst hr
  by_cases hnb : CheckBreak C (lastWrite l) W p keys values (branchComm C (lastWrite l) [])
  · exact Or.inl hnb
  refine Or.inr fun k v hkv hud => ?_
  have hget : Trie.get (specDb C (lastWrite l)) k = lastWrite l k := rfl
  rw [hget]
  simp only [check, bind, Except.bind] at hacc
  cases hq : createVerifierQueries C p.hint p.comms keys values (branchComm C (lastWrite l) []) with
  | error e => rw [hq] at hacc; simp at hacc
  | ok o =>
    rw [hq] at hacc
    cases o with
    | none => simp at hacc
    | some r =>
      obtain ⟨qs, uh'⟩ := r
      simp only at hacc
      cases hck : O.check p.proof qs with
      | error e => rw [hck] at hacc; simp at hacc
      | ok b =>
        rw [hck] at hacc
        simp only [Except.ok.injEq, Prod.mk.injEq] at hacc
        rw [hacc.1] at hck
        rcases claims_true hF hq hlen (hW _ _ hq) (fun h => hnb ⟨qs, uh', hq, h⟩) hkv hud with h1 | ⟨h1, d, h2, j, h3, h4, s, h5⟩
        · subst h1
          exact ⟨fun w h => h, fun h => Or.inl h⟩
        · subst h1
          refine ⟨fun w h => by simp at h, fun _ => Or.inr ⟨d, h2, j, Nat.pos_of_ne_zero (fun h => h4 (Or.inl (by rw [h]; rfl))), h3, s, h5, fun t ht => ?_⟩⟩
          by_contra hne
          exact h4 (Or.inr ⟨t, s, hne, ht, h5⟩)

/-- Honest hints are consistent, so for distinct keys no claim of an honest proof is disputed (`undisputed`): the condition of the
theorem above excludes no honest proof. -/
theorem C21_honest_hints_consistent [DecidableEq F] [DecidableEq G] (C : Crypto F G) (l : List (Key × Value)) {db : MemoryDb F G}
    (hb : build C l = .ok db) {keys : List Key} {qs : List (ProverQuery F G)} {hint : VerificationHint}
    (h : createProverQueries db keys = .ok (qs, hint)) (hk : keys ≠ []) : HintConsistent hint keys := by
  rw [build_iff] at hb
  subst hb
  obtain ⟨L, d, he, _, _, _, hd⟩ := createProverQueries_spec C (lastWrite l) hk
  rw [he] at h
  simp only [Except.ok.injEq, Prod.mk.injEq] at h
  rw [← h.2]
  exact honest_consistent hd

/-- Parameters without breaks: vectors are their own commitments and hashes are negative. -/
noncomputable def negCrypto : Crypto ℚ (Byte → ℚ) where
  g i := fun j => if j.val = i then 1 else 0
  h x := if x = 0 then 0 else -((Encodable.encode x + 1 : ℕ) : ℚ)
  h_zero := by simp

theorem negCrypto_commit (v : Byte → ℚ) : commit negCrypto v = v := idealCrypto_commit v

theorem negCrypto_nonpos (x : Byte → ℚ) : negCrypto.h x ≤ 0 := by
  simp only [negCrypto]
  split
  · exact le_refl _
  · exact neg_nonpos.2 (Nat.cast_nonneg _)

theorem negCrypto_h_inj {x y : Byte → ℚ} (h : negCrypto.h x = negCrypto.h y) : x = y := by
  simp only [negCrypto] at h
  split at h <;> split at h
  · simp_all
  · exfalso
    rw [eq_comm, neg_eq_zero, Nat.cast_eq_zero] at h
    omega
  · exfalso
    rw [neg_eq_zero, Nat.cast_eq_zero] at h
    omega
  · have := Nat.cast_injective (neg_injective h)
    exact Encodable.encode_injective (by omega)

theorem negCrypto_not_nat {x : Byte → ℚ} (h0 : negCrypto.h x ≠ 0) (n : ℕ) : negCrypto.h x ≠ n := by
  intro h
  have h1 := negCrypto_nonpos x
  have h2 : (0 : ℚ) ≤ n := Nat.cast_nonneg _
  exact h0 (le_antisymm h1 (h ▸ h2))

theorem negCrypto_no_break (m : KV) (qs : List (VerifierQuery ℚ (Byte → ℚ))) : ¬ ProofBreak negCrypto m id qs := by
  have h1 : ∀ x, negCrypto.h x ≠ 1 := fun x h => negCrypto_not_nat (by rw [h]; exact one_ne_zero) 1 (by rw [h]; simp)
  rintro (⟨q, _, v, _, h, _, hne⟩ | ⟨q, _, x, _, hne, h⟩ | ⟨q, _, h0, h | ⟨s, _, h | ⟨off, j, _, h⟩⟩⟩ |
    ⟨v, w, _, _, hne, h⟩ | ⟨x, y, _, _, hne, h⟩ | ⟨x, _, h⟩)
  · rw [negCrypto_commit] at h; exact hne h
  · exact hne (negCrypto_h_inj h)
  · exact h1 _ h
  · exact negCrypto_not_nat h0 _ h
  · simp only [suffixVec] at h
    generalize m (mkKey s (Fin.ofNat 256 (off + j.val / 2))) = o at h
    cases o with
    | none => simp [slot] at h; exact h0 h
    | some v =>
      simp only [slot] at h
      split at h
      · rw [lowHalf_eq] at h
        exact negCrypto_not_nat h0 _ h
      · exact negCrypto_not_nat h0 _ h
  · rw [negCrypto_commit, negCrypto_commit] at h; exact hne h
  · exact hne (negCrypto_h_inj h)
  · exact h1 _ h

/-- The opening argument for those parameters: the commitment is the vector, so openings are simply looked up. -/
noncomputable def lookupOpener : Opener ℚ (Byte → ℚ) where
  Pf := Unit
  openAll _ := .ok ()
  check _ qs := .ok (decide (Extracts negCrypto id qs))

theorem lookupOpener_complete : CompleteOpener negCrypto lookupOpener := by
  intro qs _ ht
  refine ⟨(), rfl, ?_⟩
  show Except.ok _ = _
  congr 1
  rw [decide_eq_true_iff]
  intro q hq
  obtain ⟨q, hq', rfl⟩ := List.mem_map.1 hq
  obtain ⟨_, h2, h3, h4⟩ := ht q hq'
  refine ⟨⟨q.point, h2⟩, rfl, negCrypto_commit _, ?_⟩
  show q.commitment ⟨q.point, h2⟩ = q.result
  rw [h3, negCrypto_commit, h4]

/-- What `check` has accepted. -/
theorem check_queries {C : Crypto F G} {O : Opener F G} {p : VerkleProof G O.Pf} {keys : List Key} {values : List (Option Value)}
    {root : G} {uh : Option (UpdateHint G)} (h : check C O p keys values root = .ok (true, uh)) :
    ∃ qs uh', createVerifierQueries C p.hint p.comms keys values root = .ok (some (qs, uh')) ∧ O.check p.proof qs = .ok true := by
  simp only [check, bind, Except.bind] at h
  cases hq : createVerifierQueries C p.hint p.comms keys values root with
  | error e => rw [hq] at h; simp at h
  | ok o =>
    rw [hq] at h
    cases o with
    | none => simp at h
    | some r =>
      obtain ⟨qs, uh'⟩ := r
      simp only at h
      cases hck : O.check p.proof qs with
      | error e => rw [hck] at h; simp at h
      | ok b =>
        rw [hck] at h
        simp only [Except.ok.injEq, Prod.mk.injEq] at h
        rw [h.1] at hck
        exact ⟨qs, uh', rfl, hck⟩

/-- The commitments, which are vectors, open whatever is accepted. -/
theorem lookup_extracts {p : VerkleProof (Byte → ℚ) lookupOpener.Pf} {keys : List Key} {values : List (Option Value)} {root : Byte → ℚ}
    {uh : Option (UpdateHint (Byte → ℚ))} (h : check negCrypto lookupOpener p keys values root = .ok (true, uh)) :
    CheckExtracts negCrypto id p keys values root := by
  intro qs uh' hq
  obtain ⟨qs', uh'', hq', h⟩ := check_queries h
  rw [hq] at hq'
  cases hq'
  have h : Except.ok (decide (Extracts negCrypto id qs)) = (Except.ok true : Res Bool) := h
  simpa using h

/-- The queries of the honest proof for the single key of `soloHist`. -/
noncomputable def soloQueries (C : Crypto F G) : List (ProverQuery F G) :=
  [vecQuery C (branchVec C (lastWrite soloHist) []) 1, vecQuery C (stemVec C (lastWrite soloHist) soloKey.stem) 0,
    vecQuery C (stemVec C (lastWrite soloHist) soloKey.stem) 1, vecQuery C (stemVec C (lastWrite soloHist) soloKey.stem) 2,
    vecQuery C (suffixVec (lastWrite soloHist) soloKey.stem 0 F) 10, vecQuery C (suffixVec (lastWrite soloHist) soloKey.stem 0 F) 11]

theorem soloQueries_true (C : Crypto F G) : ∀ q ∈ soloQueries C, TrueQuery C q := by
  intro q hq
  simp only [soloQueries, List.mem_cons, List.not_mem_nil, or_false] at hq
  rcases hq with rfl | rfl | rfl | rfl | rfl | rfl <;> exact vecQuery_true _ _ _

theorem solo_queries (C : Crypto F G) : createVerifierQueries C ⟨[1], [.present], []⟩
    [stemComm C (lastWrite soloHist) soloKey.stem, suffixComm C (lastWrite soloHist) soloKey.stem 0] [soloKey]
    [some (valOf 7)] (branchComm C (lastWrite soloHist) []) = .ok (some ((soloQueries C).map ProverQuery.toVerifier,
    ⟨[(soloKey.stem, (.present, 1))], [([], branchComm C (lastWrite soloHist) []),
    ([1], stemComm C (lastWrite soloHist) soloKey.stem), ([1, 2], suffixComm C (lastWrite soloHist) soloKey.stem 0)], []⟩)) := by
  simp only [soloQueries, List.map_cons, List.map_nil, vecQuery, ProverQuery.toVerifier]
  have e0 : stemVec C (lastWrite soloHist) soloKey.stem 0 = 1 := rfl
  have e1 : stemVec C (lastWrite soloHist) soloKey.stem 1 = frLe F soloKey.stem.1 := rfl
  have e2 : stemVec C (lastWrite soloHist) soloKey.stem 2 = C.h (suffixComm C (lastWrite soloHist) soloKey.stem 0) := rfl
  have e3 : suffixVec (lastWrite soloHist) soloKey.stem 0 F 10 = (valueHalves F (some (valOf 7))).1 := rfl
  have e4 : suffixVec (lastWrite soloHist) soloKey.stem 0 F 11 = (valueHalves F (some (valOf 7))).2 := rfl
  rw [solo_child, e0, e1, e2, e3, e4, ← branchComm_eq_commit _ _ _ (by simp), ← stemComm_eq_commit, ← suffixComm_eq_commit]
  generalize branchComm C (lastWrite soloHist) [] = r
  generalize stemComm C (lastWrite soloHist) soloKey.stem = c
  generalize suffixComm C (lastWrite soloHist) soloKey.stem 0 = c'
  rfl

/-- The honest proof for the single key of `soloHist`. -/
theorem solo_accepted (C : Crypto F G) (O : Opener F G) (hO : CompleteOpener C O) :
    ∃ p uh, p.hint = ⟨[1], [.present], []⟩ ∧
      check C O p [soloKey] [some (valOf 7)] (branchComm C (lastWrite soloHist) []) = .ok (true, some uh) := by
  obtain ⟨p, h1, h2⟩ := accept_hint hO (by simp [soloQueries]) (soloQueries_true C) (solo_queries C)
  exact ⟨p, _, h1, h2⟩

theorem solo_consistent : HintConsistent ⟨[1], [.present], []⟩ [soloKey] := by
  have h : ∀ {s e d}, HintEntry ⟨[1], [.present], []⟩ [soloKey] s e d → s = soloKey.stem ∧ e = .present ∧ d = 1 := by
    rintro s e d ⟨b, rfl, hb⟩
    have hs : stemsOf [soloKey] = [soloKey.stem] := rfl
    simp only [hs, List.zip_cons_cons, List.zip_nil_right, List.mem_singleton, Prod.mk.injEq] at hb
    exact ⟨hb.1.1, hb.2, by rw [hb.1.2]; rfl⟩
  refine ⟨fun s t e f c d h1 h2 _ => ?_, fun s t e f c d h1 h2 _ => ?_, fun s d h1 => ?_⟩
  · obtain ⟨rfl, rfl, rfl⟩ := h h1
    obtain ⟨rfl, rfl, rfl⟩ := h h2
    rfl
  · obtain ⟨rfl, rfl, rfl⟩ := h h1
    obtain ⟨rfl, rfl, rfl⟩ := h h2
    exact ⟨Iff.rfl, fun _ _ => rfl⟩
  · simp

/-- The hypotheses of `C21_accepted_claims_true_partial` can all hold, without a break. -/
example : ∃ db root p uh, BigField ℚ ∧ build negCrypto soloHist = .ok db ∧ Trie.rootCommitment db = .ok root ∧
    check negCrypto lookupOpener p [soloKey] [some (valOf 7)] root = .ok (true, some uh) ∧
    HintConsistent p.hint [soloKey] ∧ CheckExtracts negCrypto id p [soloKey] [some (valOf 7)] root ∧
    ∀ qs, ¬ ProofBreak negCrypto (lastWrite soloHist) id qs := by
  obtain ⟨p, uh, hh, hp⟩ := solo_accepted negCrypto lookupOpener lookupOpener_complete
  refine ⟨_, _, p, uh, bigField_rat, build_eq _ _, rootCommitment_spec _ _, hp, hh ▸ solo_consistent,
    lookup_extracts hp, negCrypto_no_break _⟩

/-- An absent key away from the path of `soloKey`. -/
def farKey : Key := keyOf [9] 5

/-- A proof with a forged claim, that for `twinKey`, in which the claim for `farKey` is undisputed although the hint is not
consistent: `C21_accepted_claims_true_partial` says that the latter is true. -/
theorem far_accepted (C : Crypto F G) (O : Opener F G) (hO : CompleteOpener C O) :
    ∃ p uh, Undisputed p.hint [twinKey, soloKey, farKey] [some (valOf 7), some (valOf 7), none] farKey none ∧
      ¬ HintConsistent p.hint [twinKey, soloKey, farKey] ∧ Trie.get (specDb C (lastWrite soloHist)) twinKey = none ∧
      check C O p [twinKey, soloKey, farKey] [some (valOf 7), some (valOf 7), none] (branchComm C (lastWrite soloHist) []) =
        .ok (true, some uh) := by
  have h9 : branchVec C (lastWrite soloHist) [] 9 = 0 := childHash_none (by
    rintro s ⟨hs, hp⟩
    obtain ⟨x, hx, rfl⟩ := (hasStem_iff _ _).1 hs
    simp only [soloHist, List.mem_singleton] at hx
    subst hx
    revert hp
    decide)
  obtain ⟨p, hh, hp⟩ := accept_hint hO (hint := ⟨[1, 1, 1], [.present, .present, .none], []⟩)
    (comms := [stemComm C (lastWrite soloHist) soloKey.stem, suffixComm C (lastWrite soloHist) soloKey.stem 0])
    (keys := [twinKey, soloKey, farKey]) (values := [some (valOf 7), some (valOf 7), none])
    (root := branchComm C (lastWrite soloHist) [])
    (qs := [vecQuery C (branchVec C (lastWrite soloHist) []) 1, vecQuery C (branchVec C (lastWrite soloHist) []) 9,
      vecQuery C (stemVec C (lastWrite soloHist) soloKey.stem) 0,
      vecQuery C (stemVec C (lastWrite soloHist) soloKey.stem) 1, vecQuery C (stemVec C (lastWrite soloHist) soloKey.stem) 2,
      vecQuery C (suffixVec (lastWrite soloHist) soloKey.stem 0 F) 10,
      vecQuery C (suffixVec (lastWrite soloHist) soloKey.stem 0 F) 11])
    (uh := ⟨[(twinKey.stem, (.present, 1)), (soloKey.stem, (.present, 1)), (farKey.stem, (.none, 1))],
      [([], branchComm C (lastWrite soloHist) []),
      ([1], stemComm C (lastWrite soloHist) soloKey.stem), ([1, 2], suffixComm C (lastWrite soloHist) soloKey.stem 0)], []⟩)
    (by simp)
    (by
      intro q hq
      simp only [List.mem_cons, List.not_mem_nil, or_false] at hq
      rcases hq with rfl | rfl | rfl | rfl | rfl | rfl | rfl <;> exact vecQuery_true _ _ _)
    (by
      simp only [List.map_cons, List.map_nil, vecQuery, ProverQuery.toVerifier]
      have e0 : stemVec C (lastWrite soloHist) soloKey.stem 0 = 1 := rfl
      have e1 : stemVec C (lastWrite soloHist) soloKey.stem 1 = frLe F soloKey.stem.1 := rfl
      have e2 : stemVec C (lastWrite soloHist) soloKey.stem 2 = C.h (suffixComm C (lastWrite soloHist) soloKey.stem 0) := rfl
      have e3 : suffixVec (lastWrite soloHist) soloKey.stem 0 F 10 = (valueHalves F (some (valOf 7))).1 := rfl
      have e4 : suffixVec (lastWrite soloHist) soloKey.stem 0 F 11 = (valueHalves F (some (valOf 7))).2 := rfl
      rw [solo_child, h9, e0, e1, e2, e3, e4, ← branchComm_eq_commit _ _ _ (by simp), ← stemComm_eq_commit, ← suffixComm_eq_commit]
      generalize branchComm C (lastWrite soloHist) [] = r
      generalize stemComm C (lastWrite soloHist) soloKey.stem = c
      generalize suffixComm C (lastWrite soloHist) soloKey.stem 0 = c'
      rfl)
  refine ⟨p, _, hh ▸ ⟨?_, ?_, ?_⟩, fun hc => ?_, rfl, hp⟩
  · intro v h
    have : ∀ x ∈ [twinKey, soloKey, farKey].zip [some (valOf 7), some (valOf 7), none], x.1 = farKey → x.2 = none := by decide
    exact this _ h rfl
  · have h : ∀ {s e d}, HintEntry ⟨[1, 1, 1], [.present, .present, .none], []⟩ [twinKey, soloKey, farKey] s e d →
        d = 1 ∧ (e = .none ↔ s = farKey.stem) ∧ (s = farKey.stem ∨ s.1.take 1 = [1]) := by
      rintro s e d ⟨b, rfl, hb⟩
      have hs : stemsOf [twinKey, soloKey, farKey] = [twinKey.stem, soloKey.stem, farKey.stem] := rfl
      simp only [hs, List.zip_cons_cons, List.zip_nil_right, List.mem_cons, List.not_mem_nil, or_false, Prod.mk.injEq] at hb
      rcases hb with ⟨⟨rfl, rfl⟩, rfl⟩ | ⟨⟨rfl, rfl⟩, rfl⟩ | ⟨⟨rfl, rfl⟩, rfl⟩ <;> decide
    refine fun t => ⟨fun e f c d h1 h2 h3 => ?_, fun e f c d h1 h2 h3 => ?_⟩
    · obtain ⟨rfl, _, _⟩ := h h1
      obtain ⟨rfl, _, ht | ht⟩ := h h2
      · rw [ht]
      · rw [ht] at h3
        exact absurd h3 (by decide)
    · obtain ⟨rfl, i1, _⟩ := h h1
      obtain ⟨rfl, i2, ht | ht⟩ := h h2
      · subst ht
        exact ⟨i1.trans i2.symm, fun _ _ => rfl⟩
      · rw [ht] at h3
        exact absurd h3 (by decide)
  · intro d h
    simp
  · have := hc.kind twinKey.stem soloKey.stem .present .present 1 1 (hh ▸ ⟨1, rfl, by decide⟩) (hh ▸ ⟨1, rfl, by decide⟩) (by decide)
    exact absurd (this.2 rfl rfl) (by decide)

/-- The hypotheses of `C21_accepted_claims_true_partial` can all hold, without a break, for a claim in a proof that forges another. -/
example : ∃ db root p uh, BigField ℚ ∧ build negCrypto soloHist = .ok db ∧ Trie.rootCommitment db = .ok root ∧
    check negCrypto lookupOpener p [twinKey, soloKey, farKey] [some (valOf 7), some (valOf 7), none] root = .ok (true, some uh) ∧
    CheckExtracts negCrypto id p [twinKey, soloKey, farKey] [some (valOf 7), some (valOf 7), none] root ∧
    (∀ qs, ¬ ProofBreak negCrypto (lastWrite soloHist) id qs) ∧
    Undisputed p.hint [twinKey, soloKey, farKey] [some (valOf 7), some (valOf 7), none] farKey none ∧
    Trie.get db twinKey = none := by
  obtain ⟨p, uh, h1, _, h2, hp⟩ := far_accepted negCrypto lookupOpener lookupOpener_complete
  refine ⟨_, _, p, uh, bigField_rat, build_eq _ _, rootCommitment_spec _ _, hp, lookup_extracts hp,
    negCrypto_no_break _, h1, h2⟩

end Verif.Props
