import Verif.Vectors.Decode
import Verif.Props.Trie

/-!
# Test vectors of the repository: roots of tries

The specified root (C04) of a list of insertions, evaluated with coordinates.
-/

set_option autoImplicit false

namespace Verif.Vectors
open Proof Bander Ipa Wire Spec Props Trie
open Sha256 (beNat force force_eq)

/-- The generators. -/
def gensT : List Tri := crsTri.take 256

theorem gens_R : List.Forall₂ Tri.R gensT ((List.range 256).map crypto.g) := by
  rw [crs_gens]
  exact List.forall₂_take 256 crsTri_R

theorem lin_range (f : ℕ → ZMod r) (g : ℕ → BElem) (n : ℕ) :
    lin ((List.range n).map f) ((List.range n).map g) = ∑ i : Fin n, f i.val • g i.val := by
  unfold lin
  rw [List.zipWith_map, List.zipWith_self, Fin.sum_univ_def, ← List.map_coe_finRange_eq_range, List.map_map]
  rfl

theorem lin_append {s s' : List (ZMod r)} {p p' : List BElem} (h : s.length = p.length) : lin (s ++ s') (p ++ p') = lin s p + lin s' p' := by
  unfold lin
  rw [List.zipWith_append h, List.sum_append]

theorem range_pairs (g : ℕ → BElem) (n : ℕ) : (List.range (2 * n)).map g = (List.range n).flatMap fun i => [g (2 * i), g (2 * i + 1)] := by
  induction n with
  | zero => rfl
  | succ n ih =>
    rw [Nat.mul_succ, List.range_succ, List.range_succ, List.map_append, List.map_append, ih, List.range_succ, List.flatMap_append]
    simp

theorem lin_pairs (a b : ℕ → ZMod r) (g : ℕ → BElem) (n : ℕ) :
    lin ((List.range n).flatMap fun i => [a i, b i]) ((List.range (2 * n)).map g) =
      ∑ i : Fin n, (a i.val • g (2 * i.val) + b i.val • g (2 * i.val + 1)) := by
  rw [range_pairs]
  have h : ∀ l : List ℕ, lin (l.flatMap fun i => [a i, b i]) (l.flatMap fun i => [g (2 * i), g (2 * i + 1)]) =
      (l.map fun i => a i • g (2 * i) + b i • g (2 * i + 1)).sum := by
    intro l
    induction l with
    | nil => rfl
    | cons i l ih =>
      rw [List.flatMap_cons, List.flatMap_cons, lin_append rfl, ih, List.map_cons, List.sum_cons]
      simp [lin]
  rw [h, Fin.sum_univ_def, ← List.map_coe_finRange_eq_range, List.map_map]
  rfl

/-! ### The evaluator -/

/-- The last value written. -/
def look (l : List (Key × Value)) (k : Key) : Option Value := (l.reverse.find? fun p => decide (p.1.1 = k.1)).map Prod.snd

theorem look_eq (l : List (Key × Value)) : look l = lastWrite l := by
  funext k
  unfold look lastWrite
  congr 2
  funext p
  rw [decide_eq_decide]
  exact Subtype.ext_iff.symm

/-- `suffixComm`. -/
def suffixT (m : KV) (s : Stem) (off : ℕ) : Tri :=
  Tri.msm ((List.range 128).flatMap fun i => [(slot (ZMod r) (m (mkKey s (Fin.ofNat 256 (off + i))))).1,
    (slot (ZMod r) (m (mkKey s (Fin.ofNat 256 (off + i))))).2]) gensT

theorem suffixT_R (m : KV) (s : Stem) (off : ℕ) : (suffixT m s off).R (suffixComm crypto m s off) := by
  have h := msm_R ((List.range 128).flatMap fun i => [(slot (ZMod r) (m (mkKey s (Fin.ofNat 256 (off + i))))).1,
    (slot (ZMod r) (m (mkKey s (Fin.ofNat 256 (off + i))))).2]) gens_R
  rw [lin_pairs (fun i => (slot (ZMod r) (m (mkKey s (Fin.ofNat 256 (off + i))))).1)
    (fun i => (slot (ZMod r) (m (mkKey s (Fin.ofNat 256 (off + i))))).2) crypto.g 128] at h
  exact h

/-- `stemComm`. -/
def stemT (m : KV) (s : Stem) : Tri :=
  Tri.msm [1, (leNat s.1 : ZMod r), (suffixT m s 0).hash, (suffixT m s 128).hash] (gensT.take 4)

theorem stemT_R (m : KV) (s : Stem) : (stemT m s).R (stemComm crypto m s) := by
  have h := msm_R [1, (leNat s.1 : ZMod r), (suffixT m s 0).hash, (suffixT m s 128).hash] (List.forall₂_take 4 gens_R)
  rw [hash_R (suffixT_R m s 0), hash_R (suffixT_R m s 128), ← List.map_take, List.take_range] at h
  have e : lin [1, (leNat s.1 : ZMod r), Elem.hash (ZMod r) (suffixComm crypto m s 0), Elem.hash (ZMod r) (suffixComm crypto m s 128)]
      ((List.range (min 4 256)).map crypto.g) = stemComm crypto m s := by
    rw [show min 4 256 = 4 from rfl]
    simp only [lin, List.range_succ, List.range_zero, List.nil_append, List.cons_append, List.map_cons, List.map_nil, List.zipWith_cons_cons, List.zipWith_nil_left,
      List.sum_cons, List.sum_nil, add_zero, stemComm]
    rw [← add_assoc, ← add_assoc]
    rfl
  rw [e] at h
  unfold stemT
  rwa [hash_R (suffixT_R m s 0), hash_R (suffixT_R m s 128)]

/-- `branchComm` at depth `d` above the given stems; the first argument bounds the number of levels. -/
def branchT (m : KV) : ℕ → ℕ → List Stem → Tri
  | 0, _, _ => Tri.zero
  | fuel + 1, d, ss => Tri.msm ((List.range 256).map fun i =>
      match ss.filter fun s => (s.1.getD d 0).val == i with
      | [] => 0
      | [s] => (stemT m s).hash
      | ts => (branchT m fuel (d + 1) ts).hash) gensT

theorem branchT_R (m : KV) : ∀ (fuel : ℕ) (p : Path) (ss : List Stem), p.length < 31 → 31 ≤ fuel + p.length → ss.Nodup → (∀ s, Under m p s ↔ s ∈ ss) →
    (branchT m fuel p.length ss).R (branchComm crypto m p) := by
  intro fuel
  induction fuel with
  | zero => intro p ss h1 h2; omega
  | succ fuel ih =>
    intro p ss h1 h2 hnd hss
    rw [branchComm_eq _ _ _ (by omega)]
    have key : ∀ i : Byte, (match ss.filter fun s => (s.1.getD p.length 0).val == i.val with
      | [] => 0
      | [s] => (stemT m s).hash
      | ts => (branchT m fuel (p.length + 1) ts).hash) = childHash crypto m (p ++ [i]) := by
      intro i
      have hf : ∀ s, Under m (p ++ [i]) s ↔ s ∈ ss.filter fun s => (s.1.getD p.length 0).val == i.val := by
        intro s
        rw [List.mem_filter, ← hss]
        have hlen : p.length < s.1.length := by rw [s.2]; exact h1
        rw [List.getD_eq_getElem _ _ hlen, beq_iff_eq, Fin.val_inj]
        constructor
        · rintro ⟨g1, g2⟩
          obtain ⟨t, ht⟩ := g2
          refine ⟨⟨g1, ⟨i :: t, by rw [← ht]; simp⟩⟩, ?_⟩
          simp [← ht]
        · rintro ⟨⟨g1, t, ht⟩, g2⟩
          refine ⟨g1, ?_⟩
          rw [List.getElem_of_eq ht.symm, List.getElem_append_right (le_refl _)] at g2
          cases t with
          | nil => rw [← ht] at hlen; simp at hlen
          | cons j t =>
            simp only [Nat.sub_self, List.getElem_cons_zero] at g2
            exact ⟨t, by rw [← ht, ← g2]; simp⟩
      have hnd' : (ss.filter fun s => (s.1.getD p.length 0).val == i.val).Nodup := hnd.filter _
      generalize ss.filter (fun s => (s.1.getD p.length 0).val == i.val) = ts at hf hnd'
      unfold childHash
      rcases ts with _ | ⟨s, _ | ⟨s', ts⟩⟩
      · have h0 : ∀ s, ¬ Under m (p ++ [i]) s := fun s hs => by simpa using (hf s).1 hs
        rw [if_neg (fun ⟨s, _, _, hs, _⟩ => h0 s hs), dif_neg (fun ⟨s, hs⟩ => h0 s hs)]
      · have hu : Under m (p ++ [i]) s := (hf s).2 (by simp)
        have hx : ∃ s, Under m (p ++ [i]) s := ⟨s, hu⟩
        have h0 : ¬ Many m (p ++ [i]) := by
          rintro ⟨a, b, hab, ha, hb⟩
          have ha := (hf a).1 ha
          have hb := (hf b).1 hb
          rw [List.mem_singleton] at ha hb
          exact hab (ha.trans hb.symm)
        rw [if_neg h0, dif_pos hx, Under.unique h0 hx.choose_spec hu]
        exact hash_R (stemT_R m s)
      · have hM : Many m (p ++ [i]) := by
          refine ⟨s, s', ?_, (hf s).2 (by simp), (hf s').2 (by simp)⟩
          rw [List.nodup_cons] at hnd'
          rintro rfl
          exact hnd'.1 (by simp)
        rw [if_pos hM]
        have hl := hM.length_lt
        have h3 := ih (p ++ [i]) (s :: s' :: ts) hl (by simp; omega) hnd' hf
        rw [List.length_append, List.length_singleton] at h3
        exact hash_R h3
    rw [show (∑ i : Byte, childHash crypto m (p ++ [i]) • crypto.g i.val) = lin ((List.range 256).map fun i =>
      match ss.filter fun s => (s.1.getD p.length 0).val == i with
      | [] => 0
      | [s] => (stemT m s).hash
      | ts => (branchT m fuel (p.length + 1) ts).hash) ((List.range 256).map crypto.g) from by
        rw [lin_range]
        exact Finset.sum_congr rfl fun i _ => by rw [← key i]]
    exact msm_R _ gens_R

/-- The root of a list of insertions, with the list of their stems. -/
theorem root_R (l : List (Key × Value)) (ss : List Stem) (hnd : ss.Nodup) (h1 : ∀ p ∈ l, ∃ s ∈ ss, p.1.1.dropLast = s.1)
    (h2 : ∀ s ∈ ss, ∃ p ∈ l, p.1.1.dropLast = s.1) :
    (branchT (look l) 31 0 ss).R (branchComm crypto (lastWrite l) []) := by
  rw [← look_eq]
  refine branchT_R (look l) 31 [] ss (by simp) (by simp) hnd fun s => ?_
  have hk : ∀ k : Key, look l k ≠ none ↔ ∃ p ∈ l, p.1 = k := by
    intro k
    unfold look
    rw [Ne, Option.map_eq_none_iff, List.find?_eq_none]
    push Not
    simp only [List.mem_reverse, decide_eq_true_eq]
    exact exists_congr fun p => and_congr_right fun _ => Subtype.ext_iff.symm
  constructor
  · rintro ⟨⟨b, hb⟩, -⟩
    obtain ⟨p, hp, he⟩ := (hk _).1 hb
    obtain ⟨s', hs', he'⟩ := h1 p hp
    rw [he] at he'
    have : s = s' := Subtype.ext (by rw [← he']; simp [mkKey])
    rwa [this]
  · intro hs
    obtain ⟨p, hp, he⟩ := h2 s hs
    refine ⟨⟨p.1.1.getLast (by intro h0; have := p.1.2; rw [h0] at this; cases this), (hk _).2 ⟨p, hp, Subtype.ext ?_⟩⟩, List.nil_prefix⟩
    simp only [mkKey, ← he, List.dropLast_append_getLast]

/-! ### The roots -/

/-- The trie with these insertions is built; its root commitment as the tests print it. -/
def RootComm (l : List (Key × Value)) (n : ℕ) : Prop := ∃ db c, build crypto l = .ok db ∧ Trie.rootCommitment db = .ok c ∧ hexE c = n

/-- The trie with these insertions is built; its root hash as the tests print it. -/
def RootHash (l : List (Key × Value)) (n : ℕ) : Prop := ∃ db h, build crypto l = .ok db ∧ Trie.rootHash db = .ok h ∧ hexS h = n

/-- The stems are those of the keys. -/
def stemsOk (l : List (Key × Value)) (ss : List Stem) : Bool :=
  (ss.map Subtype.val).Nodup ∧ (∀ p ∈ l, p.1.1.dropLast ∈ ss.map Subtype.val) ∧ ∀ s ∈ ss.map Subtype.val, s ∈ l.map fun p => p.1.1.dropLast

theorem stemsOk_R {l : List (Key × Value)} {ss : List Stem} (h : stemsOk l ss = true) : (branchT (look l) 31 0 ss).R (branchComm crypto (lastWrite l) []) := by
  unfold stemsOk at h
  rw [decide_eq_true_eq] at h
  obtain ⟨h1, h2, h3⟩ := h
  refine root_R l ss (List.Nodup.of_map _ h1) (fun p hp => ?_) (fun s hs => ?_)
  · obtain ⟨s, hs, he⟩ := List.mem_map.1 (h2 p hp)
    exact ⟨s, hs, he.symm⟩
  · obtain ⟨p, hp, he⟩ := List.mem_map.1 (h3 s.1 (List.mem_map_of_mem hs))
    exact ⟨p, hp, he⟩

theorem rootComm_of {l : List (Key × Value)} {ss : List Stem} {n : ℕ} (hs : stemsOk l ss = true)
    (h : beNat (branchT (look l) 31 0 ss).bytes = n) : RootComm l n :=
  ⟨_, _, build_eq crypto l, (C04_root_is_from_scratch crypto l (build_eq crypto l)).1, by rw [hexE_R (stemsOk_R hs), h]⟩

theorem rootHash_of {l : List (Key × Value)} {ss : List Stem} {n : ℕ} (hs : stemsOk l ss = true)
    (h : beNat (codec.encS (branchT (look l) 31 0 ss).hash) = n) : RootHash l n := by
  refine ⟨_, _, build_eq crypto l, (C04_root_is_from_scratch crypto l (build_eq crypto l)).2, ?_⟩
  rw [← h, hash_R (stemsOk_R hs)]
  rfl

/-- The bytes `1, …, 32`. -/
def keyA : Key := ⟨[1, 2, 3, 4, 5, 6, 7, 8, 9, 10, 11, 12, 13, 14, 15, 16, 17, 18, 19, 20, 21, 22, 23, 24, 25, 26, 27, 28, 29, 30, 31, 32], rfl⟩

def stemA : Stem := ⟨[1, 2, 3, 4, 5, 6, 7, 8, 9, 10, 11, 12, 13, 14, 15, 16, 17, 18, 19, 20, 21, 22, 23, 24, 25, 26, 27, 28, 29, 30, 31], rfl⟩

def keyZ : Key := ⟨[0, 0, 0, 0, 0, 0, 0, 0, 0, 0, 0, 0, 0, 0, 0, 0, 0, 0, 0, 0, 0, 0, 0, 0, 0, 0, 0, 0, 0, 0, 0, 0], rfl⟩

def stemZ : Stem := ⟨[0, 0, 0, 0, 0, 0, 0, 0, 0, 0, 0, 0, 0, 0, 0, 0, 0, 0, 0, 0, 0, 0, 0, 0, 0, 0, 0, 0, 0, 0, 0], rfl⟩

def keyB : Key := ⟨[0, 0, 0, 0, 0, 0, 0, 0, 0, 0, 0, 0, 0, 0, 0, 0, 0, 0, 0, 0, 0, 0, 0, 0, 0, 0, 0, 0, 0, 0, 1, 0], rfl⟩

def stemB : Stem := ⟨[0, 0, 0, 0, 0, 0, 0, 0, 0, 0, 0, 0, 0, 0, 0, 0, 0, 0, 0, 0, 0, 0, 0, 0, 0, 0, 0, 0, 0, 0, 1], rfl⟩

def keyC : Key := ⟨[0, 0, 0, 0, 0, 0, 0, 0, 0, 0, 0, 0, 0, 0, 0, 0, 0, 0, 0, 0, 0, 0, 0, 0, 0, 0, 0, 0, 0, 1, 0, 0], rfl⟩

def stemC : Stem := ⟨[0, 0, 0, 0, 0, 0, 0, 0, 0, 0, 0, 0, 0, 0, 0, 0, 0, 0, 0, 0, 0, 0, 0, 0, 0, 0, 0, 0, 0, 1, 0], rfl⟩

/-- `simple_insert`, `/repo/verkle-trie/src/trie.rs:1086-1107`. -/
theorem simple_insert : RootHash [(keyA, keyA)]
    0x029b6c4c8af9001f0ac76472766c6579f41eec84a73898da06eb97ebdab80a09 :=
  rootHash_of (ss := [stemA]) (by decide +kernel) (by decide +kernel)

/-- `simple_update`, `/repo/verkle-trie/src/trie.rs:1109-1131`. -/
theorem simple_update : RootHash [(keyA, keyZ), (keyA, keyA)]
    0x029b6c4c8af9001f0ac76472766c6579f41eec84a73898da06eb97ebdab80a09 :=
  rootHash_of (ss := [stemA]) (by decide +kernel) (by decide +kernel)

/-- `insert_longest_path`, `/repo/verkle-trie/src/trie.rs:1020-1041`. -/
theorem insert_longest_path : RootHash [(keyZ, keyZ), (keyB, keyB)]
    0xfe2e17833b90719eddcad493c352ccd491730643ecee39060c7c1fff5fcc621a :=
  rootHash_of (ss := [stemZ, stemB]) (by decide +kernel) (by decide +kernel)

/-- `insert_and_traverse_longest_path`, `/repo/verkle-trie/src/trie.rs:1042-1074`. -/
theorem insert_and_traverse_longest_path : RootHash [(keyZ, keyZ), (keyB, keyB), (keyC, keyC)]
    0x74ff8821eca20188de49340124f249dac94404efdb3838bb6b4d298e483cc20e :=
  rootHash_of (ss := [stemZ, stemB, stemC]) (by decide +kernel) (by decide +kernel)

def goStem : Stem := ⟨[245, 110, 100, 66, 36, 244, 87, 100, 144, 207, 224, 222, 20, 36, 164, 83, 34, 18, 82, 155, 254, 55, 71, 19, 216, 78, 125, 126, 142, 146, 114], rfl⟩

/-- The insertions of `/repo/verkle-trie/tests/golang_interop.rs:15-61`. -/
def goList : List (Key × Value) :=
  [(⟨[245, 110, 100, 66, 36, 244, 87, 100, 144, 207, 224, 222, 20, 36, 164, 83, 34, 18, 82, 155, 254, 55, 71, 19, 216, 78, 125, 126, 142, 146, 114, 0], rfl⟩,
    ⟨[0, 0, 0, 0, 0, 0, 0, 0, 0, 0, 0, 0, 0, 0, 0, 0, 0, 0, 0, 0, 0, 0, 0, 0, 0, 0, 0, 0, 0, 0, 0, 0], rfl⟩),
   (⟨[245, 110, 100, 66, 36, 244, 87, 100, 144, 207, 224, 222, 20, 36, 164, 83, 34, 18, 82, 155, 254, 55, 71, 19, 216, 78, 125, 126, 142, 146, 114, 1], rfl⟩,
    ⟨[0, 0, 100, 167, 179, 182, 224, 13, 0, 0, 0, 0, 0, 0, 0, 0, 0, 0, 0, 0, 0, 0, 0, 0, 0, 0, 0, 0, 0, 0, 0, 0], rfl⟩),
   (⟨[245, 110, 100, 66, 36, 244, 87, 100, 144, 207, 224, 222, 20, 36, 164, 83, 34, 18, 82, 155, 254, 55, 71, 19, 216, 78, 125, 126, 142, 146, 114, 2], rfl⟩,
    ⟨[0, 0, 0, 0, 0, 0, 0, 0, 0, 0, 0, 0, 0, 0, 0, 0, 0, 0, 0, 0, 0, 0, 0, 0, 0, 0, 0, 0, 0, 0, 0, 0], rfl⟩),
   (⟨[245, 110, 100, 66, 36, 244, 87, 100, 144, 207, 224, 222, 20, 36, 164, 83, 34, 18, 82, 155, 254, 55, 71, 19, 216, 78, 125, 126, 142, 146, 114, 3], rfl⟩,
    ⟨[197, 210, 70, 1, 134, 247, 35, 60, 146, 126, 125, 178, 220, 199, 3, 192, 229, 0, 182, 83, 202, 130, 39, 59, 123, 250, 216, 4, 93, 133, 164, 112], rfl⟩),
   (⟨[245, 110, 100, 66, 36, 244, 87, 100, 144, 207, 224, 222, 20, 36, 164, 83, 34, 18, 82, 155, 254, 55, 71, 19, 216, 78, 125, 126, 142, 146, 114, 4], rfl⟩,
    ⟨[0, 0, 0, 0, 0, 0, 0, 0, 0, 0, 0, 0, 0, 0, 0, 0, 0, 0, 0, 0, 0, 0, 0, 0, 0, 0, 0, 0, 0, 0, 0, 0], rfl⟩)]

/-- `golang_rust_interop`, `/repo/verkle-trie/tests/golang_interop.rs:11-75`: the root which the Go implementation has too. -/
theorem golang_rust_interop : RootComm goList
    0x10ed89d89047bb168baa4e69b8607e260049e928ddbcb2fdd23ea0f4182b1f8a :=
  rootComm_of (ss := [goStem]) (by decide +kernel) (by decide +kernel)

end Verif.Vectors
