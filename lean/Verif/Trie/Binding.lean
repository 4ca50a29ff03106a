import Verif.Trie.Chain

/-!
# Commitments as vector commitments, and binding of the root

Every commitment of the specification is `commit C v = ∑ v_i G_i` of a 256-vector `v`.  `Vectors C m` collects the vectors
committed in the trie of the map `m`, `Comms C m` their commitments.
-/

set_option autoImplicit false

namespace Verif.Spec
open scoped BigOperators Classical
open Verif.Trie (prefix_iff_take)

variable {F G : Type} [Field F] [AddCommGroup G] [Module F G]

/-- Pedersen vector commitment. -/
def commit (C : Crypto F G) (v : Byte → F) : G := ∑ i : Byte, v i • C.g i.val

/-- The vector of the 128 slots starting at `off`: entry `2 i` is the low half of slot `off + i`, `2 i + 1` its high half. -/
def suffixVec (m : KV) (s : Stem) (off : ℕ) (F : Type) [Field F] : Byte → F := fun j =>
  let sl := slot F (m (mkKey s (Fin.ofNat 256 (off + j.val / 2))))
  if j.val % 2 = 0 then sl.1 else sl.2

/-- The vector of a stem. -/
def stemVec (C : Crypto F G) (m : KV) (s : Stem) : Byte → F := fun j =>
  if j.val = 0 then 1
  else if j.val = 1 then (leNat s.1 : F)
  else if j.val = 2 then C.h (suffixComm C m s 0)
  else if j.val = 3 then C.h (suffixComm C m s 128)
  else 0

/-- The vector of a branch. -/
noncomputable def branchVec (C : Crypto F G) (m : KV) (p : Path) : Byte → F := fun i => childHash C m (p ++ [i])

theorem sum_pairs (f : ℕ → G) : ∑ j : Byte, f j.val = ∑ i : Fin 128, (f (2 * i.val) + f (2 * i.val + 1)) := by
  have h1 : ∑ j : Byte, f j.val = ∑ j ∈ Finset.range 256, f j := Fin.sum_univ_eq_sum_range f 256
  have h2 : ∑ i : Fin 128, (f (2 * i.val) + f (2 * i.val + 1)) =
      ∑ i ∈ Finset.range 128, (f (2 * i) + f (2 * i + 1)) :=
    Fin.sum_univ_eq_sum_range (fun i => f (2 * i) + f (2 * i + 1)) 128
  rw [h1, h2]
  have : ∀ n, ∑ j ∈ Finset.range (2 * n), f j = ∑ i ∈ Finset.range n, (f (2 * i) + f (2 * i + 1)) := by
    intro n
    induction n with
    | zero => simp
    | succ n ih =>
      rw [Finset.sum_range_succ, ← ih, Nat.mul_succ, Finset.sum_range_succ, Finset.sum_range_succ]
      abel
  exact this 128

theorem suffixComm_eq_commit (C : Crypto F G) (m : KV) (s : Stem) (off : ℕ) :
    suffixComm C m s off = commit C (suffixVec m s off F) := by
  have := sum_pairs (fun n => (let sl := slot F (m (mkKey s (Fin.ofNat 256 (off + n / 2))))
    if n % 2 = 0 then sl.1 else sl.2) • C.g n)
  unfold commit suffixVec suffixComm
  rw [this]
  apply Finset.sum_congr rfl
  intro i _
  have e1 : (2 * i.val) / 2 = i.val := by omega
  have e2 : (2 * i.val + 1) / 2 = i.val := by omega
  have e3 : (2 * i.val) % 2 = 0 := by omega
  have e4 : ¬ (2 * i.val + 1) % 2 = 0 := by omega
  simp only [e1, e2, e3, e4, if_true, if_false]

theorem stemComm_eq_commit (C : Crypto F G) (m : KV) (s : Stem) :
    stemComm C m s = commit C (stemVec C m s) := by
  have h1 : commit C (stemVec C m s) = ∑ j ∈ Finset.range 256,
      (if j = 0 then (1 : F)
        else if j = 1 then (leNat s.1 : F)
        else if j = 2 then C.h (suffixComm C m s 0)
        else if j = 3 then C.h (suffixComm C m s 128)
        else 0) • C.g j := Fin.sum_univ_eq_sum_range (fun j => (if j = 0 then (1 : F)
        else if j = 1 then (leNat s.1 : F)
        else if j = 2 then C.h (suffixComm C m s 0)
        else if j = 3 then C.h (suffixComm C m s 128)
        else 0) • C.g j) 256
  have h2 : Finset.range 4 ⊆ Finset.range 256 := by
    intro x; simp; omega
  rw [h1, ← Finset.sum_subset h2]
  · simp [Finset.sum_range_succ, stemComm]
  · intro x _ hx
    have : ¬ x < 4 := by simpa using hx
    rw [if_neg (by omega), if_neg (by omega), if_neg (by omega), if_neg (by omega), zero_smul]

theorem branchComm_eq_commit (C : Crypto F G) (m : KV) (p : Path) (hp : p.length < 32) :
    branchComm C m p = commit C (branchVec C m p) := branchComm_eq C m p hp

theorem commit_zero (C : Crypto F G) : commit C (fun _ => 0) = 0 := by simp [commit]

/-- The vectors committed in the trie of `m` (and the empty vector). -/
inductive Vectors (C : Crypto F G) (m : KV) : (Byte → F) → Prop
  | empty : Vectors C m (fun _ => 0)
  | suffix (s : Stem) (hs : HasStem m s) (off : ℕ) (ho : off = 0 ∨ off = 128) : Vectors C m (suffixVec m s off F)
  | stem (s : Stem) (hs : HasStem m s) : Vectors C m (stemVec C m s)
  | branch (p : Path) (hp : IsBranch m p) : Vectors C m (branchVec C m p)

/-- The commitments occurring in the trie of `m` (and that of the empty vector). -/
def Comms (C : Crypto F G) (m : KV) (x : G) : Prop := ∃ v, Vectors C m v ∧ x = commit C v

/-- An explicit break of the commitment scheme among the nodes of the tries of `m` and `m'`. -/
def Broken (C : Crypto F G) (m m' : KV) : Prop :=
  (∃ v w, Vectors C m v ∧ Vectors C m' w ∧ v ≠ w ∧ commit C v = commit C w)
  ∨ (∃ x y, Comms C m x ∧ Comms C m' y ∧ x ≠ y ∧ C.h x = C.h y)
  ∨ (∃ x, (Comms C m x ∨ Comms C m' x) ∧ C.h x = 1)

theorem leNat_lt : ∀ l : List Byte, leNat l < 256 ^ l.length
  | [] => by simp [leNat]
  | b :: bs => by
    have h1 := leNat_lt bs
    have h2 := b.2
    simp only [leNat, List.length_cons, pow_succ]
    omega

theorem leNat_inj : ∀ {a b : List Byte}, a.length = b.length → leNat a = leNat b → a = b
  | [], [], _, _ => rfl
  | [], _ :: _, h, _ => by simp at h
  | _ :: _, [], h, _ => by simp at h
  | x :: xs, y :: ys, hl, h => by
    simp only [leNat] at h
    have hx := x.2
    have hy := y.2
    have h1 : x.val = y.val := by omega
    have h2 : leNat xs = leNat ys := by omega
    rw [Fin.ext h1, leNat_inj (by simpa using hl) h2]

/-- The scalar field is large enough that numbers below `2^252` are distinct in it (true of the banderwagon scalar field,
whose order exceeds `2^252`). -/
def BigField (F : Type) [Field F] : Prop := ∀ a b : ℕ, a < 2 ^ 252 → b < 2 ^ 252 → (a : F) = (b : F) → a = b

theorem stem_enc_inj (hF : BigField F) {s t : Stem} (h : (leNat s.1 : F) = (leNat t.1 : F)) : s = t := by
  have h1 := leNat_lt s.1
  have h2 := leNat_lt t.1
  rw [s.2] at h1
  rw [t.2] at h2
  have e : (256 : ℕ) ^ 31 < 2 ^ 252 := by decide
  exact Subtype.ext (leNat_inj (by rw [s.2, t.2]) (hF _ _ (by omega) (by omega) h))

theorem lowHalf_eq (v : Value) : lowHalf F v = ((leNat (v.1.take 16) + 2 ^ 128 : ℕ) : F) := by
  simp [lowHalf]

theorem half_lt (v : Value) : leNat (v.1.take 16) < 2 ^ 128 ∧ leNat (v.1.drop 16) < 2 ^ 128 := by
  have h1 := leNat_lt (v.1.take 16)
  have h2 := leNat_lt (v.1.drop 16)
  have e1 : (v.1.take 16).length = 16 := by simp [v.2]
  have e2 : (v.1.drop 16).length = 16 := by simp [v.2]
  have e : (256 : ℕ) ^ 16 = 2 ^ 128 := by norm_num
  rw [e1, e] at h1
  rw [e2, e] at h2
  exact ⟨h1, h2⟩

theorem lowHalf_ne_zero (hF : BigField F) (v : Value) : lowHalf F v ≠ 0 := by
  intro h
  rw [lowHalf_eq] at h
  have h1 := (half_lt v).1
  have := hF (leNat (v.1.take 16) + 2 ^ 128) 0 (by omega) (by norm_num) (by simpa using h)
  omega

theorem slot_inj (hF : BigField F) {a b : Option Value} (h : slot F a = slot F b) : a = b := by
  cases a with
  | none =>
    cases b with
    | none => rfl
    | some w =>
      simp only [slot, Prod.mk.injEq] at h
      exact absurd h.1.symm (lowHalf_ne_zero hF w)
  | some v =>
    cases b with
    | none =>
      simp only [slot, Prod.mk.injEq] at h
      exact absurd h.1 (lowHalf_ne_zero hF v)
    | some w =>
      simp only [slot, Prod.mk.injEq, lowHalf_eq, highHalf] at h
      have h1 := half_lt v
      have h2 := half_lt w
      have e1 := hF _ _ (by omega) (by omega) h.1
      have e2 := hF _ _ (by omega) (by omega) h.2
      have f1 : v.1.take 16 = w.1.take 16 := leNat_inj (by simp [v.2, w.2]) (by omega)
      have f2 : v.1.drop 16 = w.1.drop 16 := leNat_inj (by simp [v.2, w.2]) e2
      congr 1
      apply Subtype.ext
      rw [← List.take_append_drop 16 v.1, ← List.take_append_drop 16 w.1, f1, f2]

theorem suffixVec_inj (hF : BigField F) {m m' : KV} {s : Stem} {off : ℕ}
    (h : suffixVec m s off F = suffixVec m' s off F) (i : ℕ) (hi : i < 128) :
    m (mkKey s (Fin.ofNat 256 (off + i))) = m' (mkKey s (Fin.ofNat 256 (off + i))) := by
  apply slot_inj hF
  have h1 := congrFun h ⟨2 * i, by omega⟩
  have h2 := congrFun h ⟨2 * i + 1, by omega⟩
  have e1 : (2 * i) / 2 = i := by omega
  have e2 : (2 * i + 1) / 2 = i := by omega
  have e3 : (2 * i) % 2 = 0 := by omega
  have e4 : ¬ (2 * i + 1) % 2 = 0 := by omega
  simp only [suffixVec, e1, e2, e3, e4, if_true, if_false] at h1 h2
  exact Prod.ext h1 h2

section
variable {C : Crypto F G} {m m' : KV} (hF : BigField F) (hnb : ¬ Broken C m m')
include hnb

theorem vec_eq {v w : Byte → F} (hv : Vectors C m v) (hw : Vectors C m' w) (h : commit C v = commit C w) : v = w := by
  by_contra hne
  exact hnb (Or.inl ⟨v, w, hv, hw, hne, h⟩)

theorem vec_eq_of_hash {v w : Byte → F} (hv : Vectors C m v) (hw : Vectors C m' w)
    (h : C.h (commit C v) = C.h (commit C w)) : v = w := by
  apply vec_eq hnb hv hw
  by_contra hne
  exact hnb (Or.inr (Or.inl ⟨_, _, ⟨v, hv, rfl⟩, ⟨w, hw, rfl⟩, hne, h⟩))

theorem hash_ne_one {v : Byte → F} (hv : Vectors C m v ∨ Vectors C m' v) : C.h (commit C v) ≠ 1 := by
  intro h
  refine hnb (Or.inr (Or.inr ⟨commit C v, ?_, h⟩))
  rcases hv with hv | hv
  · exact Or.inl ⟨v, hv, rfl⟩
  · exact Or.inr ⟨v, hv, rfl⟩

omit hnb in
theorem childHash_vec (mm : KV) (q : Path) :
    ∃ v, Vectors C mm v ∧ childHash C mm q = C.h (commit C v) ∧
      ((Many mm q ∧ v = branchVec C mm q) ∨ (¬ Many mm q ∧ ∃ s, Under mm q s ∧ v = stemVec C mm s) ∨
        ((∀ s, ¬ Under mm q s) ∧ v = fun _ => 0)) := by
  by_cases hm : Many mm q
  · have := hm.length_lt
    exact ⟨_, .branch q (Or.inr hm), by rw [childHash_many hm, branchComm_eq_commit _ _ _ (by omega)], Or.inl ⟨hm, rfl⟩⟩
  by_cases hs : ∃ s, Under mm q s
  · obtain ⟨s, hs⟩ := hs
    exact ⟨_, .stem s hs.1, by rw [childHash_single hm hs, stemComm_eq_commit], Or.inr (Or.inl ⟨hm, s, hs, rfl⟩)⟩
  · refine ⟨_, .empty, ?_, Or.inr (Or.inr ⟨fun s h => hs ⟨s, h⟩, rfl⟩)⟩
    rw [childHash_none (fun s h => hs ⟨s, h⟩), commit_zero, C.h_zero]

theorem childHash_ne_one (q : Path) : childHash C m q ≠ 1 ∧ childHash C m' q ≠ 1 := by
  obtain ⟨v, hv, he, _⟩ := childHash_vec (C := C) m q
  obtain ⟨w, hw, he', _⟩ := childHash_vec (C := C) m' q
  rw [he, he']
  exact ⟨hash_ne_one hnb (Or.inl hv), hash_ne_one hnb (Or.inr hw)⟩

/-- `m` and `m'` agree on every key whose stem starts with `q`. -/
def AgreeUnder (m m' : KV) (q : Path) : Prop := ∀ (s : Stem) (b : Byte), q <+: s.1 → m (mkKey s b) = m' (mkKey s b)

omit hnb in
theorem agree_of_none {q : Path} (h1 : ∀ s, ¬ Under m q s) (h2 : ∀ s, ¬ Under m' q s) : AgreeUnder m m' q := by
  intro s b hq
  have e1 : m (mkKey s b) = none := by
    by_contra h; exact h1 s ⟨⟨b, h⟩, hq⟩
  have e2 : m' (mkKey s b) = none := by
    by_contra h; exact h2 s ⟨⟨b, h⟩, hq⟩
  rw [e1, e2]

include hF

theorem stem_agree {s t : Stem} (hs : HasStem m s) (ht : HasStem m' t) (h : stemVec C m s = stemVec C m' t) :
    s = t ∧ ∀ b, m (mkKey s b) = m' (mkKey s b) := by
  have h1 := congrFun h 1
  have h2 := congrFun h 2
  have h3 := congrFun h 3
  have v1 : (1 : Byte).val = 1 := rfl
  have v2 : (2 : Byte).val = 2 := rfl
  have v3 : (3 : Byte).val = 3 := rfl
  simp only [stemVec, v1, v2, v3] at h1 h2 h3
  norm_num at h1 h2 h3
  have hst := stem_enc_inj hF h1
  subst hst
  refine ⟨rfl, fun b => ?_⟩
  rw [suffixComm_eq_commit, suffixComm_eq_commit] at h2 h3
  have g2 := vec_eq_of_hash hnb (.suffix s hs 0 (Or.inl rfl)) (.suffix s ht 0 (Or.inl rfl)) h2
  have g3 := vec_eq_of_hash hnb (.suffix s hs 128 (Or.inr rfl)) (.suffix s ht 128 (Or.inr rfl)) h3
  have hb := b.2
  by_cases hlt : b.val < 128
  · have := suffixVec_inj hF g2 b.val hlt
    rwa [Nat.zero_add, show Fin.ofNat 256 b.val = b from Fin.ext (Nat.mod_eq_of_lt hb)] at this
  · have := suffixVec_inj hF g3 (b.val - 128) (by omega)
    rwa [show 128 + (b.val - 128) = b.val by omega,
      show Fin.ofNat 256 b.val = b from Fin.ext (Nat.mod_eq_of_lt hb)] at this

/-- Equal child hashes give equal contents. -/
theorem agree_of_childHash : ∀ (n : ℕ) (q : Path), 31 ≤ q.length + n → childHash C m q = childHash C m' q →
    AgreeUnder m m' q
  | n, q, hn, h => by
    -- one step of recursion, for branches
    have step : ∀ (hlen : q.length < 31), branchVec C m q = branchVec C m' q → AgreeUnder m m' q := by
      intro hlen hv s b hqs
      have hl : q.length < s.1.length := by rw [s.2]; exact hlen
      have hqi : q ++ [s.1[q.length]] <+: s.1 := by
        have h1 := List.take_append_getElem hl
        rw [← prefix_iff_take.1 hqs] at h1
        rw [h1]
        exact List.take_prefix _ _
      have hc := congrFun hv s.1[q.length]
      cases n with
      | zero => omega
      | succ n => exact agree_of_childHash n (q ++ [s.1[q.length]]) (by simp; omega) hc s b hqi
    obtain ⟨v, hv, he, hcase⟩ := childHash_vec (C := C) m q
    obtain ⟨w, hw, he', hcase'⟩ := childHash_vec (C := C) m' q
    rw [he, he'] at h
    have hvw := vec_eq_of_hash hnb hv hw h
    -- entry 0
    have v0 : (0 : Byte).val = 0 := rfl
    have s0 : ∀ (mm : KV) (s : Stem), stemVec C mm s 0 = 1 := by intro mm s; simp [stemVec]
    have b0 : branchVec C m q 0 ≠ 1 ∧ branchVec C m' q 0 ≠ 1 := childHash_ne_one hnb (q ++ [0])
    have noneZero : ∀ mm : KV, (∀ s, ¬ Under mm q s) → branchVec C mm q = fun _ => 0 := by
      intro mm hno
      funext i
      exact childHash_none (fun s hs => hno s (hs.mono (List.prefix_append _ _)))
    rcases hcase with ⟨hm, rfl⟩ | ⟨_, s, hs, rfl⟩ | ⟨hno, rfl⟩ <;>
      rcases hcase' with ⟨hm', rfl⟩ | ⟨_, t, ht, rfl⟩ | ⟨hno', rfl⟩
    · exact step hm.length_lt hvw
    · exact absurd ((congrFun hvw 0).trans (s0 m' t)) b0.1
    · exact step hm.length_lt (by rw [hvw, noneZero m' hno'])
    · exact absurd ((congrFun hvw 0).symm.trans (s0 m s)) b0.2
    · obtain ⟨rfl, hag⟩ := stem_agree hF hnb hs.1 ht.1 hvw
      intro u b hqu
      by_cases hus : u = s
      · subst hus; exact hag b
      · rename_i h1 h2
        have e1 : m (mkKey u b) = none := by
          by_contra hne; exact h1 ⟨u, s, hus, ⟨⟨b, hne⟩, hqu⟩, hs⟩
        have e2 : m' (mkKey u b) = none := by
          by_contra hne; exact h2 ⟨u, s, hus, ⟨⟨b, hne⟩, hqu⟩, ht⟩
        rw [e1, e2]
    · have := (s0 m s).symm.trans (congrFun hvw 0)
      exact absurd this one_ne_zero
    · exact step hm'.length_lt (by rw [← hvw, noneZero m hno])
    · have := (s0 m' t).symm.trans (congrFun hvw 0).symm
      exact absurd this one_ne_zero
    · exact agree_of_none hno hno'

/-- Equal root commitments give equal maps. -/
theorem eq_of_root (h : branchComm C m [] = branchComm C m' []) : m = m' := by
  rw [branchComm_eq_commit _ _ _ (by simp), branchComm_eq_commit _ _ _ (by simp)] at h
  have hv := vec_eq hnb (.branch [] (Or.inl rfl)) (.branch [] (Or.inl rfl)) h
  funext k
  have hk := mkKey_stem_suffix k
  have hl : 0 < k.stem.1.length := by rw [k.stem.2]; omega
  have := agree_of_childHash hF hnb 31 ([] ++ [k.stem.1[0]]) (by simp) (congrFun hv k.stem.1[0])
    k.stem k.suffix (by
      have e : [k.stem.1[0]] = k.stem.1.take 1 := by
        rw [show (1 : ℕ) = 0 + 1 from rfl, ← List.take_append_getElem hl]; simp
      rw [List.nil_append, e]
      exact List.take_prefix _ _)
  rwa [hk] at this

/-- Equal root hashes give equal maps. -/
theorem eq_of_rootHash (h : C.h (branchComm C m []) = C.h (branchComm C m' [])) : m = m' := by
  apply eq_of_root hF hnb
  by_contra hne
  have e := fun mm => branchComm_eq_commit C mm [] (by simp)
  exact hnb (Or.inr (Or.inl ⟨_, _, ⟨_, .branch [] (Or.inl rfl), e m⟩, ⟨_, .branch [] (Or.inl rfl), e m'⟩, hne, h⟩))

end

end Verif.Spec
