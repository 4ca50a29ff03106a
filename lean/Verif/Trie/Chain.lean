import Verif.Trie.Refine
import Mathlib.Data.List.GetD

/-!
# Refinement of `ChainInsert`, and of a whole insert
-/

set_option autoImplicit false

namespace Verif.Trie
open Verif.Spec
open scoped BigOperators Classical

variable {F G : Type} [Field F] [AddCommGroup G] [Module F G]

theorem pathDifference_self (a : List Byte) : pathDifference a a = (a, none, none) := by
  induction a with
  | nil => rfl
  | cons x xs ih => simp [pathDifference, ih]

theorem pathDifference_ne : ∀ {a b : List Byte}, a.length = b.length → a ≠ b →
    ∃ (L : ℕ) (h1 : L < a.length) (h2 : L < b.length),
      pathDifference a b = (a.take L, some a[L], some b[L]) ∧ a.take L = b.take L ∧ a[L] ≠ b[L]
  | [], [], _, h => absurd rfl h
  | [], _ :: _, h, _ => by simp at h
  | _ :: _, [], h, _ => by simp at h
  | x :: xs, y :: ys, hl, hne => by
    by_cases hxy : x = y
    · subst hxy
      have hne' : xs ≠ ys := fun h => hne (by rw [h])
      obtain ⟨L, h1, h2, e, et, en⟩ := pathDifference_ne (by simpa using hl) hne'
      refine ⟨L + 1, by simpa using h1, by simpa using h2, ?_, ?_, ?_⟩
      · simp [pathDifference, e]
      · simp [et]
      · simpa using en
    · exact ⟨0, by simp, by simp, by simp [pathDifference, hxy], by simp, by simpa using hxy⟩

section step
variable (C : Crypto F G) (m : KV) (k : Key) (v : Value)

local notation "m'" => Function.update m k (some v)
local notation "s" => k.stem

/-- Nodes visited by the chain loop, bottom up: depth `d + n` down to `d + 1`. -/
def chainPairs (d n : ℕ) : List (Byte × Path) :=
  (List.range n).map fun j => ((s).1.getD (d + n - j) 0, (s).1.take (d + n - j))

theorem chainPairs_succ (d n : ℕ) :
    chainPairs k d (n + 1) = ((s).1.getD (d + n + 1) 0, (s).1.take (d + n + 1)) :: chainPairs k d n := by
  simp only [chainPairs, List.range_succ_eq_map, List.map_cons, List.map_map]
  refine congrArg₂ _ (by simp [Nat.add_assoc]) ?_
  apply List.map_congr_left
  intro j _
  have : d + (n + 1) - (j + 1) = d + n - j := by omega
  simp [Function.comp, this]

theorem expandPath_reverse {d L : ℕ} (hdL : d < L) (hL : L < 31) :
    (expandPath ((s).1.take d) (((s).1.take L).drop d)).reverse
      = (s).1.take L :: (chainPairs k d (L - d - 1)).map Prod.snd := by
  have hlen : (((s).1.take L).drop d).length = L - d := by simp [(s).2]; omega
  apply List.ext_getElem
  · simp [expandPath, chainPairs, (s).2]; omega
  · intro i h1 h2
    have hi : i < L - d := by simpa [expandPath, hlen] using h1
    have key : ∀ j, j < L - d → (s).1.take d ++ ((((s).1.take L).drop d).take (j + 1)) = (s).1.take (d + j + 1) := by
      intro j hj
      have e : (s).1.take d = ((s).1.take L).take d := by rw [List.take_take]; congr 1; omega
      rw [e, ← List.take_add, List.take_take]
      congr 1; omega
    rw [List.getElem_reverse]
    simp only [expandPath, List.getElem_map, List.getElem_range, List.length_map, List.length_range, hlen]
    rw [key _ (by omega)]
    cases i with
    | zero => simp; congr 1; omega
    | succ i =>
      simp only [List.getElem_cons_succ, List.getElem_map, chainPairs, List.getElem_range]
      congr 1; omega

theorem chain_zip {d L : ℕ} (hdL : d < L) (hL : L < 31) :
    (((s).1.take L).drop d).reverse.zip ((chainPairs k d (L - d - 1)).map Prod.snd) = chainPairs k d (L - d - 1) := by
  have hlen : (((s).1.take L).drop d).length = L - d := by simp [(s).2]; omega
  apply List.ext_getElem
  · simp [chainPairs, (s).2]; omega
  · intro i h1 h2
    have hi : i < L - d - 1 := by simpa [chainPairs] using h2
    rw [List.getElem_zip, List.getElem_reverse]
    simp only [hlen, List.getElem_drop, List.getElem_take, List.getElem_map, chainPairs, List.getElem_range]
    refine Prod.ext ?_ rfl
    have hb : d + (L - d - 1) - i < (s).1.length := by rw [(s).2]; omega
    simp only
    rw [List.getD_eq_getElem _ _ hb]
    congr 1; omega

/-- A branch all of whose stems are below one child. -/
theorem branchComm_only {mm : KV} {p : Path} {i : Byte} (hp : p.length < 32)
    (h : ∀ j, j ≠ i → ∀ u, ¬ Under mm (p ++ [j]) u) :
    branchComm C mm p = childHash C mm (p ++ [i]) • C.g i.val := by
  rw [branchComm_eq _ _ _ hp, Finset.sum_eq_single i]
  · intro j _ hj
    rw [childHash_none (h j hj), zero_smul]
  · intro h; exact absurd (Finset.mem_univ _) h

/-- The situation in which `ChainInsert` is issued: below branch `s.take d` the only stem on the key's path is `t ≠ s`,
and `s`, `t` agree exactly up to length `L`. -/
structure ChainSit (m : KV) (k : Key) (t : Stem) (d L : ℕ) : Prop where
  hb : IsBranch m (k.stem.1.take d)
  ht : Under m (k.stem.1.take (d + 1)) t
  honly : ∀ u, Under m (k.stem.1.take (d + 1)) u → u = t
  hdL : d < L
  hL : L < 31
  hpre : k.stem.1.take L = t.1.take L
  hdiff : k.stem.1.getD L 0 ≠ t.1.getD L 0

namespace ChainSit
variable {m k v} {t : Stem} {d L : ℕ} (S : ChainSit m k t d L)
include S

theorem take_len {e : ℕ} (he : e ≤ 31) : ((s).1.take e).length = e := by
  simp [(s).2]; omega

theorem pre_le {e : ℕ} (he : e ≤ L) : (s).1.take e = t.1.take e := by
  have := congrArg (List.take e) S.hpre
  rw [List.take_take, List.take_take, min_eq_left he] at this
  exact this

theorem pre_s : (s).1.take L ++ [(s).1.getD L 0] = (s).1.take (L + 1) := by
  have hL := S.hL
  have hb : L < (s).1.length := by rw [(s).2]; exact hL
  rw [List.getD_eq_getElem _ _ hb, List.take_append_getElem]

theorem pre_t : (s).1.take L ++ [t.1.getD L 0] = t.1.take (L + 1) := by
  have hL := S.hL
  have hb : L < t.1.length := by rw [t.2]; exact hL
  rw [S.hpre, List.getD_eq_getElem _ _ hb, List.take_append_getElem]

theorem not_pre : ¬ (s).1.take (L + 1) <+: t.1 := by
  intro h
  have h1 := prefix_iff_take.1 h
  have hL := S.hL
  rw [S.take_len (by omega), ← S.pre_s, ← S.pre_t] at h1
  simp at h1
  exact S.hdiff (by simpa [List.getD] using h1)

theorem ne : t ≠ s := by
  intro h
  apply S.not_pre
  rw [h]; exact List.take_prefix _ _

theorem not_has : ¬ HasStem m s := fun h => S.ne (S.honly s ⟨h, List.take_prefix _ _⟩).symm

theorem leaf_none : m k = none := by
  by_contra h
  exact S.not_has ⟨k.suffix, by simpa using h⟩

theorem not_many : ¬ Many m ((s).1.take (d + 1)) :=
  fun ⟨a, b, hab, ha, hb⟩ => hab ((S.honly a ha).trans (S.honly b hb).symm)

theorem under_t {e : ℕ} (he : e ≤ L) : Under m ((s).1.take e) t :=
  ⟨S.ht.1, by rw [S.pre_le he]; exact List.take_prefix _ _⟩

theorem under_s (e : ℕ) : Under m' ((s).1.take e) s :=
  under_update.2 (Or.inr ⟨rfl, List.take_prefix _ _⟩)

theorem many_new {e : ℕ} (he : e ≤ L) : Many m' ((s).1.take e) :=
  ⟨t, s, S.ne, (S.under_t he).update, S.under_s e⟩

/-- Stems of the new map below the chain. -/
theorem only_new {e : ℕ} (he : d + 1 ≤ e) {u : Stem} (hu : Under m' ((s).1.take e) u) : u = t ∨ u = s := by
  rcases under_update.1 hu with h | h
  · left
    exact S.honly u (h.mono (List.take_prefix_take_left he))
  · exact Or.inr h.1

/-- Off-path nodes between the parent and the bottom are unchanged. -/
theorem off_same {r : Path} (hr : r.length ≤ L) (hnp : ¬ r <+: (s).1) :
    node C m' r = node C m r := by
  apply node_same C m k v hnp
  intro hdl
  have hde := dropLast_eq_take k rfl hdl
  by_cases hle : r.length ≤ d + 1
  · left
    rw [hde]
    exact isBranch_take_mono m k (by omega) S.hb
  · right
    intro u hu
    have h1 : u = t := S.honly u (hu.mono (by
      refine List.IsPrefix.trans ?_ (List.dropLast_prefix r)
      rw [hde]; exact List.take_prefix_take_left (by omega)))
    subst h1
    apply hnp
    rw [prefix_iff_take.1 hu.2, ← S.pre_le hr]
    exact List.take_prefix _ _

/-- The chain loop. -/
theorem chainLoop_spec : ∀ n, d + n + 1 ≤ L →
    chainLoop C (mix C m m' (d + n + 1)) (chainPairs k d n) (C.h (branchComm C m' ((s).1.take (d + n + 1))))
      = (mix C m m' (d + 1), C.h (branchComm C m' ((s).1.take (d + 1))))
  | 0, _ => by simp [chainPairs, chainLoop]
  | n + 1, hn => by
    have hL := S.hL
    rw [chainPairs_succ]
    simp only [chainLoop]
    have hlt : d + n + 1 < 31 := by omega
    have hlen := S.take_len (e := d + n + 1) (by omega)
    have hb : d + n + 1 < (s).1.length := by rw [(s).2]; exact hlt
    have hsn : (s).1.take (d + n + 1) ++ [(s).1.getD (d + n + 1) 0] = (s).1.take (d + (n + 1) + 1) := by
      rw [List.getD_eq_getElem _ _ hb, List.take_append_getElem]; congr 1
    have hcomm : C.scalarMul (C.h (branchComm C m' ((s).1.take (d + (n + 1) + 1)))) ((s).1.getD (d + n + 1) 0).val
        = branchComm C m' ((s).1.take (d + n + 1)) := by
      rw [branchComm_only (p := (s).1.take (d + n + 1)) (i := (s).1.getD (d + n + 1) 0) C (by omega) ?_, hsn, childHash_many (S.many_new hn)]
      · rfl
      · intro j hj u hu
        have : (s).1.take (d + (n + 1) + 1) <+: u.1 := by
          rcases S.only_new (e := d + n + 1) (by omega) (hu.mono (List.prefix_append _ _)) with h | h
          · subst h; rw [S.pre_le hn]; exact List.take_prefix _ _
          · subst h; exact List.take_prefix _ _
        rw [← hsn] at this
        exact hj (prefix_snoc_inj hu.2 this)
    rw [hcomm]
    have hmi := mix_insert C m k v (d := d + n + 1) (by omega) (Or.inr (S.many_new (by omega)))
      (fun r hr hnp => S.off_same C (by omega) hnp) ((s).1.take (d + n + 1)).length
    have : (HigherDb.insertBranch (mix C m m' (d + (n + 1) + 1)) ((s).1.take (d + n + 1))
        { comm := branchComm C m' ((s).1.take (d + n + 1)), hash := C.h (branchComm C m' ((s).1.take (d + n + 1))) }
        ((s).1.take (d + n + 1)).length).1 = mix C m m' (d + n + 1) := hmi
    rw [this]
    exact chainLoop_spec n (by omega)

/-- The bottom inner node with its two stems: everything from depth `L` on is new. -/
theorem bottom_spec (X : BranchMeta F G) :
    ({ leaf := m', stem := (specDb C m').stem,
       branch := Function.update (Function.update (Function.update (Function.update (Function.update (node C m)
          ((s).1.take L) (some (.branch (BranchMeta.zero F G))))
          ((s).1.take L) (some (.branch X)))
          ((s).1.take L ++ [(s).1.getD L 0]) (some (.stem s)))
          ((s).1.take L) (some (.branch (branchMeta C m' ((s).1.take L)))))
          ((s).1.take L ++ [t.1.getD L 0]) (some (.stem t)) } : MemoryDb F G) = mix C m m' L := by
  have hL := S.hL
  have hdL := S.hdL
  simp only [mix, MemoryDb.mk.injEq, true_and]
  have hlenL := S.take_len (e := L) (by omega)
  have hlenL1 := S.take_len (e := L + 1) (by omega)
  have hcs : ∀ b : Byte, ((s).1.take L ++ [b]) ≠ (s).1.take L := by
    intro b h
    have := congrArg List.length h
    simp at this
  have hst : (s).1.take L ++ [t.1.getD L 0] ≠ (s).1.take L ++ [(s).1.getD L 0] := by
    intro h
    simp at h
    exact S.hdiff (by simpa [List.getD] using h.symm)
  have hnms : ¬ Many m' ((s).1.take (L + 1)) := by
    rintro ⟨a, b, hab, ha, hb⟩
    have aux : ∀ u, Under m' ((s).1.take (L + 1)) u → u = s := by
      intro u hu
      rcases S.only_new (e := L + 1) (by omega) hu with h | h
      · subst h; exact absurd hu.2 S.not_pre
      · exact h
    exact hab ((aux a ha).trans (aux b hb).symm)
  funext r
  by_cases h1 : r = (s).1.take L ++ [t.1.getD L 0]
  · subst h1
    rw [Function.update_self, if_neg (by simp [hlenL]), node_stem]
    · apply not_isBranch_append
      rintro ⟨a, b, hab, ha, hb⟩
      have aux : ∀ u, Under m' ((s).1.take L ++ [t.1.getD L 0]) u → u = t := by
        intro u hu
        rcases S.only_new (e := L) (by omega) (hu.mono (List.prefix_append _ _)) with h | h
        · exact h
        · subst h
          have := prefix_snoc_inj hu.2 (j := (s).1.getD L 0) (by rw [S.pre_s]; exact List.take_prefix _ _)
          exact absurd this.symm S.hdiff
      exact hab ((aux a ha).trans (aux b hb).symm)
    · rw [S.pre_t]
      exact Under.update ⟨S.ht.1, List.take_prefix _ _⟩
    · rw [List.dropLast_concat]
      exact Or.inr (S.many_new le_rfl)
  rw [Function.update_of_ne h1]
  by_cases h2 : r = (s).1.take L
  · subst h2
    rw [Function.update_self, if_neg (by omega), node_branch (Or.inr (S.many_new le_rfl))]
  rw [Function.update_of_ne h2]
  by_cases h3 : r = (s).1.take L ++ [(s).1.getD L 0]
  · subst h3
    rw [Function.update_self, if_neg (by simp [hlenL]), node_stem]
    · rw [S.pre_s]
      rintro (h | h)
      · rw [h] at hlenL1; simp at hlenL1
      · exact hnms h
    · rw [S.pre_s]; exact S.under_s _
    · rw [List.dropLast_concat]
      exact Or.inr (S.many_new le_rfl)
  rw [Function.update_of_ne h3, Function.update_of_ne h2, Function.update_of_ne h2]
  by_cases hlt : r.length < L
  · rw [if_pos hlt]
  rw [if_neg hlt]
  symm
  by_cases hon : r <+: (s).1
  · have hre := prefix_iff_take.1 hon
    have hlen : L + 2 ≤ r.length := by
      by_contra hcon
      have : r.length = L ∨ r.length = L + 1 := by omega
      rcases this with h | h
      · exact h2 (by rw [hre, h])
      · exact h3 (by rw [hre, h, S.pre_s])
    have hpre : (s).1.take (L + 1) <+: r.dropLast := by
      rw [dropLast_eq_take k rfl ((List.dropLast_prefix _).trans hon)]
      exact List.take_prefix_take_left (by omega)
    have aux : ∀ mm : KV, ¬ Many mm ((s).1.take (L + 1)) → node C mm r = none := by
      intro mm hmm
      apply node_none
      · rintro (h | h)
        · rw [h] at hlen; simp at hlen
        · exact hmm (h.mono (hpre.trans (List.dropLast_prefix _)))
      · right
        rintro (h | h)
        · rw [h] at hpre
          have := hpre.length_le
          rw [hlenL1] at this; simp at this
        · exact hmm (h.mono hpre)
    rw [aux _ hnms, aux m]
    intro h
    exact S.not_many (h.mono (List.take_prefix_take_left (by omega)))
  · by_cases hle : r.length ≤ L
    · exact S.off_same C hle hon
    · apply node_same C m k v hon
      intro hdl
      right
      have hde := dropLast_eq_take k rfl hdl
      intro u hu
      have h4 : u = t := S.honly u (hu.mono (by
        refine List.IsPrefix.trans ?_ (List.dropLast_prefix r)
        rw [hde]; exact List.take_prefix_take_left (by omega)))
      subst h4
      by_cases h5 : r.length = L + 1
      · apply h1
        rw [S.pre_t, ← h5]
        exact prefix_iff_take.1 hu.2
      · apply S.not_pre
        refine List.IsPrefix.trans ?_ hu.2
        refine List.IsPrefix.trans ?_ (List.dropLast_prefix r)
        rw [hde]; exact List.take_prefix_take_left (by omega)

/-- `ChainInsert`. -/
theorem chain_step (dep : ℕ) (i : Byte) (hi : i = (s).1.getD d 0) :
    processIns C (specDb C m)
      (.chainInsert dep (((s).1.take L).drop d) ((s).1.take d) i (t.1.getD L 0) k v ((s).1.getD L 0))
      = .ok (mix C m m' d, false) := by
  have hL := S.hL
  have hdL := S.hdL
  have hb31 : d < (s).1.length := by rw [(s).2]; omega
  have hsd : (s).1.take d ++ [i] = (s).1.take (d + 1) := by
    rw [hi, List.getD_eq_getElem _ _ hb31, List.take_append_getElem]
  have hlend := S.take_len (e := d) (by omega)
  have hlend1 := S.take_len (e := d + 1) (by omega)
  have hlenL := S.take_len (e := L) (by omega)
  have hne : m k ≠ some v := by rw [S.leaf_none]; simp
  have hchain : ((s).1.take L).drop d ≠ [] := by
    intro h
    have := congrArg List.length h
    simp [(s).2] at this
    omega
  have hnb : ¬ IsBranch m ((s).1.take (d + 1)) := by
    rw [← hsd]; apply not_isBranch_append; rw [hsd]; exact S.not_many
  have hchild : HigherDb.getBranchChild (specDb C m) ((s).1.take d) i = some (.stem t) := by
    show node C m ((s).1.take d ++ [i]) = _
    rw [hsd]
    exact node_stem hnb S.ht (by
      rw [dropLast_eq_take k hlend1 ((List.dropLast_prefix _).trans (List.take_prefix _ _))]; exact S.hb)
  simp only [processIns, if_neg hchain]
  rw [expandPath_reverse k hdL hL, hchild]
  simp only [unwrap, List.head?_cons, List.tail_cons, bind, Except.bind]
  rw [chain_zip k hdL hL]
  -- the zero node, the leaf and the new stem
  have e1 : (HigherDb.insertBranch (specDb C m) ((s).1.take L) (BranchMeta.zero F G) ((s).1.take L).length).1
      = { specDb C m with branch := Function.update (node C m) ((s).1.take L) (some (.branch (BranchMeta.zero F G))) } := rfl
  rw [e1, updateLeafTable_spec m k v _ rfl hne]
  simp only
  rw [updateStemTable_spec C m k v { specDb C m with
    leaf := m', branch := Function.update (node C m) ((s).1.take L) (some (.branch (BranchMeta.zero F G))) } rfl]
  simp only
  rw [updateBranchTable_spec (p := (s).1.take L) C _ _ _ _ (bm := BranchMeta.zero F G) (by simp)]
  simp only [S.not_has, if_false, Option.getD_none, sub_zero]
  have e2 : ∀ br, HigherDb.getStemMeta ({ leaf := m', stem := (specDb C m').stem, branch := br } : MemoryDb F G) t
      = some (stemMeta C m t) := by
    intro br
    show (specDb C m').stem t = _
    have : HasStem m' t := hasStem_update.2 (Or.inl S.ht.1)
    simp only [specDb, this, if_true, stemMeta_update_ne C S.ne]
  rw [e2]
  simp only
  have hcs : ∀ b : Byte, (s).1.take L ≠ ((s).1.take L ++ [b]) := by
    intro b h
    have := congrArg List.length h
    simp at this
  rw [updateBranchTable_spec (p := (s).1.take L) C _ _ _ _
    (bm := ⟨(BranchMeta.zero F G).comm + C.h (stemComm C m' s) • C.g ((s).1.getD L 0).val,
      C.h ((BranchMeta.zero F G).comm + C.h (stemComm C m' s) • C.g ((s).1.getD L 0).val)⟩)
    (by simp only; rw [Function.update_of_ne (hcs _), Function.update_self])]
  simp only [Option.getD_none, sub_zero]
  have hbot : (BranchMeta.zero F G).comm + C.h (stemComm C m' s) • C.g ((s).1.getD L 0).val
      + (stemMeta C m t).hashStem • C.g (t.1.getD L 0).val = branchComm C m' ((s).1.take L) := by
    have hp : (s).1.take L ++ [(s).1.getD L 0] <+: (s).1 := by rw [S.pre_s]; exact List.take_prefix _ _
    have hnu : ∀ u, ¬ Under m ((s).1.take (L + 1)) u := by
      intro u hu
      have := S.honly u (hu.mono (List.take_prefix_take_left (by omega)))
      subst this
      exact S.not_pre hu.2
    rw [branchComm_update_on C hp, S.pre_s, childHash_none hnu, sub_zero,
      childHash_single ?_ (S.under_s _)]
    · rw [branchComm_only (p := (s).1.take L) (i := t.1.getD L 0) C (by omega) ?_, S.pre_t, childHash_single ?_ (show Under m (t.1.take (L + 1)) t from ⟨S.ht.1, List.take_prefix _ _⟩)]
      · simp only [BranchMeta.zero, zero_add, stemMeta]
        abel
      · intro h
        have := h.mono (p := (s).1.take (d + 1)) (by
          rw [S.pre_le (by omega)]; exact List.take_prefix_take_left (by omega))
        exact S.not_many this
      · intro j hj u hu
        have := S.honly u (hu.mono ((List.take_prefix_take_left (by omega)).trans (List.prefix_append _ _)))
        subst this
        exact hj (prefix_snoc_inj hu.2 (by rw [S.pre_t]; exact List.take_prefix _ _))
    · rintro ⟨a, b, hab, ha, hb⟩
      have aux : ∀ u, Under m' ((s).1.take (L + 1)) u → u = s := by
        intro u hu
        rcases under_update.1 hu with h | h
        · exact absurd h (hnu u)
        · exact h.1
      exact hab ((aux a ha).trans (aux b hb).symm)
  rw [hbot]
  have hbs := S.bottom_spec (v := v) C (X := ⟨(BranchMeta.zero F G).comm + C.h (stemComm C m' s) • C.g ((s).1.getD L 0).val,
      C.h ((BranchMeta.zero F G).comm + C.h (stemComm C m' s) • C.g ((s).1.getD L 0).val)⟩)
  simp only [branchMeta] at hbs
  rw [hbs]
  have hcl := S.chainLoop_spec (v := v) C (L - d - 1) (by omega)
  have hLe : d + (L - d - 1) + 1 = L := by omega
  rw [hLe] at hcl
  rw [hcl]
  simp only
  -- the parent
  have r2 : HigherDb.getBranchMeta (mix C m m' (d + 1)) ((s).1.take d)
      = .ok (some (branchMeta C m ((s).1.take d))) := by
    show MemoryDb.getBranchMeta _ _ = _
    have : d < d + 1 := by omega
    simp only [MemoryDb.getBranchMeta, mix, hlend, if_pos this, node_branch S.hb]
  rw [r2]
  simp only
  have hcomm : (branchMeta C m ((s).1.take d)).comm
      + C.scalarMul (C.h (branchComm C m' ((s).1.take (d + 1))) - (stemMeta C m t).hashStem) i.val
      = branchComm C m' ((s).1.take d) := by
    have hp : (s).1.take d ++ [i] <+: (s).1 := by
      rw [hsd]; exact List.take_prefix _ _
    rw [branchComm_update_on C hp, hsd, childHash_many (S.many_new (by omega)), childHash_single S.not_many S.ht]
    rfl
  rw [hcomm]
  have := mix_insert C m k v (d := d) (by omega) S.hb.update
    (fun r hr hnp => S.off_same C (by omega) hnp) dep
  rw [← this]; rfl

end ChainSit

/-! ### A whole insert -/

/-- Running the instruction generator from the on-path branch at depth `d`. -/
theorem createGo_spec : ∀ (n d : ℕ), d + n = 31 → IsBranch m ((s).1.take d) → ∀ acc : List (Ins F G),
    (createGo (specDb C m) k v (d + 1) ((s).1.take d) (k.1.drop d) acc = .ok [] ∧ m k = some v) ∨
    ∃ tail, createGo (specDb C m) k v (d + 1) ((s).1.take d) (k.1.drop d) acc = .ok (acc ++ tail) ∧
      Runs C (specDb C m) tail.reverse (mix C m m' d) ∧ m k ≠ some v
  | 0, d, hd, hb, acc => by
    exfalso
    have hd : d = 31 := by omega
    subst hd
    rcases hb with h | h
    · have := congrArg List.length h
      simp [(s).2] at this
    · have := h.length_lt
      simp [(s).2] at this
  | n + 1, d, hd, hb, acc => by
    have hdlt : d < 31 := by omega
    have hlen1 : ((s).1.take (d + 1)).length = d + 1 := by simp [(s).2]; omega
    have hks : k.1[d]'(by rw [k.2]; omega) = (s).1[d]'(by rw [(s).2]; omega) := by
      simp [Key.stem]
    have hdrop : k.1.drop d = (s).1[d]'(by rw [(s).2]; omega) :: k.1.drop (d + 1) := by
      rw [← hks, List.drop_eq_getElem_cons]
    have hsd := stem_take_succ k hdlt
    have hdl : ((s).1.take (d + 1)).dropLast = (s).1.take d :=
      dropLast_eq_take k hlen1 ((List.dropLast_prefix _).trans (List.take_prefix _ _))
    rw [hdrop]
    simp only [createGo]
    have hchild : HigherDb.getBranchChild (specDb C m) ((s).1.take d) ((s).1[d]'(by rw [(s).2]; omega))
        = node C m ((s).1.take (d + 1)) := by
      show node C m ((s).1.take d ++ [_]) = _
      rw [hsd]
    rw [hchild]
    cases hnode : node C m ((s).1.take (d + 1)) with
    | none =>
      right
      obtain ⟨_, hno⟩ := node_eq_none hnode (by rw [hdl]; exact hb)
      have hkn : m k = none := by
        by_contra h
        exact hno s ⟨⟨k.suffix, by simpa using h⟩, List.take_prefix _ _⟩
      refine ⟨_, rfl, ?_, by rw [hkn]; simp⟩
      exact .cons (updateLeaf_step C m k v hdlt hb (fun u hu => absurd hu (hno u)) (by rw [hkn]; simp) _) (.nil _)
    | some ch =>
      cases ch with
      | branch bm =>
        obtain ⟨hb1, rfl⟩ := node_eq_branch hnode
        simp only [hsd]
        rcases createGo_spec n (d + 1) (by omega) hb1
          (acc ++ [.fallThrough ((s).1.take d) ((s).1[d]'(by rw [(s).2]; omega)) ((s).1.take (d + 1))
            (some (branchMeta C m ((s).1.take (d + 1)))) (d + 1)]) with h | ⟨tail, h1, h2, h3⟩
        · exact Or.inl h
        · right
          refine ⟨.fallThrough ((s).1.take d) ((s).1[d]'(by rw [(s).2]; omega)) ((s).1.take (d + 1))
            (some (branchMeta C m ((s).1.take (d + 1)))) (d + 1) :: tail, ?_, ?_, h3⟩
          · rw [h1]; simp
          · rw [List.reverse_cons]
            exact h2.append (.cons (fallThrough_step C m k v hdlt hb hb1 _) (.nil _))
      | stem t =>
        obtain ⟨hnb, hut, _⟩ := node_eq_stem hnode
        have hnm : ¬ Many m ((s).1.take (d + 1)) := fun h => hnb (Or.inr h)
        have honly : ∀ u, Under m ((s).1.take (d + 1)) u → u = t := fun u hu => hut.unique hnm hu |>.symm
        by_cases hts : t = s
        · subst hts
          simp only [pathDifference_self, (k.stem).2, if_true]
          have hleaf : HigherDb.getLeaf (specDb C m) k = m k := rfl
          simp only [hleaf]
          simp only [not_true_eq_false, and_false, if_false, true_and]
          by_cases hv : m k = some v
          · left
            simp [hv]
          · right
            rw [if_neg]
            · exact ⟨_, rfl, .cons (updateLeaf_step C m k v hdlt hb honly hv _) (.nil _), hv⟩
            · rintro ⟨h1, h2⟩
              cases hmk : m k with
              | none => simp [hmk] at h2
              | some w =>
                rw [hmk] at h1 hv
                simp at h1
                exact hv (by rw [h1])
        · right
          have hne : t.1 ≠ (s).1 := fun h => hts (Subtype.ext h)
          obtain ⟨L, h1, h2, he, het, hen⟩ := pathDifference_ne (by rw [t.2, (s).2]) hne
          rw [t.2] at h1
          have hdL : d < L := by
            by_contra hcon
            have hpt := prefix_iff_take.1 hut.2
            rw [hlen1] at hpt
            apply hen
            have e1 : t.1[L] = (t.1.take (d + 1))[L]'(by simp [t.2]; omega) := by simp
            have e2 : (s).1[L] = ((s).1.take (d + 1))[L]'(by simp [(s).2]; omega) := by simp
            rw [e1, e2]
            congr 1
            exact hpt.symm
          have hl31 : (t.1.take L).length ≠ 31 := by simp [t.2]; omega
          have hnlt : ¬ (t.1.take L).length < d + 1 - 1 := by simp [t.2]; omega
          simp only [he, if_neg hl31, if_neg hnlt, unwrap, bind, Except.bind]
          have S : ChainSit m k t d L := by
            refine ⟨hb, hut, honly, hdL, h1, het.symm, ?_⟩
            rw [List.getD_eq_getElem _ _ h2, List.getD_eq_getElem _ _ (by rw [t.2]; exact h1)]
            exact fun h => hen h.symm
          refine ⟨_, rfl, .cons ?_ (.nil _), by rw [S.leaf_none]; simp⟩
          have := S.chain_step (v := v) C (d + 1) ((s).1[d]'(by rw [(s).2]; omega))
            (by rw [List.getD_eq_getElem])
          rw [List.getD_eq_getElem _ _ h2, List.getD_eq_getElem _ _ (by rw [t.2]; exact h1)] at this
          rw [het]
          exact this

/-- **Refinement, one insert.** -/
theorem insertSingle_spec : insertSingle C (specDb C m) (k, v) = .ok (specDb C m') := by
  unfold insertSingle createInsertInstructions
  have := createGo_spec C m k v 31 0 rfl (Or.inl rfl) []
  simp only [List.take_zero, List.drop_zero, Nat.zero_add] at this
  rcases this with ⟨h, hk⟩ | ⟨tail, h, hr, _⟩
  · simp only [h, bind, Except.bind, processInstructions, List.reverse_nil, processRev]
    have : m' = m := by rw [← hk]; exact Function.update_eq_self _ _
    rw [this]
  · simp only [h, bind, Except.bind, processInstructions, List.nil_append]
    rw [hr.processRev, mix_zero]

end step

/-- **Refinement, any list of inserts.** -/
theorem insert_spec (C : Crypto F G) (l : List (Key × Value)) : ∀ m : KV,
    insert C (specDb C m) l = .ok (specDb C (applyAll m l)) := by
  induction l with
  | nil => intro m; rfl
  | cons kv rest ih =>
    intro m
    obtain ⟨k, v⟩ := kv
    simp only [insert, insertSingle_spec, bind, Except.bind, applyAll]
    exact ih _

/-- The empty map. -/
def emptyKV : KV := fun _ => none

theorem not_under_empty (p : Path) (u : Stem) : ¬ Under emptyKV p u := by
  rintro ⟨⟨b, hb⟩, _⟩
  exact hb rfl

theorem new_spec (C : Crypto F G) : new (MemoryDb.new : MemoryDb F G) = .ok (specDb C emptyKV) := by
  have h1 : HigherDb.getBranchMeta (MemoryDb.new : MemoryDb F G) [] = .ok none := rfl
  unfold new
  simp only [h1, bind, Except.bind]
  show Except.ok (MemoryDb.insertBranch _ _ _ _).1 = _
  simp only [MemoryDb.insertBranch, MemoryDb.new, specDb, Except.ok.injEq, MemoryDb.mk.injEq]
  refine ⟨rfl, ?_, ?_⟩
  · funext t
    have : ¬ HasStem emptyKV t := by rintro ⟨b, hb⟩; exact hb rfl
    simp [this]
  · funext r
    by_cases hr : r = []
    · subst hr
      rw [Function.update_self, node_branch (Or.inl rfl)]
      have : branchComm C emptyKV [] = 0 := by
        rw [branchComm_eq _ _ _ (by simp)]
        apply Finset.sum_eq_zero
        intro i _
        rw [childHash_none (fun u => not_under_empty _ u), zero_smul]
      simp [branchMeta, this, C.h_zero, BranchMeta.zero]
    · rw [Function.update_of_ne hr, node_none]
      · rintro (h | ⟨a, _, _, ha, _⟩)
        · exact hr h
        · exact not_under_empty _ _ ha
      · left; exact fun u => not_under_empty _ u

end Verif.Trie
