import Verif.Trie.Update

/-!
# Refinement: one insert takes `specDb m` to `specDb (m[k ↦ v])`
-/

set_option autoImplicit false

namespace Verif.Trie
open Verif.Spec
open scoped BigOperators Classical

variable {F G : Type} [Field F] [AddCommGroup G] [Module F G]

/-- All listed instructions run without panic and without early return. -/
inductive Runs (C : Crypto F G) : MemoryDb F G → List (Ins F G) → MemoryDb F G → Prop
  | nil (db) : Runs C db [] db
  | cons {db db' db'' i is} : processIns C db i = .ok (db', false) → Runs C db' is db'' → Runs C db (i :: is) db''

theorem Runs.append {C : Crypto F G} {a b c : MemoryDb F G} {xs ys} (h1 : Runs C a xs b) (h2 : Runs C b ys c) :
    Runs C a (xs ++ ys) c := by
  induction h1 with
  | nil => exact h2
  | cons h _ ih => exact .cons h (ih h2)

theorem Runs.processRev {C : Crypto F G} {a b : MemoryDb F G} {xs} (h : Runs C a xs b) :
    Trie.processRev C a xs = .ok b := by
  induction h with
  | nil => rfl
  | cons h _ ih =>
    simp only [Trie.processRev, h]
    exact ih

/-- The database half way through an insert: leaf and stem tables are new, the branch table is new from depth `n` on. -/
noncomputable def mix (C : Crypto F G) (m m' : KV) (n : ℕ) : MemoryDb F G where
  leaf := m'
  stem := (specDb C m').stem
  branch r := if r.length < n then node C m r else node C m' r

theorem mix_zero (C : Crypto F G) (m m' : KV) : mix C m m' 0 = specDb C m' := by
  simp [mix, specDb]

section step
variable (C : Crypto F G) (m : KV) (k : Key) (v : Value)

local notation "m'" => Function.update m k (some v)
local notation "s" => k.stem

theorem key_eq : k.1 = (s).1 ++ [k.suffix] := by
  have := mkKey_stem_suffix k
  conv_lhs => rw [← this]
  rfl

theorem prefix_iff_take {r l : List Byte} : r <+: l ↔ r = l.take r.length := List.prefix_iff_eq_take

theorem stem_take_succ {d : ℕ} (hd : d < 31) :
    (s).1.take d ++ [(s).1[d]'(by rw [(s).2]; exact hd)] = (s).1.take (d + 1) := by
  rw [List.take_append_getElem]

/-- Off-path nodes are unchanged. -/
theorem node_same {r : Path} (hr : ¬ r <+: (s).1)
    (h : r.dropLast <+: (s).1 → IsBranch m r.dropLast ∨ ∀ u, ¬ Under m r u) :
    node C m' r = node C m r := by
  apply node_update_off C hr
  intro hb
  by_cases hp : r.dropLast <+: (s).1
  · exact h hp
  · left; rwa [isBranch_update_off hp] at hb

theorem dropLast_eq_take {r : Path} {d : ℕ} (hd : r.length = d) (h : r.dropLast <+: (s).1) :
    r.dropLast = (s).1.take (d - 1) := by
  have := prefix_iff_take.1 h
  rw [this]
  simp [hd]

theorem isBranch_take_mono {a b : ℕ} (hab : a ≤ b) (h : IsBranch m ((s).1.take b)) :
    IsBranch m ((s).1.take a) := by
  rcases h with h | h
  · left
    have h1 : (((s).1.take b)).length = 0 := by rw [h]; rfl
    rw [List.length_take, (s).2] at h1
    have : a = 0 := by omega
    simp [this]
  · right
    apply h.mono
    exact List.take_prefix_take_left hab

/-- Writing the new metadata of the on-path node at depth `d` moves the frontier from `d + 1` to `d`. -/
theorem mix_insert {d : ℕ} (hd : d ≤ 31) (hb : IsBranch m' ((s).1.take d))
    (hoff : ∀ r : Path, r.length = d → ¬ r <+: (s).1 → node C m' r = node C m r) (dep : ℕ) :
    (MemoryDb.insertBranch (mix C m m' (d + 1)) ((s).1.take d) (branchMeta C m' ((s).1.take d)) dep).1
      = mix C m m' d := by
  have hl : ((s).1.take d).length = d := by simp [(s).2]; omega
  simp only [MemoryDb.insertBranch, mix, MemoryDb.mk.injEq, true_and]
  funext r
  by_cases hr : r = (s).1.take d
  · subst hr
    rw [Function.update_self, if_neg (by rw [hl]; omega), node_branch hb]
  · rw [Function.update_of_ne hr]
    by_cases h1 : r.length < d
    · rw [if_pos h1, if_pos (by omega)]
    · rw [if_neg h1]
      by_cases h2 : r.length = d
      · rw [if_pos (by omega), hoff r h2]
        intro h
        apply hr
        rw [prefix_iff_take.1 h, h2]
      · rw [if_neg (by omega)]

/-- `InternalNodeFallThrough` moves the frontier up by one. -/
theorem fallThrough_step {d : ℕ} (hd : d < 31) (hb : IsBranch m ((s).1.take d))
    (hb1 : IsBranch m ((s).1.take (d + 1))) (dep : ℕ) :
    processIns C (mix C m m' (d + 1))
      (.fallThrough ((s).1.take d) ((s).1[d]'(by rw [(s).2]; exact hd)) ((s).1.take (d + 1))
        (some (branchMeta C m ((s).1.take (d + 1)))) dep) = .ok (mix C m m' d, false) := by
  have hl : ((s).1.take d).length = d := by simp [(s).2]; omega
  have hl1 : ((s).1.take (d + 1)).length = d + 1 := by simp [(s).2]; omega
  have hmany : Many m ((s).1.take (d + 1)) := by
    rcases hb1 with h | h
    · rw [h] at hl1; simp at hl1
    · exact h
  have r1 : HigherDb.getBranchMeta (mix C m m' (d + 1)) ((s).1.take (d + 1))
      = .ok (some (branchMeta C m' ((s).1.take (d + 1)))) := by
    show MemoryDb.getBranchMeta _ _ = _
    simp only [MemoryDb.getBranchMeta, mix, hl1, lt_irrefl, if_false, node_branch hb1.update]
  have r2 : HigherDb.getBranchMeta (mix C m m' (d + 1)) ((s).1.take d)
      = .ok (some (branchMeta C m ((s).1.take d))) := by
    show MemoryDb.getBranchMeta _ _ = _
    have : d < d + 1 := by omega
    simp only [MemoryDb.getBranchMeta, mix, hl, if_pos this, node_branch hb]
  simp only [processIns, r1, r2, unwrap, bind, Except.bind]
  have hcomm : (branchMeta C m ((s).1.take d)).comm
      + C.scalarMul ((branchMeta C m' ((s).1.take (d + 1))).hash - (branchMeta C m ((s).1.take (d + 1))).hash)
          ((s).1[d]'(by rw [(s).2]; exact hd)).val = branchComm C m' ((s).1.take d) := by
    have hp : (s).1.take d ++ [(s).1[d]'(by rw [(s).2]; exact hd)] <+: (s).1 := by
      rw [stem_take_succ k hd]; exact List.take_prefix _ _
    rw [branchComm_update_on C hp, stem_take_succ k hd, childHash_many hmany, childHash_many hmany.update]
    rfl
  rw [hcomm]
  have := mix_insert C m k v (by omega) hb.update (d := d) ?_ dep
  · rw [← this]; rfl
  · intro r hr hnp
    apply node_same C m k v hnp
    intro hdl
    left
    rw [dropLast_eq_take k hr hdl]
    exact isBranch_take_mono m k (by omega) hb

/-- Effect of the leaf table update. -/
theorem updateLeafTable_spec (db : MemoryDb F G) (hl : db.leaf = m) (hne : m k ≠ some v) (dep : ℕ) :
    updateLeafTable db k v dep = ({ db with leaf := m' }, some ⟨m k, v, k⟩) := by
  unfold updateLeafTable
  show (match (MemoryDb.insertLeaf db k v dep).2 with
    | some old => _
    | none => _) = _
  simp only [MemoryDb.insertLeaf, hl]
  cases h : m k with
  | none => simp [HigherDb.insertLeaf, MemoryDb.insertLeaf, hl]
  | some old =>
    have : old ≠ v := by rintro rfl; exact hne h
    simp [this, HigherDb.insertLeaf, MemoryDb.insertLeaf, hl]

/-- Effect of the stem table update. -/
theorem updateStemTable_spec (db : MemoryDb F G) (hst : db.stem = (specDb C m).stem) (dep : ℕ) :
    updateStemTable C db ⟨m k, v, k⟩ dep
      = ({ db with stem := (specDb C m').stem },
          ⟨if HasStem m s then some (C.h (stemComm C m s)) else none, C.h (stemComm C m' s), s⟩) := by
  have hhas : HasStem m' s := hasStem_update.2 (Or.inr rfl)
  -- the previous record, present or not, has the specified commitments
  have hprev : prevStem C db s
      = (suffixComm C m s 0, C.h (suffixComm C m s 0), suffixComm C m s 128, C.h (suffixComm C m s 128),
          stemComm C m s, if HasStem m s then some (C.h (stemComm C m s)) else none) := by
    have : HigherDb.getStemMeta db s = if HasStem m s then some (stemMeta C m s) else none := by
      show db.stem s = _
      rw [hst]; rfl
    unfold prevStem
    rw [this]
    by_cases h : HasStem m s
    · simp [h, stemMeta]
    · simp only [h, if_false]
      simp only [suffixComm_of_not_hasStem C h, stemComm, C.h_zero, zero_smul, add_zero, one_smul,
        Crypto.scalarMul, frLe]
  have hold : oldHalves F (m k) = slot F (m k) := by
    cases m k <;> rfl
  have hmeta : ∀ db' : MemoryDb F G, db'.stem = (specDb C m).stem →
      (HigherDb.insertStem db' s (stemMeta C m' s) dep).1 = { db' with stem := (specDb C m').stem } := by
    intro db' h'
    show (MemoryDb.insertStem db' s (stemMeta C m' s) dep).1 = _
    simp only [MemoryDb.insertStem, MemoryDb.mk.injEq, true_and, and_true]
    funext t
    by_cases ht : t = s
    · subst ht
      rw [Function.update_self]
      simp [specDb, hhas]
    · rw [Function.update_of_ne ht, h']
      simp only [specDb, hasStem_update, ht, or_false, stemMeta_update_ne C ht]
  unfold updateStemTable
  simp only [hprev, hold]
  have e1 : frLe F (v.1.take 16) + twoPow128 F = lowHalf F v := rfl
  have e2 : frLe F (v.1.drop 16) = highHalf F v := rfl
  by_cases hpos : k.suffix.val < 128
  · simp only [hpos, if_true]
    have h1 : suffixComm C m s 0 + C.scalarMul (frLe F (v.1.take 16) + twoPow128 F - (slot F (m k)).1)
          (2 * (k.suffix.val % 128))
        + C.scalarMul (frLe F (v.1.drop 16) - (slot F (m k)).2) (2 * (k.suffix.val % 128) + 1)
        = suffixComm C m' s 0 := by
      rw [suffixComm_update_in C (Or.inl rfl) (by omega) (by omega), e1, e2]; rfl
    have h2 : suffixComm C m s 128 = suffixComm C m' s 128 :=
      (suffixComm_update_out C (Or.inr ⟨rfl, hpos⟩)).symm
    have h3 : stemComm C m s + C.scalarMul (C.h (suffixComm C m' s 0) - C.h (suffixComm C m s 0)) 2
        = stemComm C m' s := by
      simp only [stemComm, ← h2, Crypto.scalarMul]
      module
    simp only [h1, h3]
    have := hmeta db hst
    simp only [stemMeta, ← h2] at this
    rw [this]
  · simp only [hpos, if_false]
    have h1 : suffixComm C m s 128 + C.scalarMul (frLe F (v.1.take 16) + twoPow128 F - (slot F (m k)).1)
          (2 * (k.suffix.val % 128))
        + C.scalarMul (frLe F (v.1.drop 16) - (slot F (m k)).2) (2 * (k.suffix.val % 128) + 1)
        = suffixComm C m' s 128 := by
      rw [suffixComm_update_in C (Or.inr rfl) (by omega) (by have := k.suffix.isLt; omega), e1, e2]; rfl
    have h2 : suffixComm C m s 0 = suffixComm C m' s 0 :=
      (suffixComm_update_out C (Or.inl ⟨rfl, by omega⟩)).symm
    have h3 : stemComm C m s + C.scalarMul (C.h (suffixComm C m' s 128) - C.h (suffixComm C m s 128)) 3
        = stemComm C m' s := by
      simp only [stemComm, ← h2, Crypto.scalarMul]
      module
    simp only [h1, h3]
    have := hmeta db hst
    simp only [stemMeta, ← h2] at this
    rw [this]

/-- Effect of the branch table update. -/
theorem updateBranchTable_spec (db : MemoryDb F G) (u : StemUpdated F) (p : Path) (i : Byte) (dep : ℕ)
    {bm : BranchMeta F G} (hb : db.branch p = some (.branch bm)) :
    updateBranchTable C db u p i dep
      = .ok ({ db with branch := Function.update (Function.update db.branch p
                (some (.branch ⟨bm.comm + (u.newVal - u.oldVal.getD 0) • C.g i.val,
                  C.h (bm.comm + (u.newVal - u.oldVal.getD 0) • C.g i.val)⟩))) (p ++ [i]) (some (.stem u.stem)) },
          C.h (bm.comm + (u.newVal - u.oldVal.getD 0) • C.g i.val)) := by
  have : HigherDb.getBranchMeta db p = .ok (some bm) := by
    show MemoryDb.getBranchMeta db p = _
    simp [MemoryDb.getBranchMeta, hb]
  unfold updateBranchTable
  simp only [this, unwrap, bind, Except.bind]
  rfl

/-- `UpdateLeaf`: at the branch `s.take d`, below which no other stem lives on the key's path. -/
theorem updateLeaf_step {d : ℕ} (hd : d < 31) (hb : IsBranch m ((s).1.take d))
    (honly : ∀ u, Under m ((s).1.take (d + 1)) u → u = s) (hne : m k ≠ some v) (dep : ℕ) :
    processIns C (specDb C m)
      (.updateLeaf k v dep ((s).1.take d) ((s).1[d]'(by rw [(s).2]; exact hd))) = .ok (mix C m m' d, false) := by
  have hl : ((s).1.take d).length = d := by simp [(s).2]; omega
  have hl1 : ((s).1.take (d + 1)).length = d + 1 := by simp [(s).2]; omega
  have honly' : ∀ u, Under m' ((s).1.take (d + 1)) u → u = s := by
    intro u hu
    rcases under_update.1 hu with h | h
    · exact honly u h
    · exact h.1
  have hnm : ¬ Many m ((s).1.take (d + 1)) := fun ⟨a, b, hab, ha, hb⟩ => hab ((honly a ha).trans (honly b hb).symm)
  have hnm' : ¬ Many m' ((s).1.take (d + 1)) :=
    fun ⟨a, b, hab, ha, hb⟩ => hab ((honly' a ha).trans (honly' b hb).symm)
  have hus : Under m' ((s).1.take (d + 1)) s := under_update.2 (Or.inr ⟨rfl, List.take_prefix _ _⟩)
  simp only [processIns]
  rw [updateLeafTable_spec m k v (specDb C m) rfl hne dep]
  simp only [bind, Except.bind]
  rw [updateStemTable_spec C m k v { specDb C m with leaf := m' } rfl dep]
  simp only
  rw [updateBranchTable_spec (p := (s).1.take d) C _ _ _ dep (bm := branchMeta C m ((s).1.take d))
    (by show node C m _ = _; exact node_branch hb)]
  simp only [Except.ok.injEq, Prod.mk.injEq, and_true]
  have hcomm : (branchMeta C m ((s).1.take d)).comm
      + (C.h (stemComm C m' s) - (if HasStem m s then some (C.h (stemComm C m s)) else none).getD 0)
          • C.g ((s).1[d]'(by rw [(s).2]; exact hd)).val = branchComm C m' ((s).1.take d) := by
    have hp : (s).1.take d ++ [(s).1[d]'(by rw [(s).2]; exact hd)] <+: (s).1 := by
      rw [stem_take_succ k hd]; exact List.take_prefix _ _
    rw [branchComm_update_on C hp, stem_take_succ k hd, childHash_single hnm' hus]
    have : childHash C m ((s).1.take (d + 1)) = (if HasStem m s then some (C.h (stemComm C m s)) else none).getD 0 := by
      by_cases h : HasStem m s
      · rw [childHash_single hnm ⟨h, List.take_prefix _ _⟩]; simp [h]
      · rw [childHash_none]
        · simp [h]
        · intro u hu
          have := honly u hu
          subst this
          exact h hu.1
    rw [this]
    rfl
  simp only [hcomm]
  simp only [mix, MemoryDb.mk.injEq, specDb, true_and]
  rw [stem_take_succ k hd]
  funext r
  by_cases hr1 : r = (s).1.take (d + 1)
  · subst hr1
    have hnb : ¬ IsBranch m' ((s).1.take (d + 1)) := by
      rintro (h | h)
      · rw [h] at hl1; simp at hl1
      · exact hnm' h
    rw [Function.update_self, if_neg (by omega), node_stem hnb hus]
    rw [dropLast_eq_take k hl1 ((List.dropLast_prefix _).trans (List.take_prefix _ _))]
    exact hb.update
  · rw [Function.update_of_ne hr1]
    by_cases hr : r = (s).1.take d
    · subst hr
      rw [Function.update_self, if_neg (by omega), node_branch hb.update]
      rfl
    · rw [Function.update_of_ne hr]
      by_cases hlt : r.length < d
      · rw [if_pos hlt]
      · rw [if_neg hlt]
        symm
        by_cases hon : r <+: (s).1
        · -- deeper on-path nodes are empty before and after
          have hre := prefix_iff_take.1 hon
          have hlen : d + 2 ≤ r.length := by
            by_contra hcon
            have : r.length = d ∨ r.length = d + 1 := by omega
            rcases this with h | h
            · exact hr (by rw [hre, h])
            · exact hr1 (by rw [hre, h])
          have hpre : (s).1.take (d + 1) <+: r.dropLast := by
            rw [dropLast_eq_take k rfl ((List.dropLast_prefix _).trans hon)]
            exact List.take_prefix_take_left (by omega)
          have aux : ∀ mm : KV, ¬ Many mm ((s).1.take (d + 1)) → node C mm r = none := by
            intro mm hmm
            apply node_none
            · rintro (h | h)
              · rw [h] at hlen; simp at hlen
              · exact hmm (h.mono (hpre.trans (List.dropLast_prefix _)))
            · right
              rintro (h | h)
              · rw [h] at hpre
                have := hpre.length_le
                rw [hl1] at this; simp at this
              · exact hmm (h.mono hpre)
          rw [aux _ hnm, aux _ hnm']
        · apply node_same C m k v hon
          intro hdl
          have hde := dropLast_eq_take k rfl hdl
          by_cases hle : r.length ≤ d + 1
          · left
            rw [hde]
            exact isBranch_take_mono m k (by omega) hb
          · right
            intro u hu
            have h1 : Under m ((s).1.take (d + 1)) u := by
              apply hu.mono
              refine List.IsPrefix.trans ?_ (List.dropLast_prefix r)
              rw [hde]
              exact List.take_prefix_take_left (by omega)
            have := honly u h1
            subst this
            exact hon hu.2

end step
end Verif.Trie
