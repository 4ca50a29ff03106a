import Verif.Trie.Model
import Mathlib.Algebra.BigOperators.Fin
import Mathlib.Algebra.BigOperators.Group.Finset.Basic

/-!
# Specification of the verkle trie

Everything here is a function of the abstract key-value map only.  It does not mention the instruction machinery of the
implementation.
-/

set_option autoImplicit false

namespace Verif.Spec
open scoped BigOperators Classical

/-- The abstract state: a partial map from keys to values. -/
abbrev KV := Key → Option Value

/-- The map after inserting a list of pairs in order, starting from `m`. -/
def applyAll (m : KV) : List (Key × Value) → KV
  | [] => m
  | (k, v) :: rest => applyAll (Function.update m k (some v)) rest

/-- Some key with this stem is present. -/
def HasStem (m : KV) (s : Stem) : Prop := ∃ b, m (mkKey s b) ≠ none

/-- `s` is a present stem that starts with the path `p`. -/
def Under (m : KV) (p : Path) (s : Stem) : Prop := HasStem m s ∧ p <+: s.1

/-- At least two present stems start with `p`. -/
def Many (m : KV) (p : Path) : Prop := ∃ s t, s ≠ t ∧ Under m p s ∧ Under m p t

/-- The path `p` carries a branch node: the root, or a path shared by at least two stems. -/
def IsBranch (m : KV) (p : Path) : Prop := p = [] ∨ Many m p

variable {F G : Type} [Field F] [AddCommGroup G] [Module F G]

/-- Low half of a value as a scalar, with the presence marker `2^128`. -/
def lowHalf (F : Type) [Field F] (v : Value) : F := (leNat (v.1.take 16) : F) + ((2 ^ 128 : ℕ) : F)
/-- High half of a value as a scalar. -/
def highHalf (F : Type) [Field F] (v : Value) : F := (leNat (v.1.drop 16) : F)

/-- Scalars committed for one slot: `(0, 0)` when absent. -/
def slot (F : Type) [Field F] : Option Value → F × F
  | none => (0, 0)
  | some v => (lowHalf F v, highHalf F v)

/-- Commitment to the 128 slots starting at `off` (`0` for C1, `128` for C2): slot `off + i` uses generators
`2 i` and `2 i + 1`. -/
def suffixComm (C : Crypto F G) (m : KV) (s : Stem) (off : ℕ) : G :=
  ∑ i : Fin 128,
    ((slot F (m (mkKey s (Fin.ofNat 256 (off + i.val))))).1 • C.g (2 * i.val)
      + (slot F (m (mkKey s (Fin.ofNat 256 (off + i.val))))).2 • C.g (2 * i.val + 1))

/-- Commitment of a stem: `1·G0 + stem·G1 + h(C1)·G2 + h(C2)·G3`. -/
def stemComm (C : Crypto F G) (m : KV) (s : Stem) : G :=
  (1 : F) • C.g 0 + (leNat s.1 : F) • C.g 1
    + C.h (suffixComm C m s 0) • C.g 2 + C.h (suffixComm C m s 128) • C.g 3

/-- The full record of a stem. -/
def stemMeta (C : Crypto F G) (m : KV) (s : Stem) : StemMeta F G where
  c1 := suffixComm C m s 0
  hashC1 := C.h (suffixComm C m s 0)
  c2 := suffixComm C m s 128
  hashC2 := C.h (suffixComm C m s 128)
  stemComm := stemComm C m s
  hashStem := C.h (stemComm C m s)

/-- Commitment of the branch at path `p`, with `fuel` levels below it: the sum over all child indices `i` of the hash of
child `p ++ [i]` times `G_i`; the hash of a child is that of a branch if two stems share the path, that of the stem if
exactly one does, and zero otherwise. -/
noncomputable def branchCommAux (C : Crypto F G) (m : KV) : ℕ → Path → G
  | 0, _ => 0
  | fuel + 1, p => ∑ i : Byte,
      (if Many m (p ++ [i]) then C.h (branchCommAux C m fuel (p ++ [i]))
       else if hs : ∃ s, Under m (p ++ [i]) s then C.h (stemComm C m hs.choose)
       else 0) • C.g i.val

/-- Commitment of the branch at `p`; there are at most 32 levels because stems have 31 bytes. -/
noncomputable def branchComm (C : Crypto F G) (m : KV) (p : Path) : G :=
  branchCommAux C m (32 - p.length) p

/-- The hash a branch stores for the child at path `q`. -/
noncomputable def childHash (C : Crypto F G) (m : KV) (q : Path) : F :=
  if Many m q then C.h (branchComm C m q)
  else if hs : ∃ s, Under m q s then C.h (stemComm C m hs.choose)
  else 0

/-- The record of a branch. -/
noncomputable def branchMeta (C : Crypto F G) (m : KV) (p : Path) : BranchMeta F G :=
  ⟨branchComm C m p, C.h (branchComm C m p)⟩

/-- What is stored at path `p`. -/
noncomputable def node (C : Crypto F G) (m : KV) (p : Path) : Option (BranchChild F G) :=
  if IsBranch m p then some (.branch (branchMeta C m p))
  else if hs : (∃ s, Under m p s) ∧ IsBranch m p.dropLast then some (.stem hs.1.choose)
  else none

/-- The whole in-memory database as a function of the map. -/
noncomputable def specDb (C : Crypto F G) (m : KV) : MemoryDb F G where
  leaf := m
  stem s := if HasStem m s then some (stemMeta C m s) else none
  branch p := node C m p

/-! ### Basic facts -/

theorem Under.unique {m : KV} {p : Path} {s t : Stem} (h : ¬ Many m p) (hs : Under m p s) (ht : Under m p t) :
    s = t := by
  by_contra hne
  exact h ⟨s, t, hne, hs, ht⟩

theorem Under.length_le {m : KV} {p : Path} {s : Stem} (h : Under m p s) : p.length ≤ 31 := by
  have := h.2.length_le
  rwa [s.2] at this

theorem Many.length_lt {m : KV} {p : Path} (h : Many m p) : p.length < 31 := by
  obtain ⟨s, t, hne, hs, ht⟩ := h
  by_contra hlt
  have h1 := hs.length_le
  have hp : p.length = 31 := by omega
  apply hne
  apply Subtype.ext
  rw [← hs.2.eq_of_length (by rw [hp, s.2]), ht.2.eq_of_length (by rw [hp, t.2])]

theorem Under.mono {m : KV} {p q : Path} {s : Stem} (h : Under m q s) (hpq : p <+: q) : Under m p s :=
  ⟨h.1, hpq.trans h.2⟩

theorem Many.mono {m : KV} {p q : Path} (h : Many m q) (hpq : p <+: q) : Many m p := by
  obtain ⟨s, t, hne, hs, ht⟩ := h
  exact ⟨s, t, hne, hs.mono hpq, ht.mono hpq⟩

/-- The unfolding of a branch commitment into its children. -/
theorem branchComm_eq (C : Crypto F G) (m : KV) (p : Path) (hp : p.length < 32) :
    branchComm C m p = ∑ i : Byte, childHash C m (p ++ [i]) • C.g i.val := by
  obtain ⟨n, hn⟩ : ∃ n, 32 - p.length = n + 1 := ⟨31 - p.length, by omega⟩
  have hn' : ∀ i : Byte, 32 - (p ++ [i]).length = n := by
    intro i; simp; omega
  simp only [branchComm, childHash, hn, branchCommAux, hn']

theorem childHash_many {C : Crypto F G} {m : KV} {q : Path} (h : Many m q) :
    childHash C m q = C.h (branchComm C m q) := by simp [childHash, h]

theorem childHash_single {C : Crypto F G} {m : KV} {q : Path} {s : Stem} (h : ¬ Many m q) (hs : Under m q s) :
    childHash C m q = C.h (stemComm C m s) := by
  have hex : ∃ s, Under m q s := ⟨s, hs⟩
  have : hex.choose = s := Under.unique h hex.choose_spec hs
  simp only [childHash, if_neg h, dif_pos hex, this]

theorem childHash_none {C : Crypto F G} {m : KV} {q : Path} (h : ∀ s, ¬ Under m q s) :
    childHash C m q = 0 := by
  have h1 : ¬ Many m q := fun ⟨s, _, _, hs, _⟩ => h s hs
  have h2 : ¬ ∃ s, Under m q s := fun ⟨s, hs⟩ => h s hs
  simp only [childHash, if_neg h1, dif_neg h2]

theorem node_branch {C : Crypto F G} {m : KV} {p : Path} (h : IsBranch m p) :
    node C m p = some (.branch (branchMeta C m p)) := by simp [node, h]

theorem node_stem {C : Crypto F G} {m : KV} {p : Path} {s : Stem} (h : ¬ IsBranch m p) (hs : Under m p s)
    (hd : IsBranch m p.dropLast) : node C m p = some (.stem s) := by
  have hex : (∃ s, Under m p s) ∧ IsBranch m p.dropLast := ⟨⟨s, hs⟩, hd⟩
  have hm : ¬ Many m p := fun hm => h (Or.inr hm)
  have : hex.1.choose = s := Under.unique hm hex.1.choose_spec hs
  simp only [node, if_neg h, dif_pos hex, this]

theorem node_none {C : Crypto F G} {m : KV} {p : Path} (h : ¬ IsBranch m p)
    (hs : (∀ s, ¬ Under m p s) ∨ ¬ IsBranch m p.dropLast) : node C m p = none := by
  have hex : ¬ ((∃ s, Under m p s) ∧ IsBranch m p.dropLast) := by
    rintro ⟨⟨s, h1⟩, h2⟩
    rcases hs with hs | hs
    · exact hs s h1
    · exact hs h2
  simp only [node, if_neg h, dif_neg hex]

theorem not_isBranch_append {m : KV} {p : Path} {i : Byte} (h : ¬ Many m (p ++ [i])) : ¬ IsBranch m (p ++ [i]) := by
  rintro (h1 | h1)
  · simp at h1
  · exact h h1

/-- Inversion of `node`. -/
theorem node_eq_stem {C : Crypto F G} {m : KV} {p : Path} {s : Stem} (h : node C m p = some (.stem s)) :
    ¬ IsBranch m p ∧ Under m p s ∧ IsBranch m p.dropLast := by
  unfold node at h
  split at h
  · simp at h
  · split at h
    · rename_i h1 h2
      simp only [Option.some.injEq, BranchChild.stem.injEq] at h
      exact ⟨h1, h ▸ h2.1.choose_spec, h2.2⟩
    · simp at h

theorem node_eq_branch {C : Crypto F G} {m : KV} {p : Path} {b : BranchMeta F G}
    (h : node C m p = some (.branch b)) : IsBranch m p ∧ b = branchMeta C m p := by
  unfold node at h
  split at h
  · rename_i h1
    simp only [Option.some.injEq, BranchChild.branch.injEq] at h
    exact ⟨h1, h.symm⟩
  · split at h <;> simp at h

theorem node_eq_none {C : Crypto F G} {m : KV} {p : Path} (h : node C m p = none) (hd : IsBranch m p.dropLast) :
    ¬ IsBranch m p ∧ ∀ s, ¬ Under m p s := by
  unfold node at h
  split at h
  · simp at h
  · rename_i h1
    split at h
    · simp at h
    · rename_i h2
      exact ⟨h1, fun s hs => h2 ⟨⟨s, hs⟩, hd⟩⟩

end Verif.Spec
