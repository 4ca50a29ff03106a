import Verif.Proof.Model
import Verif.Trie.Chain

/-!
# The path of a key in the trie of a map

`termLen m s` is the number of branch nodes on the way to stem `s`; the walk ends at the path `s.take (termLen m s)`, which
is empty or carries a stem.
-/

set_option autoImplicit false

namespace Verif.Proof
open Verif.Spec Verif.Trie
open scoped Classical

variable {F G : Type} [Field F] [AddCommGroup G] [Module F G]

theorem exists_not_branch (m : KV) (s : Stem) : ∃ d, ¬ IsBranch m (s.1.take d) := by
  refine ⟨31, ?_⟩
  have hl : (s.1.take 31).length = 31 := by simp [s.2]
  rintro (h | h)
  · rw [h] at hl; simp at hl
  · have := h.length_lt; omega

/-- Number of branch nodes on the path to `s`. -/
noncomputable def termLen (m : KV) (s : Stem) : ℕ := Nat.find (exists_not_branch m s)

theorem termLen_spec (m : KV) (s : Stem) : ¬ IsBranch m (s.1.take (termLen m s)) := Nat.find_spec (exists_not_branch m s)

theorem isBranch_of_lt {m : KV} {s : Stem} {d : ℕ} (h : d < termLen m s) : IsBranch m (s.1.take d) := by
  have := Nat.find_min (exists_not_branch m s) h
  exact not_not.1 this

theorem termLen_pos (m : KV) (s : Stem) : 0 < termLen m s := by
  by_contra h
  have h0 : termLen m s = 0 := by omega
  have := termLen_spec m s
  rw [h0] at this
  exact this (Or.inl (by simp))

theorem termLen_le (m : KV) (s : Stem) : termLen m s ≤ 31 := by
  apply Nat.find_min' (exists_not_branch m s)
  have hl : (s.1.take 31).length = 31 := by simp [s.2]
  rintro (h | h)
  · rw [h] at hl; simp at hl
  · have := h.length_lt; omega

theorem take_stem_length {s : Stem} {d : ℕ} (h : d ≤ 31) : (s.1.take d).length = d := by simp [s.2]; exact h

theorem isBranch_take_iff {m : KV} {s : Stem} {d : ℕ} (hd : d ≤ 31) : IsBranch m (s.1.take d) ↔ d < termLen m s := by
  refine ⟨fun h => ?_, isBranch_of_lt⟩
  by_contra hlt
  have hle : termLen m s ≤ d := by omega
  apply termLen_spec m s
  rcases h with h | h
  · have := take_stem_length (s := s) hd
    rw [h] at this
    have h0 : d = 0 := by simpa using this.symm
    have := termLen_pos m s
    omega
  · exact Or.inr (h.mono (List.take_prefix_take_left hle))

theorem termLen_eq {m : KV} {s : Stem} {d : ℕ} (hd : d < 31) (h1 : IsBranch m (s.1.take d))
    (h2 : ¬ IsBranch m (s.1.take (d + 1))) : termLen m s = d + 1 := by
  have a := (isBranch_take_iff (m := m) (s := s) (by omega)).1 h1
  have b := mt (isBranch_take_iff (m := m) (s := s) (d := d + 1) (by omega)).2 h2
  omega

/-- The path where the walk for `s` ends. -/
noncomputable def termPath (m : KV) (s : Stem) : Path := s.1.take (termLen m s)

theorem termPath_prefix (m : KV) (s : Stem) : termPath m s <+: s.1 := List.take_prefix _ _

theorem termPath_not_many (m : KV) (s : Stem) : ¬ Many m (termPath m s) := fun h => termLen_spec m s (Or.inr h)

theorem termPath_length (m : KV) (s : Stem) : (termPath m s).length = termLen m s := take_stem_length (termLen_le m s)

theorem termPath_dropLast (m : KV) (s : Stem) : (termPath m s).dropLast = s.1.take (termLen m s - 1) := by
  rw [termPath, List.dropLast_eq_take, take_stem_length (termLen_le m s), List.take_take]
  congr 1; omega

theorem termPath_dropLast_branch (m : KV) (s : Stem) : IsBranch m (termPath m s).dropLast := by
  rw [termPath_dropLast]
  exact isBranch_of_lt (by have := termLen_pos m s; omega)

/-- The branch nodes visited on the way to `s`, each with the child index taken. -/
noncomputable def branchNodes (C : Crypto F G) (m : KV) (s : Stem) (n : ℕ) : List (Path × Byte × Meta F G) :=
  (List.range n).map fun i => (s.1.take i, s.1.getD i 0, .branch (branchMeta C m (s.1.take i)))

theorem branchNodes_succ (C : Crypto F G) (m : KV) (s : Stem) (n : ℕ) :
    branchNodes C m s (n + 1) = branchNodes C m s n ++ [(s.1.take n, s.1.getD n 0, .branch (branchMeta C m (s.1.take n)))] := by
  simp [branchNodes, List.range_succ]

/-- The state of a key whose walk ends at stem `u`. -/
def stateAt (m : KV) (k : Key) (u : Stem) : KeyState :=
  if u = k.stem then
    match m k with
    | some v => .found v
    | none => .stemFound
  else .differentStem u

/-- What the walk returns. -/
noncomputable def keyPathSpec (C : Crypto F G) (m : KV) (k : Key) : KeyPath F G :=
  if h : ∃ u, Under m (termPath m k.stem) u then
    ⟨branchNodes C m k.stem (termLen m k.stem) ++ [(termPath m k.stem, k.suffix, .stem (stemMeta C m h.choose))],
      asU8 (termLen m k.stem + 1), stateAt m k h.choose⟩
  else ⟨branchNodes C m k.stem (termLen m k.stem), asU8 (termLen m k.stem), .empty⟩

/-- The stem met at the end of the walk. -/
theorem keyPathSpec_stem {C : Crypto F G} {m : KV} {k : Key} {u : Stem} (hu : Under m (termPath m k.stem) u) :
    keyPathSpec C m k =
      ⟨branchNodes C m k.stem (termLen m k.stem) ++ [(termPath m k.stem, k.suffix, .stem (stemMeta C m u))],
        asU8 (termLen m k.stem + 1), stateAt m k u⟩ := by
  have h : ∃ u, Under m (termPath m k.stem) u := ⟨u, hu⟩
  have e : h.choose = u := Under.unique (termPath_not_many m k.stem) h.choose_spec hu
  simp only [keyPathSpec, dif_pos h, e]

theorem keyPathSpec_empty {C : Crypto F G} {m : KV} {k : Key} (hu : ∀ u, ¬ Under m (termPath m k.stem) u) :
    keyPathSpec C m k = ⟨branchNodes C m k.stem (termLen m k.stem), asU8 (termLen m k.stem), .empty⟩ := by
  have h : ¬ ∃ u, Under m (termPath m k.stem) u := fun ⟨u, h⟩ => hu u h
  simp only [keyPathSpec, dif_neg h]

theorem branchNodes_length (C : Crypto F G) (m : KV) (s : Stem) (n : ℕ) : (branchNodes C m s n).length = n := by
  simp [branchNodes]

theorem key_drop {k : Key} {d : ℕ} (hd : d < 31) : k.1.drop d = k.stem.1.getD d 0 :: k.1.drop (d + 1) := by
  have hl : d < k.1.length := by rw [k.2]; omega
  rw [List.drop_eq_getElem_cons hl]
  congr 1
  have : d < k.stem.1.length := by rw [k.stem.2]; exact hd
  rw [List.getD_eq_getElem _ _ this]
  simp [Key.stem]

theorem stem_take_succ' {s : Stem} {d : ℕ} (hd : d < 31) : s.1.take (d + 1) = s.1.take d ++ [s.1.getD d 0] := by
  have hl : d < s.1.length := by rw [s.2]; exact hd
  rw [List.getD_eq_getElem _ _ hl, List.take_append_getElem hl]

theorem findGo_spec (C : Crypto F G) (m : KV) (k : Key) : ∀ (n d : ℕ), d + n = 31 → IsBranch m (k.stem.1.take d) →
    findGo (specDb C m) k (k.1.drop d) (k.stem.1.take d) (branchMeta C m (k.stem.1.take d)) (branchNodes C m k.stem d)
      = .ok (keyPathSpec C m k)
  | 0, d, hd, hb => by
    have := (isBranch_take_iff (m := m) (s := k.stem) (d := d) (by omega)).1 hb
    have := termLen_le m k.stem
    omega
  | n + 1, d, hd, hb => by
    have hd' : d < 31 := by omega
    rw [key_drop hd', findGo]
    rw [← branchNodes_succ]
    have hgc : HigherDb.getBranchChild (specDb C m) (k.stem.1.take d) (k.stem.1.getD d 0) = node C m (k.stem.1.take (d + 1)) := by
      rw [stem_take_succ' hd']; rfl
    have hdl : (k.stem.1.take (d + 1)).dropLast = k.stem.1.take d := by
      rw [stem_take_succ' hd']; simp
    rw [hgc, ← stem_take_succ' hd']
    by_cases hb' : IsBranch m (k.stem.1.take (d + 1))
    · rw [node_branch hb']
      exact findGo_spec C m k n (d + 1) (by omega) hb'
    · have ht : termLen m k.stem = d + 1 := termLen_eq hd' hb hb'
      have htp : termPath m k.stem = k.stem.1.take (d + 1) := by rw [termPath, ht]
      by_cases hs : ∃ u, Under m (k.stem.1.take (d + 1)) u
      · obtain ⟨u, hu⟩ := hs
        have hnm : ¬ Many m (k.stem.1.take (d + 1)) := fun h => hb' (Or.inr h)
        have hn := node_stem (C := C) hb' hu (by rw [hdl]; exact hb)
        rw [hn, keyPathSpec_stem (by rw [htp]; exact hu)]
        have hsm : HigherDb.getStemMeta (specDb C m) u = some (stemMeta C m u) := by
          show (if HasStem m u then _ else _) = _
          rw [if_pos hu.1]
        have hgl : HigherDb.getLeaf (specDb C m) k = m k := rfl
        simp only [hsm, hgl, unwrap, bind, Except.bind, ht, htp, stateAt, List.length_append,
          branchNodes_length, List.length_singleton]
        cases hm : m k with
        | none => by_cases he : u = k.stem <;> simp only [he, if_true, if_false]
        | some v =>
          have hk : Under m (k.stem.1.take (d + 1)) k.stem :=
            ⟨⟨k.suffix, by rw [mkKey_stem_suffix, hm]; simp⟩, List.take_prefix _ _⟩
          have he : u = k.stem := Under.unique hnm hu hk
          simp only [he, if_true]
      · have hn : node C m (k.stem.1.take (d + 1)) = none := node_none hb' (Or.inl (fun u hu => hs ⟨u, hu⟩))
        rw [hn, keyPathSpec_empty (by rw [htp]; exact fun u hu => hs ⟨u, hu⟩)]
        simp only [ht, branchNodes_length]

theorem findKeyPath_spec (C : Crypto F G) (m : KV) (k : Key) :
    findKeyPath (specDb C m) k = .ok (keyPathSpec C m k) := by
  have hbm : HigherDb.getBranchMeta (specDb C m) [] = .ok (some (branchMeta C m [])) := by
    show MemoryDb.getBranchMeta (specDb C m) [] = _
    unfold MemoryDb.getBranchMeta
    have : (specDb C m).branch [] = some (.branch (branchMeta C m [])) := node_branch (Or.inl rfl)
    rw [this]
  have := findGo_spec C m k 31 0 (by omega) (by simp [IsBranch])
  simp only [List.drop_zero, List.take_zero] at this
  simp only [findKeyPath, hbm, bind, Except.bind, unwrap]
  exact this

end Verif.Proof
