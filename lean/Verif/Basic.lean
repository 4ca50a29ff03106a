import Mathlib.Algebra.Module.Basic
import Mathlib.Data.Fintype.Basic
import Mathlib.Data.Fin.Basic
import Mathlib.Logic.Function.Basic

/-!
# Bytes, keys and the abstract cryptographic parameters

Conventions shared by all modules.  `u8` is `Byte = Fin 256`, a Rust array `[u8; n]` is a list together with
its length, a Rust panic is `Except.error`.
-/

set_option autoImplicit false

namespace Verif

/-- `u8`. -/
abbrev Byte := Fin 256

/-- `[u8; n]`. -/
abbrev Bytes (n : ℕ) := {l : List Byte // l.length = n}

/-- 32-byte keys (`/repo/verkle-trie/src/lib.rs:17`, `pub type Key = [u8; 32]`). -/
abbrev Key := Bytes 32
/-- 32-byte values (`/repo/verkle-trie/src/lib.rs:18`, `pub type Value = [u8; 32]`). -/
abbrev Value := Bytes 32
/-- 31-byte stems, `key[0..31]`. -/
abbrev Stem := Bytes 31
/-- Paths of branch nodes, `BranchId = Vec<u8>` (`/repo/verkle-trie/src/trie.rs:56`). -/
abbrev Path := List Byte

/-- `key[0..31].try_into().unwrap()`, e.g. `/repo/verkle-trie/src/trie.rs:221,587`. -/
def Key.stem (k : Key) : Stem := ⟨k.1.take 31, by simp [k.2]⟩

/-- `key[31]`, e.g. `/repo/verkle-trie/src/trie.rs:578`. -/
def Key.suffix (k : Key) : Byte := k.1[31]'(by simp [k.2])

/-- The key with a given stem and last byte. -/
def mkKey (s : Stem) (b : Byte) : Key := ⟨s.1 ++ [b], by simp [s.2]⟩

/-- The little-endian number denoted by a byte string. -/
def leNat : List Byte → ℕ
  | [] => 0
  | b :: bs => b.val + 256 * leNat bs

/-- Rust panics (failed `unwrap`, `expect`, `assert!`, slice index, `unreachable!`) carry a message. -/
abbrev Panic := String

/-- Results of functions that may panic. -/
abbrev Res := Except Panic

/-- `Option::unwrap` / `expect`. -/
def unwrap {α : Type*} (msg : String) : Option α → Res α
  | some a => .ok a
  | none => .error msg

/-- The cryptographic parameters of the trie: generators (`CRS[i]`) and the map-to-field of group elements
(`group_to_field`, `/repo/verkle-trie/src/lib.rs:53-55`).  `h 0 = 0` holds for the code because the neutral
element is `(0, 1)` and the map is `x / y` (`/repo/banderwagon/src/element.rs:128-131`), see
`Verif.Banderwagon`. -/
structure Crypto (F G : Type*) [Field F] [AddCommGroup G] where
  g : ℕ → G
  h : G → F
  h_zero : h 0 = 0

/-- `Committer::scalar_mul(value, lagrange_index)`, `/repo/ipa-multipoint/src/committer.rs:11`.  That the
implementation computes this product is the subject of `Verif.Msm`. -/
def Crypto.scalarMul {F G : Type*} [Field F] [AddCommGroup G] [SMul F G] (C : Crypto F G) (v : F) (i : ℕ) : G :=
  v • C.g i

/-- `Fr::from_le_bytes_mod_order`: the little-endian number reduced into the field. -/
def frLe (F : Type*) [Field F] (bs : List Byte) : F := (leNat bs : F)

/-- `TWO_POW_128`, `/repo/verkle-trie/src/constants.rs`. -/
def twoPow128 (F : Type*) [Field F] : F := ((2 ^ 128 : ℕ) : F)

theorem Key.ext_parts {k k' : Key} (h1 : k.stem = k'.stem) (h2 : k.suffix = k'.suffix) : k = k' := by
  obtain ⟨l, hl⟩ := k
  obtain ⟨l', hl'⟩ := k'
  simp only [Key.stem, Subtype.mk.injEq, Key.suffix] at h1 h2
  apply Subtype.ext
  show l = l'
  have e : ∀ (x : List Byte) (hx : x.length = 32), x = x.take 31 ++ [x[31]'(by omega)] := by
    intro x hx
    apply List.ext_getElem
    · simp [hx]
    · intro i h1 h2
      by_cases hi : i < 31
      · simp
      · have : i = 31 := by omega
        subst this
        simp
  rw [e l hl, e l' hl', h1, h2]

@[simp] theorem mkKey_stem (s : Stem) (b : Byte) : (mkKey s b).stem = s := by
  apply Subtype.ext
  simp [mkKey, Key.stem, s.2]

@[simp] theorem mkKey_suffix (s : Stem) (b : Byte) : (mkKey s b).suffix = b := by
  simp [mkKey, Key.suffix, s.2]

@[simp] theorem mkKey_stem_suffix (k : Key) : mkKey k.stem k.suffix = k :=
  Key.ext_parts (by simp) (by simp)

theorem mkKey_inj {s s' : Stem} {b b' : Byte} : mkKey s b = mkKey s' b' ↔ s = s' ∧ b = b' := by
  constructor
  · intro h
    have h1 := congrArg Key.stem h
    have h2 := congrArg Key.suffix h
    simp at h1 h2
    exact ⟨h1, h2⟩
  · rintro ⟨rfl, rfl⟩; rfl

theorem mkKey_eq_iff {s : Stem} {b : Byte} {k : Key} : mkKey s b = k ↔ s = k.stem ∧ b = k.suffix := by
  rw [← mkKey_inj, mkKey_stem_suffix]

end Verif
