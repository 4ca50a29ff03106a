import Verif.Wire.Model
import Mathlib.Algebra.BigOperators.Group.List.Basic

/-!
# The state encoding of `verkle-spec`: tree keys and code chunks

Sources: `/repo/verkle-spec/src/parameters.rs`, `util.rs`, `header.rs`, `storage.rs`, `code.rs`, `lib.rs`
(all in `/repo/verkle-spec/src`).

A `U256` is a natural number; its arithmetic panics when the result has more than 256 bits (`ethereum_types`).
-/

set_option autoImplicit false

namespace Verif.Eip
open Wire Proof

/-! ### Parameters, `parameters.rs:4-12` -/

def versionLeafKey : ℕ := 0
def balanceLeafKey : ℕ := 1
def nonceLeafKey : ℕ := 2
def codeKeccakLeafKey : ℕ := 3
def codeSizeLeafKey : ℕ := 4
def headerStorageOffset : ℕ := 64
def codeOffset : ℕ := 128
def verkleNodeWidth : ℕ := 256
/-- `U256([0, 0, 0, 2u64.pow(56)])`. -/
def mainStorageOffset : ℕ := 2 ^ 56 * 2 ^ 192

/-- `U256 + U256`. -/
def addU256 (a b : ℕ) : Res ℕ := if a + b < 2 ^ 256 then .ok (a + b) else .error "arithmetic operation overflow"

/-! ### Tree keys -/

/-- `Hasher::hash64`, `lib.rs:21-27`: the trait's method may be overridden, so the hash is any function of 64 bytes. -/
abbrev Hash64 := Bytes 64 → Key

/-- `swap_last_byte`, `util.rs:6-16`: `as_u32` and `try_into` panic beyond their ranges. -/
def swapLastByte (hash : Key) (byte : ℕ) : Res Key :=
  if 2 ^ 32 ≤ byte then .error "Integer overflow when casting to u32"
  else if h : byte < 256 then .ok (mkKey hash.stem ⟨byte, h⟩)
  else .error "number cannot be represented as a byte"

/-- `hash_addr_int`, `util.rs:18-32`: the address followed by the integer in little-endian order. -/
def hashAddrInt (H : Hash64) (addr : Bytes 32) (n : ℕ) : Key :=
  H ⟨addr.1 ++ leBytes 32 n, by
    have : ∀ n x, (leBytes n x).length = n := by
      intro n
      induction n with
      | zero => intro x; rfl
      | succ n ih => intro x; simp [leBytes, ih]
    simp [addr.2, this]⟩

/-- `Header`, `header.rs:11-17`. -/
structure Header where
  balance : Key
  version : Key
  codeSize : Key
  nonce : Key
  codeKeccak : Key

/-- `Header::with_tree_index`, `header.rs:25-41`. -/
def Header.withTreeIndex (H : Hash64) (addr : Bytes 32) (treeIndex : ℕ) : Res Header := do
  let base := hashAddrInt H addr treeIndex
  let version ← swapLastByte base versionLeafKey
  let balance ← swapLastByte base balanceLeafKey
  let nonce ← swapLastByte base nonceLeafKey
  let codeKeccak ← swapLastByte base codeKeccakLeafKey
  let codeSize ← swapLastByte base codeSizeLeafKey
  .ok ⟨balance, version, codeSize, nonce, codeKeccak⟩

/-- `Header::new`, `header.rs:20-23`. -/
def Header.new (H : Hash64) (addr : Bytes 32) : Res Header := Header.withTreeIndex H addr 0

/-- `Storage::new`, `storage.rs:14-27`, and `storage_slot`. -/
def storageKey (H : Hash64) (addr : Bytes 32) (key : ℕ) : Res Key := do
  let pos ← if key < codeOffset - headerStorageOffset then addU256 headerStorageOffset key else addU256 mainStorageOffset key
  swapLastByte (hashAddrInt H addr (pos / verkleNodeWidth)) (pos % verkleNodeWidth)

/-- `Code::new`, `code.rs:14-24`, and `code_chunk`. -/
def codeKey (H : Hash64) (addr : Bytes 32) (chunk : ℕ) : Res Key := do
  let p ← addU256 codeOffset chunk
  swapLastByte (hashAddrInt H addr (p / verkleNodeWidth)) (p % verkleNodeWidth)

/-- `addr20_to_addr32`, `lib.rs:64-71`. -/
def addr20to32 (a : Bytes 20) : Bytes 32 := ⟨List.replicate 12 0 ++ a.1, by simp [a.2]⟩

/-! ### The input of the hash -/

/-- `slice::chunks(n)`: the last piece may be shorter. -/
def chunks {α : Type} (n : ℕ) (l : List α) : List (List α) :=
  (List.range ((l.length + n - 1) / n)).map fun i => (l.drop (n * i)).take n

/-- `slice::chunks_exact(n)`: an incomplete last piece is left out. -/
def chunksExact {α : Type} (n : ℕ) (l : List α) : List (List α) :=
  (List.range (l.length / n)).map fun i => (l.drop (n * i)).take n

/-- `chunk64`, `util.rs:81-101`. -/
def chunk64 (b : Bytes 64) : List ℕ := (leBytes 16 (2 + 256 * 64) :: chunks 16 b.1).map leNat

/-- `chunk_bytes`, `util.rs:36-78`. -/
def chunkBytes (input : List Byte) : Res (List ℕ) :=
  let capacity := verkleNodeWidth - 1
  if capacity * 16 < input.length then .error "assert input.len() <= commit_capacity * 16"
  else
    let flag := 2 + 256 * input.length
    let padBy := capacity * 16 - input.length
    (chunks 16 (leBytes 16 flag ++ input ++ List.replicate padBy 0)).mapM fun c =>
      if c.length = 16 then .ok (leNat c) else .error "input is not 16 byte aligned"

section
variable {F G : Type} [Field F] [AddCommGroup G] [Module F G]

/-- `hash64`, `lib.rs:44-57`: the commitment to the five scalars, mapped to a scalar, as 32 bytes.  `Fr::from(u128)` is the
number in the field; `commit_lagrange` is the linear combination of the generators. -/
def hash64 (C : Crypto F G) (K : WireCodec F G) (b : Bytes 64) : Key :=
  let inputs := (chunk64 b).map fun x => ((x : ℕ) : F)
  let result := (inputs.mapIdx fun i x => x • C.g i).sum
  ⟨K.encS (C.h result), K.encS_len _⟩

end

/-! ### Code chunks -/

/-- `PUSH_OFFSET`, `code.rs:31`. -/
def pushOffset : ℕ := 95
/-- `PUSH1`, `code.rs:32`. -/
def push1 : ℕ := pushOffset + 1
/-- `PUSH32`, `code.rs:33`. -/
def push32 : ℕ := pushOffset + 32

/-- `zero_align_bytes`, `util.rs:103-114`, for a positive alignment. -/
def zeroAlign (bytes : List Byte) (alignment : ℕ) : List Byte :=
  if bytes.length % alignment = 0 then bytes else bytes ++ List.replicate (alignment - bytes.length % alignment) 0

/-- The loop `code.rs:127-139` from a position; the first argument bounds the number of passes (each moves forward). -/
def pushLoop (c : List Byte) : ℕ → ℕ → Res ℕ
  | 0, pos => if pos < c.length then .error "loop bound" else .ok pos
  | fuel + 1, pos =>
    match c[pos]? with
    | none => .ok pos
    | some b => pushLoop c fuel (pos + 1 + if push1 ≤ b.val ∧ b.val ≤ push32 then b.val - pushOffset else 0)

/-- `compute_leftover_push_data`, `code.rs:124-149`. -/
def leftoverPush (c : List Byte) : Res ℕ := do
  let pos ← pushLoop c c.length 0
  if pos - c.length < 256 then .ok (pos - c.length) else .error "left over cannot fit into a u8"

/-- The loop `code.rs:61-88` from chunk number `i` on: the entries pushed to `remaining_pushdata_bytes` and
`last_chunk_push_data`. -/
def headers (last : ℕ) : ℕ → List (List Byte) → ℕ → Res (List ℕ × Bool)
  | _, [], _ => .ok ([], false)
  | i, c :: cs, left =>
    if c.length < left then
      if i = last then .ok ([], true)
      else do
        let r ← headers last (i + 1) cs (left - c.length)
        .ok ((left - c.length) :: r.1, r.2)
    else do
      let l ← leftoverPush (c.drop left)
      let r ← headers last (i + 1) cs l
      .ok (min l c.length :: r.1, r.2)

/-- `chunkify_code`, `code.rs:44-111`.  `chunked_code31.len() - 1` underflows for empty code; `copy_from_slice` needs 31
bytes. -/
def chunkifyCode (code : List Byte) : Res (List (List Byte)) := do
  let cs := chunksExact 31 (zeroAlign code 31)
  if cs.length = 0 then .error "attempt to subtract with overflow"
  else
    let r ← headers (cs.length - 1) 0 cs 0
    let out ← ((0 :: r.1).zip cs).mapM fun x =>
      if 256 ≤ x.1 then .error "prefix canot be stored in a u8. This should be infallible."
      else if x.2.length ≠ 31 then .error "source slice length does not match destination slice length"
      else .ok (asU8 x.1 :: x.2)
    .ok (if r.2 then out ++ [List.replicate 32 0] else out)

end Verif.Eip
