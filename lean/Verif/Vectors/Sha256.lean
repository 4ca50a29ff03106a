import Verif.Ipa.Model

/-!
# SHA-256

The `sha2` crate used by `/repo/ipa-multipoint/src/transcript.rs:10,41-43`, from FIPS 180-4.  The theorems about the opening
arguments hold for every hash function; this one is used to replay the test vectors of the repository.
-/

set_option autoImplicit false

namespace Verif.Sha256
open Proof

/-- Continue with a number, evaluated. -/
def force {α : Type} (n : ℕ) (k : ℕ → α) : α := Nat.rec (k 0) (fun m _ => k (m + 1)) n

theorem force_eq {α : Type} (n : ℕ) (k : ℕ → α) : force n k = k n := by cases n <;> rfl

/-- Rotation of a 32-bit word to the right.  The operations are written without type classes, which is faster in the kernel. -/
def rotr (x n m : ℕ) : ℕ := (x.shiftRight n).lor ((x.shiftLeft m).mod 4294967296)

def sigma0 (x : ℕ) : ℕ := ((rotr x 7 25).xor (rotr x 18 14)).xor (x.shiftRight 3)
def sigma1 (x : ℕ) : ℕ := ((rotr x 17 15).xor (rotr x 19 13)).xor (x.shiftRight 10)
def bigSigma0 (x : ℕ) : ℕ := ((rotr x 2 30).xor (rotr x 13 19)).xor (rotr x 22 10)
def bigSigma1 (x : ℕ) : ℕ := ((rotr x 6 26).xor (rotr x 11 21)).xor (rotr x 25 7)
def ch (x y z : ℕ) : ℕ := (x.land y).xor ((Nat.sub 4294967295 x).land z)
def maj (x y z : ℕ) : ℕ := ((x.land y).xor (x.land z)).xor (y.land z)

/-- The round constants. -/
def K : List ℕ :=
  [0x428a2f98, 0x71374491, 0xb5c0fbcf, 0xe9b5dba5, 0x3956c25b, 0x59f111f1, 0x923f82a4, 0xab1c5ed5,
   0xd807aa98, 0x12835b01, 0x243185be, 0x550c7dc3, 0x72be5d74, 0x80deb1fe, 0x9bdc06a7, 0xc19bf174,
   0xe49b69c1, 0xefbe4786, 0x0fc19dc6, 0x240ca1cc, 0x2de92c6f, 0x4a7484aa, 0x5cb0a9dc, 0x76f988da,
   0x983e5152, 0xa831c66d, 0xb00327c8, 0xbf597fc7, 0xc6e00bf3, 0xd5a79147, 0x06ca6351, 0x14292967,
   0x27b70a85, 0x2e1b2138, 0x4d2c6dfc, 0x53380d13, 0x650a7354, 0x766a0abb, 0x81c2c92e, 0x92722c85,
   0xa2bfe8a1, 0xa81a664b, 0xc24b8b70, 0xc76c51a3, 0xd192e819, 0xd6990624, 0xf40e3585, 0x106aa070,
   0x19a4c116, 0x1e376c08, 0x2748774c, 0x34b0bcb5, 0x391c0cb3, 0x4ed8aa4a, 0x5b9cca4f, 0x682e6ff3,
   0x748f82ee, 0x78a5636f, 0x84c87814, 0x8cc70208, 0x90befffa, 0xa4506ceb, 0xbef9a3f7, 0xc67178f2]

/-- The eight words of the state. -/
structure State where
  a : ℕ
  b : ℕ
  c : ℕ
  d : ℕ
  e : ℕ
  f : ℕ
  g : ℕ
  h : ℕ

/-- The initial state. -/
def init : State :=
  ⟨0x6a09e667, 0xbb67ae85, 0x3c6ef372, 0xa54ff53a, 0x510e527f, 0x9b05688c, 0x1f83d9ab, 0x5be0cd19⟩

/-- The rounds, with the sixteen last words of the message schedule; a round consumes the first and appends the next. -/
def rounds (ks : List ℕ) : ℕ → ℕ → ℕ → ℕ → ℕ → ℕ → ℕ → ℕ → ℕ → ℕ → ℕ → ℕ → ℕ → ℕ → ℕ → ℕ → ℕ → ℕ → ℕ → ℕ → ℕ → ℕ → ℕ → ℕ → State :=
  List.rec (motive := fun _ => ℕ → ℕ → ℕ → ℕ → ℕ → ℕ → ℕ → ℕ → ℕ → ℕ → ℕ → ℕ → ℕ → ℕ → ℕ → ℕ → ℕ → ℕ → ℕ → ℕ → ℕ → ℕ → ℕ → ℕ → State)
    (fun _ _ _ _ _ _ _ _ _ _ _ _ _ _ _ _ a b c d e f g h => ⟨a, b, c, d, e, f, g, h⟩)
    (fun k _ ih w0 w1 w2 w3 w4 w5 w6 w7 w8 w9 w10 w11 w12 w13 w14 w15 a b c d e f g h =>
      force (((((h.add (bigSigma1 e)).add (ch e f g)).add k).add w0).mod 4294967296) fun t1 =>
      force ((((sigma1 w14).add w9).add ((sigma0 w1).add w0)).mod 4294967296) fun w16 =>
      force ((d.add t1).mod 4294967296) fun e' =>
      force ((t1.add ((bigSigma0 a).add (maj a b c))).mod 4294967296) fun a' =>
      ih w1 w2 w3 w4 w5 w6 w7 w8 w9 w10 w11 w12 w13 w14 w15 w16 a' a b c e' e f g) ks

/-- The compression function. -/
def compress (s : State) : List ℕ → State
  | [w0, w1, w2, w3, w4, w5, w6, w7, w8, w9, w10, w11, w12, w13, w14, w15] =>
    let t := rounds K w0 w1 w2 w3 w4 w5 w6 w7 w8 w9 w10 w11 w12 w13 w14 w15 s.a s.b s.c s.d s.e s.f s.g s.h
    force ((s.a.add t.a).mod 4294967296) fun a => force ((s.b.add t.b).mod 4294967296) fun b =>
    force ((s.c.add t.c).mod 4294967296) fun c => force ((s.d.add t.d).mod 4294967296) fun d =>
    force ((s.e.add t.e).mod 4294967296) fun e => force ((s.f.add t.f).mod 4294967296) fun f =>
    force ((s.g.add t.g).mod 4294967296) fun g => force ((s.h.add t.h).mod 4294967296) fun h => ⟨a, b, c, d, e, f, g, h⟩
  | _ => s

/-- The number with these bytes, most significant first. -/
def beNat (bs : List Byte) : ℕ := bs.foldl (fun n b => 256 * n + b.val) 0

/-- The four-byte words of a byte string. -/
def words : List Byte → List ℕ
  | a :: b :: c :: d :: bs => beNat [a, b, c, d] :: words bs
  | _ => []

/-- The four bytes of a word. -/
def wordBytes (n : ℕ) : List Byte := [asU8 (n / 16777216), asU8 (n / 65536), asU8 (n / 256), asU8 n]

/-- The padding of a message of `n` bytes. -/
def padding (n : ℕ) : List Byte :=
  asU8 0x80 :: List.replicate ((119 - n % 64) % 64) (asU8 0) ++ wordBytes (8 * n / 4294967296) ++ wordBytes (8 * n)

/-- Compression of the blocks of sixteen words; the first argument bounds their number. -/
def blocks : ℕ → List ℕ → State → State
  | 0, _, s => s
  | n + 1, ws, s => blocks n (ws.drop 16) (compress s (ws.take 16))

/-- The digest. -/
def hash (m : List Byte) : List Byte :=
  let ws := words (m ++ padding m.length)
  let s := blocks (ws.length / 16) ws init
  wordBytes s.a ++ wordBytes s.b ++ wordBytes s.c ++ wordBytes s.d ++ wordBytes s.e ++ wordBytes s.f ++ wordBytes s.g ++ wordBytes s.h

theorem hash_length (m : List Byte) : (hash m).length = 32 := by simp [hash, wordBytes]

/-- `abc`, FIPS 180-4. -/
example : beNat (hash [97, 98, 99]) = 0xba7816bf8f01cfea414140de5dae2223b00361a396177a9cb410ff61f20015ad := by decide +kernel

/-- The empty message. -/
example : beNat (hash []) = 0xe3b0c44298fc1c149afbf4c8996fb92427ae41e4649b934ca495991b7852b855 := by decide +kernel

end Verif.Sha256
