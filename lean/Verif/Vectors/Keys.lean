import Verif.Vectors.Trie
import Verif.Props.Commitments

/-!
# Test vectors of the repository: the hash of tree keys, the addition of commitments
-/

set_option autoImplicit false

namespace Verif.Vectors
open Proof Bander Ipa Wire Spec Props Ffi
open Sha256 (beNat)

theorem lin_mapIdx (v : List (ZMod r)) (g : ℕ → BElem) : (v.mapIdx fun i x => x • g i).sum = lin v ((List.range v.length).map g) := by
  unfold lin
  congr 1
  apply List.ext_getElem
  · simp
  · intro i h1 h2
    simp

/-- `Eip.hash64`. -/
noncomputable def hash64T (b : Bytes 64) : List Byte :=
  codec.encS (Tri.msm ((Eip.chunk64 b).map fun x => ((x : ℕ) : ZMod r)) (gensT.take 5)).hash

theorem hash64_R (b : Bytes 64) : (Eip.hash64 crypto codec b).1 = hash64T b := by
  have hl : ((Eip.chunk64 b).map fun x => ((x : ℕ) : ZMod r)).length = 5 := by
    rw [List.length_map]
    exact (C46_input_unambiguous.1 _).1
  unfold Eip.hash64 hash64T
  simp only
  rw [lin_mapIdx, hl]
  have h := msm_R ((Eip.chunk64 b).map fun x => ((x : ℕ) : ZMod r)) (List.forall₂_take 5 gens_R)
  rw [← List.map_take, List.take_range] at h
  rw [hash_R h]
  rfl

/-- `smoke_test_hash64`, `/repo/verkle-spec/src/lib.rs:72-92`. -/
theorem smoke_test_hash64 :
    beNat (Eip.hash64 crypto codec ⟨List.replicate 64 0, rfl⟩).1 = 0x1a100684fd68185060405f3f160e4bb6e034194336b547bdae323f888d533207 ∧
    beNat (Eip.hash64 crypto codec ⟨List.replicate 64 1, rfl⟩).1 = 0x3afb8486ed3053ac55f62864da803c074844509d253260d870337c20fd73eb11 := by
  rw [hash64_R, hash64_R]
  decide +kernel

/-- `smoke_test_hash64` of the interface, `/repo/ffi_interface/src/lib.rs:530-541`. -/
theorem smoke_test_tree_key_hash {ctx : Context} (h : Context.Ok ctx) :
    ∃ hash, getTreeKeyHash ctx ⟨List.replicate 32 0, rfl⟩ ⟨List.replicate 32 0, rfl⟩ = .ok hash ∧
      beNat hash = 0x1a100684fd68185060405f3f160e4bb6e034194336b547bdae323f888d533207 := by
  obtain ⟨_, _, _, hash, _, _, _, _, h1, h2, _⟩ := C50_tree_key h ⟨List.replicate 32 0, rfl⟩ ⟨List.replicate 32 0, rfl⟩
  exact ⟨hash, h1, by rw [h2]; exact smoke_test_hash64.1⟩

/-- The address and the index of `get_tree_key_add_commitment_equivalence`. -/
def addr : Bytes 32 := ⟨(List.range 32).map fun i => Fin.ofNat 256 (i + 1), rfl⟩
def index : Bytes 32 := ⟨((List.range 32).map fun i => Fin.ofNat 256 (i + 33)).reverse, rfl⟩

/-- `get_tree_key_add_commitment_equivalence`, `/repo/ffi_interface/src/lib.rs:543-604`: the key. -/
theorem get_tree_key {ctx : Context} (h : Context.Ok ctx) :
    ∃ key, getTreeKey ctx addr index 0 = .ok key ∧ beNat key = 0xff7e3916badeb510dfcdad458726273319280742e553d8d229bd676428147300 := by
  obtain ⟨_, _, _, hash, _, _, _, _, h1, h2, h3⟩ := C50_tree_key h addr index
  refine ⟨_, h3 0, ?_⟩
  rw [h2, hash64_R]
  decide +kernel

/-! ### Addition -/

/-- The 64 bytes of the coordinates of a point. -/
def Lit.bytes64 (p : Lit) : List Byte := leBytes 32 p.x ++ leBytes 32 p.y

theorem Lit.unchecked {p : Lit} (hx : p.x < q) (hy : p.y < q) :
    ∃ v : Point, fromBytesUnchecked p.bytes64 = .ok v ∧ Bander.Represents v p.elem ∧ v.x / v.z = p.x ∧ v.y / v.z = p.y := by
  have h1 : ∀ n : ℕ, n < q → deFq (leBytes 32 n) = some (n : ZMod q) := by
    intro n hn
    have h := deFq_serFq q_lt (n : ZMod q) []
    rw [List.append_nil] at h
    rwa [serFq, ZMod.val_natCast, Nat.mod_eq_of_lt hn] at h
  refine ⟨⟨p.x, p.y, p.x * p.y, 1⟩, ?_, ⟨⟨one_ne_zero, mul_one _, ?_⟩, entryPt p.x p.y p.ok, rfl, ?_, ?_⟩, ?_, ?_⟩
  · unfold fromBytesUnchecked Lit.bytes64
    rw [List.take_left' (leBytes_length _ _), List.drop_left' (leBytes_length _ _), h1 _ hx, h1 _ hy]
  · simp only [div_one]
    exact (entryPt p.x p.y p.ok).on
  all_goals simp only [div_one]
  all_goals rfl

/-- The bytes of the sum are the bytes of the sum by the affine law, for every addition of points which keeps the contract. -/
theorem addCommitment_lit (ctx : Context) {p p' : Lit} (hx : p.x < q) (hy : p.y < q) (hx' : p'.x < q) (hy' : p'.y < q) :
    addCommitment ctx p.bytes64 p'.bytes64 =
      .ok (serFq (addX coeffD (p.x : ZMod q) p.y p'.x p'.y) ++ serFq (addY coeffA coeffD (p.x : ZMod q) p.y p'.x p'.y)) := by
  obtain ⟨v, h1, h2, h3, h4⟩ := Lit.unchecked hx hy
  obtain ⟨v', h1', h2', h3', h4'⟩ := Lit.unchecked hx' hy'
  obtain ⟨h5, h6, h7⟩ := ctx.A.add_spec v v' _ _ h2 h2'
  unfold addCommitment
  rw [h1, h1']
  simp only [bind, Except.bind]
  rw [Proj.toBytesUncompressed, h5.toAffine]
  simp only [bind, Except.bind]
  unfold Proj.aff
  rw [h6, h7, h3, h4, h3', h4']

def addL : Lit := ⟨0x44506a2325913d77c262251588d1fc4249ef9517b91decf1e4389f9ea970f00f, 0x30e0173d1347e2a11b64f6276440fa5ec9a370d5d7286427d677795068ab8746, by decide +kernel⟩
def addR : Lit := ⟨0x2cb44f196429c6d33b3388fb7e0b95f20e6bc3dc219f593e933655ed0053e33, 0x21da35a1bcf0867af72dbee298be56096445bf2eda6ee17c1525695ebb89c304, by decide +kernel⟩

/-- `smoke_test_add_commitment_fixed`, `/repo/ffi_interface/src/lib.rs:606-620`. -/
theorem smoke_test_add_commitment_fixed (ctx : Context) : ∃ out, addCommitment ctx addL.bytes64 addR.bytes64 = .ok out ∧
    beNat addL.bytes64 =
      0x0ff070a99e9f38e4f1ec1db91795ef4942fcd188152562c2773d9125236a50444687ab68507977d6276428d7d570a3c95efa406427f6641ba1e247133d17e030 ∧
    beNat addR.bytes64 =
      0x333e05d05e6533e993f519c23dbce6205fb9e0b78f38b3336d9c4296f144cb0204c389bb5e6925157ce16eda2ebf45640956be98e2be2df77a86f0bca135da21 ∧
    beNat out =
      0x8b5feb2eb0cc73a8ca2f24ae7b2c61e88ff0b019dea9b881d1b5f7815280b6393834cb80ab2c09984c5b9f70be680206a6e12c8bbb169fe5ab672f45c5d51e20 := by
  refine ⟨_, addCommitment_lit ctx (by decide +kernel) (by decide +kernel) (by decide +kernel) (by decide +kernel), ?_⟩
  decide +kernel

end Verif.Vectors
