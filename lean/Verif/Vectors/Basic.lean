import Verif.Vectors.Ops

/-!
# Test vectors of the repository: transcript, encodings, reference string, hash of keys

These are tests of the reading of the source, not properties: the model, evaluated by the kernel on the inputs of the tests of the
repository, gives the outputs which the tests expect.
-/

set_option autoImplicit false

namespace Verif.Vectors
open Proof Bander Ipa Wire
open Sha256 (beNat)

/-- A scalar, as the tests print it. -/
noncomputable def hexS (x : ZMod r) : ℕ := beNat (codec.encS x)

/-- An element, as the tests print it. -/
def hexE (e : BElem) : ℕ := beNat e.enc

theorem hexE_R {t : Tri} {e : BElem} (h : t.R e) : hexE e = beNat t.bytes := by rw [hexE, bytes_R h]

/-! ### `/repo/ipa-multipoint/src/transcript.rs` -/

noncomputable def simple : Transcript := newTranscript (lbl "simple_protocol")

/-- `test_vector_0`, `transcript.rs:75-81`. -/
theorem transcript_0 : (challenge shaOracle simple (lbl "simple_challenge")).1 ≠
    (challenge shaOracle (challenge shaOracle simple (lbl "simple_challenge")).2 (lbl "simple_challenge")).1 := by decide +kernel

/-- `test_vector_1`, `transcript.rs:83-91`. -/
theorem transcript_1 : hexS (challenge shaOracle simple (lbl "simple_challenge")).1 =
    0xc2aa02607cbdf5595f00ee0dd94a2bbff0bed6a2bf8452ada9011eadb538d003 := by decide +kernel

/-- `test_vector_2`, `transcript.rs:93-106`. -/
theorem transcript_2 : hexS (challenge shaOracle (appendScalar shaOracle (appendScalar shaOracle simple (lbl "five") 5)
    (lbl "five again") 5) (lbl "simple_challenge")).1 =
    0x498732b694a8ae1622d4a9347535be589e4aee6999ffc0181d13fe9e4d037b0b := by decide +kernel

/-- `test_vector_3`, `transcript.rs:108-125`. -/
theorem transcript_3 : hexS (challenge shaOracle (appendScalar shaOracle (domainSep (appendScalar shaOracle
    (domainSep (appendScalar shaOracle simple (lbl "-1") (-1)) (lbl "separate me")) (lbl "-1 again") (-1)) (lbl "separate me again")) (lbl "now 1") 1)
    (lbl "simple_challenge")).1 =
    0x14f59938e9e9b1389e74311a464f45d3d88d8ac96adf1c1129ac466de088d618 := by decide +kernel

/-- `test_vector_4`, `transcript.rs:127-140`. -/
theorem transcript_4 : hexS (challenge shaOracle (appendPoint shaOracle simple (lbl "generator") (genPt : BElem)) (lbl "simple_challenge")).1 =
    0x8c2dafe7c0aabfa9ed542bb2cbf0568399ae794fc44fdfd7dff6cc0e6144921c := by decide +kernel

/-! ### `/repo/banderwagon/src/element.rs` -/

def genTri : Tri :=
  ⟨33549696307925229982445904590536874618633472405590028303463218160177641247209,
    33247207790868406533770098284893268064219217060773724591094549753060500487835, 1⟩

theorem genTri_R : genTri.R (genPt : BElem) :=
  ⟨genPt, rfl, by simp [genTri], by rw [genTri, Nat.cast_one, mul_one]; rfl, by rw [genTri, Nat.cast_one, mul_one]; rfl⟩

theorem smul_R (c : ZMod r) {t : Tri} {e : BElem} (h : t.R e) : (Tri.msm [c] [t]).R (c • e) := natOps_sound.smul c h

/-- `fixed_test_vectors`, `element.rs:273-303`: the generator, doubled. -/
theorem fixed_test_vectors : ((List.range 16).map fun i => hexE ((2 ^ i : ZMod r) • (genPt : BElem))) =
    [0x4a2c7486fd924882bf02c6908de395122843e3e05264d7991e18e7985dad51e9,
     0x43aa74ef706605705989e8fd38df46873b7eae5921fbed115ac9d937399ce4d5,
     0x5e5f550494159f38aa54d2ed7f11a7e93e4968617990445cc93ac8e59808c126,
     0x0e7e3748db7c5c999a7bcd93d71d671f1f40090423792266f94cb27ca43fce5c,
     0x14ddaa48820cb6523b9ae5fe9fe257cbbd1f3d598a28e670a40da5d1159d864a,
     0x6989d1c82b2d05c74b62fb0fbdf8843adae62ff720d370e209a7b84e14548a7d,
     0x26b8df6fa414bf348a3dc780ea53b70303ce49f3369212dec6fbe4b349b832bf,
     0x37e46072db18f038f2cc7d3d5b5d1374c0eb86ca46f869d6a95fc2fb092c0d35,
     0x2c1ce64f26e1c772282a6633fac7ca73067ae820637ce348bb2c8477d228dc7d,
     0x297ab0f5a8336a7a4e2657ad7a33a66e360fb6e50812d4be3326fab73d6cee07,
     0x5b285811efa7a965bd6ef5632151ebf399115fcc8f5b9b8083415ce533cc39ce,
     0x1f939fa2fd457b3effb82b25d3fe8ab965f54015f108f8c09d67e696294ab626,
     0x3088dcb4d3f4bacd706487648b239e0be3072ed2059d981fe04ce6525af6f1b8,
     0x35fbc386a16d0227ff8673bc3760ad6b11009f749bb82d4facaea67f58fc60ed,
     0x00f29b4f3255e318438f0a31e058e4c081085426adb0479f14c64985d0b956e0,
     0x3fa4384b2fa0ecc3c0582223602921daaa893a97b64bdf94dcaa504e8b7b9e5f] := by
  have h : ∀ i : ℕ, hexE ((2 ^ i : ZMod r) • (genPt : BElem)) = beNat (Tri.msm [((2 ^ i : ℕ) : ZMod r)] [genTri]).bytes := by
    intro i
    rw [← hexE_R (smul_R _ genTri_R), Nat.cast_pow, Nat.cast_ofNat]
  simp only [h]
  decide +kernel

/-- `consistent_group_to_field`, `element.rs:211-224`: the hash of the generator. -/
theorem group_to_field : hexS (Elem.hash (ZMod r) (genPt : BElem)) = 0xd1e7de2aaea9603d5bc6c208d319596376556ecd8336671ba7670c2139772d14 := by
  decide +kernel

/-! ### `/repo/ipa-multipoint/src/crs.rs` -/

/-- `crs_consistency`, `crs.rs:117-151`: the encodings of the 256 generators. -/
theorem crs_consistency : hexE (crsElems.getD 0 0) = 0x01587ad1336675eb912550ec2a28eb8923b824b490dd2ba82e48f14590a298a0 ∧
    hexE (crsElems.getD 255 0) = 0x3de2be346b539395b0c0de56a5ccca54a317f1b5c80107b0802af9a62276a4d8 ∧
    beNat (Sha256.hash ((crsElems.take 256).flatMap Elem.enc)) = 0x1fcaea10bf24f750200e06fa473c76ff0468007291fa548e2d99f09ba9256fdb := by
  have h : ∀ {ts : List Tri} {es : List BElem}, List.Forall₂ Tri.R ts es → es.flatMap Elem.enc = ts.flatMap Tri.bytes := by
    intro ts es h
    induction h with
    | nil => rfl
    | cons h _ ih => rw [List.flatMap_cons, List.flatMap_cons, ih, bytes_R h]
  have hg : ∀ i, (crsTri.getD i Tri.zero).R (crsElems.getD i 0) := by
    intro i
    have := crsTri_R
    generalize crsTri = ts at *
    generalize crsElems = es at *
    induction this generalizing i with
    | nil => exact Tri.R.zero
    | cons h _ ih =>
      cases i with
      | zero => exact h
      | succ i => exact ih i
  rw [hexE_R (hg 0), hexE_R (hg 255), h (List.forall₂_take 256 crsTri_R)]
  decide +kernel

/-! ### `/repo/ipa-multipoint/src/multiproof.rs` -/

/-- `1, 2, …, 32` eight times. -/
def polyA : List (ZMod r) := (List.range 256).map fun i => ((i % 32 + 1 : ℕ) : ZMod r)

/-- The commitment in `test_ipa_consistency`, `multiproof.rs:400-407`. -/
theorem commitment_polyA : hexE (lin polyA (crsElems.take 256)) = 0x1b9dff8f5ebbac250d291dfe90e36283a227c64b113c37f1bfb9e7a743cdb128 := by
  rw [hexE_R (msm_R polyA (List.forall₂_take 256 crsTri_R))]
  decide +kernel

end Verif.Vectors
