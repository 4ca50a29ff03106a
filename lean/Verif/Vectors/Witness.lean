import Verif.Vectors.Opening
import Verif.Ffi.Witness

/-!
# Test vector of the repository: an execution witness

`exec_witness_works` of `/repo/ffi_interface/src/lib.rs:423-427`: the witness in `/repo/verkle-trie/src/proof/golang_proof_format.rs` is
accepted by the model.
-/

set_option autoImplicit false

namespace Verif.Vectors
open Proof Bander Ipa Wire Ffi
open Sha256 (beNat)
open scoped Classical

/-- `PREVIOUS_STATE_ROOT`. -/
def witRoot : List Char := "0x2cf2ab8fed2dcfe2fa77da044ab16393dbdabbc65deea5fdf272107a039f2c60".toList

/-- `EXECUTION_WITNESS_JSON`, after the JSON parser. -/
def witness : Json.ExecutionWitness where
  stateDiffs := [⟨"0xab8fbede899caa6a95ece66789421c7777983761db3cfb33b5e47ba10f413b".toList, [⟨97, none, some "0x2f08a1461ab75873a0f2d23170f46d3be2ade2a7f4ebf607fc53fb361cf85865".toList⟩]⟩]
  verkleProof :=
    ⟨[], "0x12".toList,
    ["0x4900c9eda0b8f9a4ef9a2181ced149c9431b627797ab747ee9747b229579b583".toList,
     "0x491dff71f13c89dac9aea22355478f5cfcf0af841b68e379a90aa77b8894c00e".toList,
     "0x525d67511657d9220031586db9d41663ad592bbafc89bc763273a3c2eb0b19dc".toList],
    "0x5c6e856174962f2786f0711288c8ddd90b0c317db7769ab3485818460421f08c".toList,
    ⟨["0x4ff3c1e2a97b6bd0861a2866acecd2fd6d2e5949196429e409bfd4851339832e".toList,
     "0x588cfd2b401c8afd04220310e10f7ccdf1144d2ef9191ee9f72d7d44ad1cf9d0".toList,
     "0x0bb16d917ecdec316d38b92558d46450b21553673f38a824037716bfee067220".toList,
     "0x2bdb51e80b9e43cc5011f4b51877f4d56232ce13035671f191bd4047baa11f3d".toList,
     "0x130f6822a47533ed201f5f15b144648a727217980ca9e86237977b7f0fe8f41e".toList,
     "0x2c4b83ccd0bb8ad8d370ab8308e11c95fb2020a6a62e71c9a1c08de2d32fc9f1".toList,
     "0x4424bec140960c09fc97ee29dad2c3ff467b7e01a19ada43979c55c697b4f583".toList,
     "0x5c8f76533d04c7b868e9d7fcaa901897c5f35b27552c3bf94f01951fae6fcd2a".toList],
    ["0x31cb234eeff147546cabd033235c8f446812c7f44b597d9580a10bbecac9dd82".toList,
     "0x6945048c033a452d346977ab306df4df653b6e7f3e0b75a705a650427ee30e88".toList,
     "0x38ca3c4ebbee982301b6bafd55bc9e016a7c59af95e9666b56a0680ed1cd0673".toList,
     "0x16160e96b0fb20d0c9c7d9ae76ca9c74300d34e05d3688315c0062204ab0d07b".toList,
     "0x2bc96deadab15bc74546f8882d8b88c54ea0b62b04cb597bf5076fe25c53e43c".toList,
     "0x301e407f62f0d1f6bf56f2e252ca89dd9f3bf09acbb0cca9230ecda24ac783b5".toList,
     "0x3ce1800a2e3f10e641f3ef8a8aaacf6573e9e33f4cb5b429850271528ed3cd31".toList,
     "0x471b1578afbd3f2762654d04db73c6a84e9770f3d6b8a189596fbad38fffa263".toList],
    "0x07ca48ff9f0fb458967f070c18e5cdf180e93212bf3efba6378384c5703a61fe".toList⟩⟩

/-- `n` bytes printed as this number. -/
def bytesN (n m : ℕ) : Bytes n := ⟨(leBytes n m).reverse, by rw [List.length_reverse, leBytes_length]⟩

deriving instance DecidableEq for Ffi.SuffixDiff, Ffi.StateDiff, MultiPointProofGo, VerkleProofGo

/-- The record of bytes. -/
def witGo : VerkleProofGo where
  stateDiffs := [⟨bytesN 31 0xab8fbede899caa6a95ece66789421c7777983761db3cfb33b5e47ba10f413b, [⟨97, none, some (bytesN 32 0x2f08a1461ab75873a0f2d23170f46d3be2ade2a7f4ebf607fc53fb361cf85865)⟩]⟩]
  commitmentsByPath := [bytesN 32 0x4900c9eda0b8f9a4ef9a2181ced149c9431b627797ab747ee9747b229579b583,
    bytesN 32 0x491dff71f13c89dac9aea22355478f5cfcf0af841b68e379a90aa77b8894c00e,
    bytesN 32 0x525d67511657d9220031586db9d41663ad592bbafc89bc763273a3c2eb0b19dc]
  otherStems := []
  proof := ⟨bytesN 32 0x5c6e856174962f2786f0711288c8ddd90b0c317db7769ab3485818460421f08c,
    [bytesN 32 0x4ff3c1e2a97b6bd0861a2866acecd2fd6d2e5949196429e409bfd4851339832e,
     bytesN 32 0x588cfd2b401c8afd04220310e10f7ccdf1144d2ef9191ee9f72d7d44ad1cf9d0,
     bytesN 32 0x0bb16d917ecdec316d38b92558d46450b21553673f38a824037716bfee067220,
     bytesN 32 0x2bdb51e80b9e43cc5011f4b51877f4d56232ce13035671f191bd4047baa11f3d,
     bytesN 32 0x130f6822a47533ed201f5f15b144648a727217980ca9e86237977b7f0fe8f41e,
     bytesN 32 0x2c4b83ccd0bb8ad8d370ab8308e11c95fb2020a6a62e71c9a1c08de2d32fc9f1,
     bytesN 32 0x4424bec140960c09fc97ee29dad2c3ff467b7e01a19ada43979c55c697b4f583,
     bytesN 32 0x5c8f76533d04c7b868e9d7fcaa901897c5f35b27552c3bf94f01951fae6fcd2a],
    [bytesN 32 0x31cb234eeff147546cabd033235c8f446812c7f44b597d9580a10bbecac9dd82,
     bytesN 32 0x6945048c033a452d346977ab306df4df653b6e7f3e0b75a705a650427ee30e88,
     bytesN 32 0x38ca3c4ebbee982301b6bafd55bc9e016a7c59af95e9666b56a0680ed1cd0673,
     bytesN 32 0x16160e96b0fb20d0c9c7d9ae76ca9c74300d34e05d3688315c0062204ab0d07b,
     bytesN 32 0x2bc96deadab15bc74546f8882d8b88c54ea0b62b04cb597bf5076fe25c53e43c,
     bytesN 32 0x301e407f62f0d1f6bf56f2e252ca89dd9f3bf09acbb0cca9230ecda24ac783b5,
     bytesN 32 0x3ce1800a2e3f10e641f3ef8a8aaacf6573e9e33f4cb5b429850271528ed3cd31,
     bytesN 32 0x471b1578afbd3f2762654d04db73c6a84e9770f3d6b8a189596fbad38fffa263],
    bytesN 32 0x07ca48ff9f0fb458967f070c18e5cdf180e93212bf3efba6378384c5703a61fe⟩
  depthsExtensionPresent := [0x12]

theorem witness_bytes : fromJson witness = .ok witGo := by decide +kernel

def witRootLit : Lit := ⟨0x2cf2ab8fed2dcfe2fa77da044ab16393dbdabbc65deea5fdf272107a039f2c60, 0x67135408b1dbe4cb549f31c77f793b2fab87e83ae18fdc697f47b8a3af4827f6, by decide +kernel⟩

def witComms : List Lit :=
  [⟨0x4900c9eda0b8f9a4ef9a2181ced149c9431b627797ab747ee9747b229579b583, 0x69643e065c4b98a41fc05a14d7f38874ad8bf2a3552c39e01efc6aa20cb9dc27, by decide +kernel⟩,
   ⟨0x491dff71f13c89dac9aea22355478f5cfcf0af841b68e379a90aa77b8894c00e, 0x67c41dab10e08615ab14315aa6335f2ef89855363ed9190c7a9a429713685499, by decide +kernel⟩,
   ⟨0x525d67511657d9220031586db9d41663ad592bbafc89bc763273a3c2eb0b19dc, 0x4495ae9599ca052c963c1dcaa790637bb9de8445cc197d6abd715920e463c2d7, by decide +kernel⟩]

def witL : List Lit :=
  [⟨0x4ff3c1e2a97b6bd0861a2866acecd2fd6d2e5949196429e409bfd4851339832e, 0x3aae1c53ca17b910fd85a8347cdc6939c907251f956458b2124f5250c2932d92, by decide +kernel⟩,
   ⟨0x588cfd2b401c8afd04220310e10f7ccdf1144d2ef9191ee9f72d7d44ad1cf9d0, 0x6c4ae7205c4423ed603c3bb491d4633eea1577bebc251fa9a310a57d5990f1fc, by decide +kernel⟩,
   ⟨0x0bb16d917ecdec316d38b92558d46450b21553673f38a824037716bfee067220, 0x4b85df7586d149927da4f4159e3242f958735801e66c2857eea4ce23fc2edd26, by decide +kernel⟩,
   ⟨0x2bdb51e80b9e43cc5011f4b51877f4d56232ce13035671f191bd4047baa11f3d, 0x5537b1862b91a803724a27b7d10fd6bed3d25bf3424ce8de9e74f07d320abfe5, by decide +kernel⟩,
   ⟨0x130f6822a47533ed201f5f15b144648a727217980ca9e86237977b7f0fe8f41e, 0x466e06d16fbfd8fe029eaae2197848cd69db504a6819079a26425f4c5e7e2ecc, by decide +kernel⟩,
   ⟨0x2c4b83ccd0bb8ad8d370ab8308e11c95fb2020a6a62e71c9a1c08de2d32fc9f1, 0x62a35d5c12958fdd1f729a0cb4636980927cb2890d9bcf0f0ec37d7d586a2dec, by decide +kernel⟩,
   ⟨0x4424bec140960c09fc97ee29dad2c3ff467b7e01a19ada43979c55c697b4f583, 0x56f30a3be61ba220791cd26682cf061adde28f57e35c27c5adc9bb11366ec97c, by decide +kernel⟩,
   ⟨0x5c8f76533d04c7b868e9d7fcaa901897c5f35b27552c3bf94f01951fae6fcd2a, 0x597ec931c5fba82af2ce2e64dd99f3765cc45b280d94c552da454d65662e304a, by decide +kernel⟩]

def witR : List Lit :=
  [⟨0x31cb234eeff147546cabd033235c8f446812c7f44b597d9580a10bbecac9dd82, 0x44338189f4436f2df0f864b79c676d88b4d94725b5981a6bbe3ba99f250d5578, by decide +kernel⟩,
   ⟨0x6945048c033a452d346977ab306df4df653b6e7f3e0b75a705a650427ee30e88, 0x445291f553f34609490ab6539b8cd74665d21c9b62893a5c48fa91cfc17c2b3f, by decide +kernel⟩,
   ⟨0x38ca3c4ebbee982301b6bafd55bc9e016a7c59af95e9666b56a0680ed1cd0673, 0x43c74a0386ebc1223fa4728fa71f2c373c24032c54b30d1f526db53789cdeef7, by decide +kernel⟩,
   ⟨0x16160e96b0fb20d0c9c7d9ae76ca9c74300d34e05d3688315c0062204ab0d07b, 0x5fccd5abed1a3370ee43e34c835b2237e266d4ffd5ce913853f1c1c6062d1a2c, by decide +kernel⟩,
   ⟨0x2bc96deadab15bc74546f8882d8b88c54ea0b62b04cb597bf5076fe25c53e43c, 0x3c2f358b1c646cca746cec55d6b68e91299b41e8f9cf4399b8893a3eec8e38eb, by decide +kernel⟩,
   ⟨0x301e407f62f0d1f6bf56f2e252ca89dd9f3bf09acbb0cca9230ecda24ac783b5, 0x48f20b9dd0f88406e4d203c8ac347c71c84f67f5a72171a5a1876e3310185728, by decide +kernel⟩,
   ⟨0x3ce1800a2e3f10e641f3ef8a8aaacf6573e9e33f4cb5b429850271528ed3cd31, 0x3aa540283d6278527e771d1ccb09e792344f787907ca3ef3f41e3d04f5bfee5d, by decide +kernel⟩,
   ⟨0x471b1578afbd3f2762654d04db73c6a84e9770f3d6b8a189596fbad38fffa263, 0x486c88c7a9e2357efb1e6752a7790445673970d283bb235b0734125f0e8a5d15, by decide +kernel⟩]

def witD : Lit := ⟨0x5c6e856174962f2786f0711288c8ddd90b0c317db7769ab3485818460421f08c, 0x5bf36f9d6c100a9e4cb53528552c83f695b7c56b15ae891c3d1ff2caec4953c3, by decide +kernel⟩

def wita : ZMod r := (0x07ca48ff9f0fb458967f070c18e5cdf180e93212bf3efba6378384c5703a61fe : ℕ)

/-- A query at a commitment with given coordinates. -/
structure LitQuery where
  commitment : Lit
  point : ℕ
  result : ℕ

def LitQuery.tri (q : LitQuery) : VerifierQuery (ZMod r) Tri := ⟨q.commitment.tri, (q.point : ZMod r), (q.result : ZMod r)⟩

theorem queries_R : ∀ (ls : List LitQuery) (qs : List (VerifierQuery (ZMod r) BElem)),
    qs.map (fun q => (hexE q.commitment, q.point.val, q.result.val)) = ls.map (fun l => (beNat l.commitment.tri.bytes, l.point, l.result)) →
    List.Forall₂ (VQueryRel Tri.R) (ls.map LitQuery.tri) qs
  | [], [], _ => .nil
  | [], _ :: _, h => nomatch h
  | _ :: _, [], h => nomatch h
  | l :: ls, q :: qs, h => by
    rw [List.map_cons, List.map_cons, List.cons.injEq, Prod.mk.injEq, Prod.mk.injEq] at h
    refine .cons ⟨elem_of_hex h.1.1 rfl, ?_, ?_⟩ (queries_R ls qs h.2)
    · change (l.point : ZMod r) = q.point
      rw [← h.1.2.1, ZMod.natCast_zmod_val]
    · change (l.result : ZMod r) = q.result
      rw [← h.1.2.2, ZMod.natCast_zmod_val]

def witHint : VerificationHint := ⟨[2], [.present], []⟩

def witKeys : List Key := witGo.stateDiffs.flatMap (·.keysWithCurrentValues.1)

def witValues : List (Option Value) := witGo.stateDiffs.flatMap (·.keysWithCurrentValues.2.1)

theorem toVerkleProof_of {F G : Type} {K : WireCodec F G} {V : VerkleProofGo} {de : List (ExtPresent × Byte)} {comms l r : List G} {a : F} {d : G}
    (h6 : V.depthsExtensionPresent.mapM byteToDepthExt = .ok de) (h1 : V.commitmentsByPath.mapM (fun b => K.decE b.1) = some comms)
    (h2 : V.proof.cl.mapM (fun b => K.decE b.1) = some l) (h3 : V.proof.cr.mapM (fun b => K.decE b.1) = some r)
    (h4 : K.decE V.proof.d.1 = some d) (h5 : bytes32ToScalar K V.proof.finalEvaluation = .ok a) :
    V.toVerkleProof K = .ok (some (⟨⟨de.map (·.2), de.map (·.1), BSet.ofList V.otherStems⟩, comms, ⟨⟨l, r, a⟩, d⟩⟩,
      ⟨V.stateDiffs.flatMap (·.keysWithCurrentValues.1), V.stateDiffs.flatMap (·.keysWithCurrentValues.2.1),
        V.stateDiffs.flatMap (·.keysWithCurrentValues.2.2)⟩)) := by
  unfold VerkleProofGo.toVerkleProof
  simp only [h1, h2, h3, h4, h5, h6, bind, Except.bind, List.flatMap_map]

/-- The proof, the keys and the values which the record of bytes stands for. -/
theorem witness_proof : witGo.toVerkleProof codec = .ok (some (⟨witHint, witComms.map Lit.elem, ⟨litProof witL witR wita, witD.elem⟩⟩,
    ⟨witKeys, witValues, witGo.stateDiffs.flatMap (·.keysWithCurrentValues.2.2)⟩)) := by
  have hm : ∀ (ps : List Lit) (bs : List (Bytes 32)), ps.map (fun p => p.tri.bytes) = bs.map (·.1) →
      bs.mapM (fun b => codec.decE b.1) = some (ps.map Lit.elem) := by
    intro ps
    induction ps with
    | nil =>
      intro bs h
      rw [List.map_nil, eq_comm, List.map_eq_nil_iff] at h
      subst h
      rfl
    | cons p ps ih =>
      intro bs h
      cases bs with
      | nil => nomatch h
      | cons b bs =>
        rw [List.map_cons, List.map_cons, List.cons.injEq] at h
        rw [List.mapM_cons, Lit.dec h.1, ih bs h.2]
        rfl
  have h1 := hm witComms witGo.commitmentsByPath (by decide +kernel)
  have h2 := hm witL witGo.proof.cl (by decide +kernel)
  have h3 := hm witR witGo.proof.cr (by decide +kernel)
  have h4 : codec.decE witGo.proof.d.1 = some witD.elem := Lit.dec (by decide +kernel)
  have h5 : bytes32ToScalar codec witGo.proof.finalEvaluation = .ok wita := by
    unfold bytes32ToScalar
    rw [show witGo.proof.finalEvaluation.1.reverse = codec.encS wita by decide +kernel, codec.dec_encS]
    rfl
  have h6 : witGo.depthsExtensionPresent.mapM byteToDepthExt = .ok [(ExtPresent.present, 2)] := by decide +kernel
  exact toVerkleProof_of h6 h1 h2 h3 h4 h5

/-- The queries which the verifier derives. -/
def witQueries : List LitQuery :=
  [⟨witRootLit, 171, 12904675435089486722679583952080693823912355417928051444916815619519305155770⟩,
   ⟨witComms[0], 143, 7963371583574642956149883357237301992999506491873025451022533180088258155895⟩,
   ⟨witComms[1], 0, 1⟩,
   ⟨witComms[1], 1, 104693011739911812430614185046134930949898706544885507377645703344791916459⟩,
   ⟨witComms[1], 2, 309622928673284121712007188004417871074578113187226091294710012497503761029⟩,
   ⟨witComms[2], 194, 0⟩,
   ⟨witComms[2], 195, 0⟩]

theorem queries_of {x : Res (Option (List (VerifierQuery (ZMod r) BElem) × UpdateHint BElem))} {ls : List LitQuery} (hne : ls ≠ [])
    (key : (match x with
      | .ok (some (qs, _)) => qs.map (fun (q : VerifierQuery (ZMod r) BElem) => (hexE q.commitment, q.point.val, q.result.val))
      | _ => []) = ls.map (fun l => (beNat l.commitment.tri.bytes, l.point, l.result))) :
    ∃ qs h, x = .ok (some (qs, h)) ∧ List.Forall₂ (VQueryRel Tri.R) (ls.map LitQuery.tri) qs := by
  rcases x with e | (_ | ⟨qs, hint⟩)
  · exact absurd (List.map_eq_nil_iff.1 key.symm) hne
  · exact absurd (List.map_eq_nil_iff.1 key.symm) hne
  · exact ⟨qs, hint, rfl, queries_R _ _ key⟩

theorem witness_queries : ∃ qs h, createVerifierQueries crypto witHint (witComms.map Lit.elem) witKeys witValues witRootLit.elem = .ok (some (qs, h)) ∧
    List.Forall₂ (VQueryRel Tri.R) (witQueries.map LitQuery.tri) qs :=
  queries_of (by simp [witQueries]) (by decide +kernel)

/-- The verifier's answer on the proof with these coordinates. -/
def acceptsTri (L R : List Lit) (a : ZMod r) (D : Lit) (ls : List LitQuery) (t : Transcript) : Bool :=
  match pCheckMulti natOps ⟨triProof L R a, D.tri⟩ crsT tables (ls.map LitQuery.tri) t with
  | .ok (b, _) => b
  | .error _ => false

theorem witness_opening : acceptsTri witL witR wita witD witQueries (newTranscript (lbl "vt")) = true := by decide +kernel

theorem check_of_tri {L R : List Lit} {a : ZMod r} {D : Lit} {ls : List LitQuery} {qs : List (VerifierQuery (ZMod r) BElem)}
    {t : Transcript} (hq : List.Forall₂ (VQueryRel Tri.R) (ls.map LitQuery.tri) qs) (h : acceptsTri L R a D ls t = true) :
    ∃ v, checkMulti shaOracle ⟨litProof L R a, D.elem⟩ crsE tables qs t = .ok v ∧ v.1 = true := by
  unfold acceptsTri at h
  rw [natOps_sound.checkMulti_rel (p' := ⟨litProof L R a, D.elem⟩) ⟨proof_R _ _ _, D.R⟩ crs_R tables hq] at h
  rcases hv : checkMulti shaOracle ⟨litProof L R a, D.elem⟩ crsE tables qs t with e | v
  · rw [hv] at h
    nomatch h
  · rw [hv] at h
    refine ⟨v, rfl, ?_⟩
    exact h

theorem verifyExecutionWitness_of {F G : Type} [Field F] [DecidableEq F] [AddCommGroup G] [DecidableEq G] [Module F G] {O : Oracle F G} {C : Crypto F G}
    {Q : G} {order : List (ProverQuery F G) → List ℕ} {w : Json.ExecutionWitness} {V : VerkleProofGo} {p : VerkleProof G (MultiProof F G)}
    {kv : KeysValues} {root : List Char} {rootB : Bytes 32} {rootE : G} {qs : List (VerifierQuery F G)} {hint : UpdateHint G}
    {v : Bool × Transcript} {W : Weights F} (hW : Weights.new F 256 = .ok W) (h1 : fromJson w = .ok V)
    (h2 : V.toVerkleProof O.K = .ok (some (p, kv))) (h3 : hexToArray 32 root = .ok rootB) (h4 : O.K.decE rootB.1 = some rootE)
    (h5 : createVerifierQueries C p.hint p.comms kv.keys kv.currentValues rootE = .ok (some (qs, hint)))
    (h6 : checkMulti O p.proof (crsOf C Q) W qs (newTranscript (lbl "vt")) = .ok v) :
    verifyExecutionWitness O C Q order root w = .ok v.1 := by
  unfold verifyExecutionWitness Proof.check multiOpener
  simp only [h1, h2, h3, h4, h5, h6, hW, bind, Except.bind]

theorem witness_root : hexToArray 32 witRoot = .ok (bytesN 32 (beNat witRootLit.tri.bytes)) := by decide +kernel

theorem witness_root_dec : codec.decE (bytesN 32 (beNat witRootLit.tri.bytes)).1 = some witRootLit.elem := Lit.dec (by decide +kernel)

theorem exec_witness_works (order : List (ProverQuery (ZMod r) BElem) → List ℕ) :
    verifyExecutionWitness shaOracle crypto (genPt : BElem) order witRoot witness = .ok true := by
  obtain ⟨qs, hint, hq, hr⟩ := witness_queries
  obtain ⟨v, hv, hv1⟩ := check_of_tri hr witness_opening
  have := verifyExecutionWitness_of (O := shaOracle) (order := order) weights_eq witness_bytes witness_proof witness_root witness_root_dec hq hv
  rwa [hv1] at this

end Verif.Vectors
