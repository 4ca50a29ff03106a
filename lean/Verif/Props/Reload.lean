import Verif.Bander.Torsion
import Verif.Db.Points
import Verif.Props.Db
import Verif.Props.Msm

/-!
# C61: reading node records back from disk, on points

The records hold points, written uncompressed; the decoder accepts a point only if it lies in the subgroup of order `r`
(`Bander/Torsion.lean`).  The trie is run on points here: `BPt` with multiples by canonical integers.
-/

set_option autoImplicit false

namespace Verif.Props
open Verif.Trie Verif.Db Verif.Bander Verif.Msm

/-! ### Exactly which records can be read -/

section
variable {F G : Type} (K : NodeCodec F G)
open scoped Classical

/-- Every read from disk, without any assumption on the records: a stem record is returned if its three points pass the
decoder's validation and the read panics otherwise; likewise for branch records; stem pointers are always returned. -/
theorem C61_reads (disk : Rows) (db : MemoryDb F G) (hr : Represents K disk db) :
    (∀ s, fetchStem K disk s = match db.stem s with
      | none => .ok none
      | some m => if K.valid m.c1 ∧ K.valid m.c2 ∧ K.valid m.stemComm then .ok (some m) else .error "from_bytes(..).unwrap()")
    ∧ (∀ p i, fetchChild K disk p i = match db.branch (p ++ [i]) with
      | none => .ok none
      | some (.stem s) => .ok (some (.stem s))
      | some (.branch m) => if K.valid m.comm then .ok (some (.branch m)) else .error "from_bytes(..).unwrap()")
    ∧ (∀ p m, db.branch p = some (.branch m) →
        fetchBranchMeta K disk p = if K.valid m.comm then .ok (some m) else .error "from_bytes(..).unwrap()") := by
  refine ⟨fun s => ?_, fun p i => ?_, fun p m hm => ?_⟩
  · have := hr (.stem s)
    simp only [Item.row, itemBytes] at this
    unfold fetchStem
    rw [this]
    cases h : db.stem s with
    | none => rfl
    | some m =>
      simp only [Option.map_some]
      rw [C14_stem_round_trip]
      by_cases hv : K.valid m.c1 ∧ K.valid m.c2 ∧ K.valid m.stemComm
      · rw [if_pos hv, if_pos hv]; rfl
      · rw [if_neg hv, if_neg hv]; rfl
  · have := hr (.branch (p ++ [i]))
    simp only [Item.row, itemBytes] at this
    unfold fetchChild
    rw [this]
    cases h : db.branch (p ++ [i]) with
    | none => rfl
    | some c =>
      cases c with
      | stem s => simp only [Option.map_some]; rw [(C14_child_round_trip K).1]; rfl
      | branch m =>
        simp only [Option.map_some]
        rw [(C14_child_round_trip K).2]
        by_cases hv : K.valid m.comm
        · rw [if_pos hv, if_pos hv]; rfl
        · rw [if_neg hv, if_neg hv]; rfl
  · have := hr (.branch p)
    simp only [Item.row, itemBytes] at this
    unfold fetchBranchMeta
    rw [this, hm]
    simp only [Option.map_some, childToBytes]
    rw [C14_branch_round_trip]
    by_cases hv : K.valid m.comm
    · rw [if_pos hv, if_pos hv]; rfl
    · rw [if_neg hv, if_neg hv]; rfl

end

/-! ### The committer on points -/

theorem scales_pt : Scales (ZMod r) BPt 16 := by
  intro i hi p
  have hi : i ≤ 15 := by
    have : modulusBits / 16 + 1 = 16 := by decide
    omega
  rw [smul_pt, windowScalar_eq (by norm_num)]
  congr 1
  have : ((2 : ZMod r) ^ 16) ^ i = (((2 ^ 16) ^ i : ℕ) : ZMod r) := by rw [Nat.cast_pow, Nat.cast_pow, Nat.cast_ofNat]
  rw [this, ZMod.val_natCast, Nat.mod_eq_of_lt]
  calc (2 ^ 16) ^ i ≤ (2 ^ 16) ^ 15 := Nat.pow_le_pow_right (by norm_num) hi
    _ < r := by decide +kernel

theorem r_lt253 : r < 2 ^ 253 := by decide +kernel

/-- The committer of the code, run on the points of the default reference string, returns the point `Σ vᵢ Gᵢ` with the
canonical integers of the scalars, whichever of its strategies is picked. -/
theorem C61_committer : ∃ D, Committer.new (ZMod r) crsPts.dropLast = .ok D ∧
    (∀ v : List (ZMod r), D.commitLagrange ZMod.val v = .ok ((v.zip crsPts.dropLast).map fun x => x.1.val • x.2).sum) ∧
    (∀ (a : ZMod r) (i : Byte), D.scalarMul ZMod.val a i.val = .ok (ptCrypto.scalarMul a i.val)) := by
  obtain ⟨D, hD, h1, h2, -⟩ := dispatch_of (F := ZMod r) (G := BPt) (rep := ZMod.val) (fun a => lt_trans (ZMod.val_lt a) r_lt253)
    (fun _ _ => rfl) (fun p => by rw [smul_pt, ZMod.val_zero, zero_nsmul]) scales_pt (points := crsPts.dropLast)
    (by rw [List.length_dropLast, crsPts_length]; norm_num)
  refine ⟨D, hD, h1, fun a i => ?_⟩
  have hi : i.val < crsPts.dropLast.length := by
    rw [List.length_dropLast, crsPts_length]
    exact i.isLt
  rw [h2, List.getElem?_eq_getElem hi]
  show _ = Except.ok (a • crsPts.dropLast.getD i.val 0)
  rw [List.getD_eq_getElem?_getD, List.getElem?_eq_getElem hi]
  rfl

/-- The points commitments are made of: 126 of the 256 generators are outside the subgroup, the first among them. -/
theorem C61_generators (i : Byte) : r • ptCrypto.g i.val = 0 ↔ crsOddBits.testBit i.val = false := by
  rw [← par_zero_iff, ptCrypto_par i.isLt]
  cases crsOddBits.testBit i.val <;> simp

/-- A commitment computed by the code can be read back exactly if the scalars at the generators outside the subgroup have an even
sum (as integers below `r`). -/
theorem C61_commitment_readable (V : PointCheck) (v : List (ZMod r)) (hv : v.length ≤ 256) :
    decPt V (encPt ((v.zip crsPts.dropLast).map fun x => x.1.val • x.2).sum) =
      if Even ((v.zipIdx.map fun x => if crsOddBits.testBit x.2 then x.1.val else 0).sum)
      then some ((v.zip crsPts.dropLast).map fun x => x.1.val • x.2).sum else none := by
  classical
  rw [decPt_encPt]
  congr 1
  rw [eq_iff_iff, ← par_zero_iff, par_sum, List.map_map, ← ZMod.natCast_eq_zero_iff_even]
  have key : ∀ (v : List (ZMod r)) (off : ℕ), off + v.length ≤ 256 →
      ((v.zip (crsPts.dropLast.drop off)).map (par ∘ fun x => x.1.val • x.2)).sum =
      (((v.zipIdx off).map fun x => if crsOddBits.testBit x.2 then x.1.val else 0).sum : ℕ) := by
    intro v
    induction v with
    | nil => intro off _; simp
    | cons a v ih =>
      intro off h
      rw [List.length_cons] at h
      have hl : off < crsPts.dropLast.length := by rw [List.length_dropLast, crsPts_length]; omega
      have hg := ptCrypto_par (i := off) (by omega)
      have hg' : ptCrypto.g off = crsPts.dropLast[off] := by
        show crsPts.dropLast.getD off 0 = _
        rw [List.getD_eq_getElem?_getD, List.getElem?_eq_getElem hl]
        rfl
      rw [List.drop_eq_getElem_cons hl, List.zip_cons_cons, List.map_cons, List.sum_cons, ih (off + 1) (by omega), List.zipIdx_cons,
        List.map_cons, List.sum_cons, Function.comp_apply, par_nsmul, ← hg', hg]
      push_cast
      cases crsOddBits.testBit off <;> simp
  have := key v 0 (by omega)
  rw [List.drop_zero] at this
  rw [this]

/-! ### What the trie writes -/

theorem leNat_par (b : Byte) (l : List Byte) : ((leNat (b :: l) : ℕ) : ZMod 2) = (b.val : ZMod 2) := by
  have : ((256 : ℕ) : ZMod 2) = 0 := by decide
  rw [leNat]
  push_cast
  rw [show (256 : ZMod 2) = 0 from this]
  simp

/-- The first byte of a half of a value decides the parity of its scalar. -/
theorem low_par (v : Value) : (((frLe (ZMod r) (v.1.take 16) + twoPow128 (ZMod r) - 0).val : ℕ) : ZMod 2) = ((v.1[0]'(by simp [v.2])).val : ZMod 2) := by
  obtain ⟨l, hl⟩ := v
  match l, hl with
  | b :: l, hl =>
    have h1 : leNat ((b :: l).take 16) < 256 ^ 16 := by
      have := Wire.leNat_lt ((b :: l).take 16)
      rwa [List.length_take, hl] at this
    have h2 : frLe (ZMod r) ((b :: l).take 16) + twoPow128 (ZMod r) - 0 = ((leNat ((b :: l).take 16) + 2 ^ 128 : ℕ) : ZMod r) := by
      rw [sub_zero, frLe, twoPow128, Nat.cast_add]
    rw [h2, ZMod.val_natCast, Nat.mod_eq_of_lt, Nat.cast_add, List.take_succ_cons, leNat_par]
    · have : ((2 ^ 128 : ℕ) : ZMod 2) = 0 := by decide +kernel
      rw [this, add_zero]
      rfl
    · calc leNat ((b :: l).take 16) + 2 ^ 128 < 256 ^ 16 + 2 ^ 128 := by omega
        _ < r := by decide +kernel

theorem high_par (v : Value) : (((frLe (ZMod r) (v.1.drop 16) - 0).val : ℕ) : ZMod 2) = ((v.1[16]'(by simp [v.2])).val : ZMod 2) := by
  obtain ⟨l, hl⟩ := v
  have hl16 : 16 < l.length := by omega
  have h1 : leNat (l.drop 16) < 256 ^ 16 := by
    have := Wire.leNat_lt (l.drop 16)
    rwa [List.length_drop, hl] at this
  rw [sub_zero, frLe, ZMod.val_natCast, Nat.mod_eq_of_lt, List.drop_eq_getElem_cons hl16, leNat_par]
  exact lt_trans h1 (by decide +kernel)

/-- The parity of the half commitment after the first write to a stem: decided by the suffix and by two bytes of the value. -/
def firstPar (k : Key) (v : Value) : ZMod 2 :=
  (v.1[0]'(by simp [v.2])).val * (if crsOddBits.testBit (2 * (k.suffix.val % 128)) then (1 : ZMod 2) else 0) +
    (v.1[16]'(by simp [v.2])).val * (if crsOddBits.testBit (2 * (k.suffix.val % 128) + 1) then (1 : ZMod 2) else 0)

/-- Whatever the state of the database: the record written for a stem which had none holds a half commitment of parity
`firstPar`. -/
theorem C61_first_write (db : VerkleDb (ZMod r) BPt) (k : Key) (v : Value) (depth : ℕ) (h : db.getStemMeta k.stem = none) :
    ∃ m, (updateStemTable ptCrypto db ⟨none, v, k⟩ depth).1.batch.stem k.stem = some m ∧
      par (if k.suffix.val < 128 then m.c1 else m.c2) = firstPar k v := by
  have hs : k.suffix.val % 128 < 128 := Nat.mod_lt _ (by norm_num)
  have hp : prevStem ptCrypto db k.stem =
      (0, ptCrypto.h 0, 0, ptCrypto.h 0, ptCrypto.g 0 + ptCrypto.scalarMul (frLe (ZMod r) k.stem.1) 1, none) := by
    unfold prevStem
    have h : HigherDb.getStemMeta db k.stem = none := h
    rw [h]
  have hpar : par (0 + ptCrypto.scalarMul (frLe (ZMod r) (v.1.take 16) + twoPow128 (ZMod r) - 0) (2 * (k.suffix.val % 128)) +
      ptCrypto.scalarMul (frLe (ZMod r) (v.1.drop 16) - 0) (2 * (k.suffix.val % 128) + 1)) = firstPar k v := by
    rw [zero_add, par_add, Crypto.scalarMul, Crypto.scalarMul, par_smul, par_smul, low_par, high_par,
      ptCrypto_par (by omega), ptCrypto_par (by omega), firstPar]
  by_cases h128 : k.suffix.val < 128
  · refine ⟨_, Function.update_self _ _ _, ?_⟩
    simp only [oldHalves, hp, if_pos h128]
    exact hpar
  · refine ⟨_, Function.update_self _ _ _, ?_⟩
    simp only [oldHalves, hp, if_neg h128]
    exact hpar

/-- The database after one insertion. -/
def oneEntry {F G : Type} [Field F] [AddCommGroup G] [SMul F G] (C : Crypto F G) (k : Key) (v : Value) : VerkleDb F G × StemUpdated F :=
  updateStemTable C (VerkleDb.insertLeaf (VerkleDb.insertBranch VerkleDb.new [] (BranchMeta.zero F G) 0).1 k v 1).1 ⟨none, v, k⟩ 1

/-- The trie with one entry, written to disk: its two records. -/
theorem single_run {F G : Type} [Field F] [AddCommGroup G] [SMul F G] (C : Crypto F G) (k : Key) (v : Value) :
    ∃ db m b, runV C [.ins k v, .flush] = .ok db ∧ db.batch = .new ∧
    db.storage.stem k.stem = some m ∧ db.storage.branch [] = some (.branch b) ∧
    (oneEntry C k v).1.batch.stem k.stem = some m ∧
    b.comm = (0 : G) + C.scalarMul (m.hashStem - 0) (k.1[0]'(by simp [k.2])).val := by
  obtain ⟨m, hm, hn⟩ : ∃ m, (oneEntry C k v).1.batch.stem k.stem = some m ∧ (oneEntry C k v).2.newVal = m.hashStem :=
    ⟨_, Function.update_self _ _ _, rfl⟩
  have ho : (oneEntry C k v).2.oldVal = none := rfl
  obtain ⟨l, hl⟩ := k
  match l, hl with
  | i :: l, hl =>
    refine ⟨_, m, _, rfl, rfl, ?_, rfl, hm, ?_⟩
    · change VerkleDb.overlay _ _ _ = _
      unfold VerkleDb.overlay
      change ((oneEntry C ⟨i :: l, hl⟩ v).1.batch.stem _).orElse _ = _
      rw [hm]
      rfl
    · rw [← hn]
      rfl

/-! ### Stem records which cannot be read -/

theorem fresh_stem {F G : Type} [Field F] [AddCommGroup G] [SMul F G] (k : Key) (v : Value) :
    (VerkleDb.insertLeaf (VerkleDb.insertBranch VerkleDb.new [] (BranchMeta.zero F G) 0).1 k v 1).1.getStemMeta k.stem = none := rfl

/-- A trie with a single entry, written to disk: whenever `firstPar` is 1 the record of its stem cannot be read back; the read
panics, whatever checks arkworks' decoder uses to recognise the subgroup. -/
theorem C61_stem_unreadable (k : Key) (v : Value) (hp : firstPar k v = 1) :
    ∃ db, runV ptCrypto [.ins k v, .flush] = .ok db ∧ db.batch = .new ∧
      ∀ (V : PointCheck) (disk : Rows), Represents (ptCodec V) disk db.storage →
        fetchStem (ptCodec V) disk k.stem = .error "from_bytes(..).unwrap()" := by
  obtain ⟨db, m, b, h1, h2, h3, -, h5, -⟩ := single_run ptCrypto k v
  refine ⟨db, h1, h2, fun V disk hr => ?_⟩
  rw [(C61_reads (ptCodec V) disk db.storage hr).1, h3]
  obtain ⟨m', hm', hpar⟩ := C61_first_write _ k v 1 (fresh_stem k v)
  cases h5.symm.trans hm'
  rw [hp] at hpar
  refine if_neg fun hv => ?_
  have hv1 : par m.c1 = 0 := par_zero_iff.2 hv.1
  have hv2 : par m.c2 = 0 := par_zero_iff.2 hv.2.1
  rw [apply_ite par, hv1, hv2, ite_self] at hpar
  exact absurd hpar (by decide)

/-- An instance: first byte odd, suffix 0. -/
example : firstPar (keyOf [] 0) (valOf 1) = 1 := by decide +kernel
/-- ... and with the even first byte the half commitment is readable. -/
example : firstPar (keyOf [] 0) (valOf 2) = 0 := by decide +kernel

/-! ### A trie which cannot be reopened -/

theorem rep_gen {i : ℕ} (hi : i < 256) : Rep (ptCrypto.g i) (entryX (crsHex.getD i 0)) (entryY (crsHex.getD i 0)) 1 := by
  have hl : i < crsHex.length := by rw [crs_len]; omega
  have hm : crsHex[i] ∈ crsHex := List.getElem_mem hl
  have e : ptCrypto.g i = entryPt _ _ (crs_entry hm) := by
    rw [ptCrypto_g hi]
    unfold crsPts
    simp [List.getD_eq_getElem?_getD, hl]
  have e2 : crsHex.getD i 0 = crsHex[i] := by simp [List.getD_eq_getElem?_getD, hl]
  rw [e, e2]
  exact ⟨by simp, by rw [Nat.cast_one, mul_one]; rfl, by rw [Nat.cast_one, mul_one]; rfl⟩

theorem hash_rep {p : BPt} {X Y Z : ℕ} (h : Rep p X Y Z) (w : ℕ) (hw : w < q) (e : X % q = w * Y % q) : ptCrypto.h p = (w : ZMod r) := by
  obtain ⟨hz, hx, hy⟩ := h
  have e := (ZMod.natCast_eq_natCast_iff' _ _ _).2 e
  rw [Nat.cast_mul, ← hx, ← hy, ← mul_assoc] at e
  have hy0 : p.y ≠ 0 := good.y_ne p.on
  have hr : Elem.ratio (p : BElem) = (w : ZMod q) := by
    rw [Elem.ratio_mk, div_eq_iff hy0]
    exact mul_right_cancel₀ hz e
  show Elem.hash (ZMod r) (p : BElem) = _
  unfold Elem.hash frLe serFq
  rw [hr, ZMod.val_natCast, Nat.mod_eq_of_lt hw, Wire.leNat_leBytes, Nat.mod_eq_of_lt]
  exact lt_of_lt_of_le hw (by decide +kernel)

/-- The record of a stem with one entry in its first half. -/
theorem one_stem {F G : Type} [Field F] [AddCommGroup G] [SMul F G] (C : Crypto F G) (k : Key) (v : Value) (hk : k.suffix.val < 128)
    {m : StemMeta F G} (hm : (oneEntry C k v).1.batch.stem k.stem = some m) :
    m.c1 = 0 + C.scalarMul (frLe F (v.1.take 16) + twoPow128 F - 0) (2 * (k.suffix.val % 128)) +
        C.scalarMul (frLe F (v.1.drop 16) - 0) (2 * (k.suffix.val % 128) + 1) ∧
    m.stemComm = C.g 0 + C.scalarMul (frLe F k.stem.1) 1 + C.scalarMul (C.h m.c1 - C.h 0) 2 ∧
    m.hashStem = C.h m.stemComm := by
  have hp : prevStem C (VerkleDb.insertLeaf (VerkleDb.insertBranch VerkleDb.new [] (BranchMeta.zero F G) 0).1 k v 1).1 k.stem =
      (0, C.h 0, 0, C.h 0, C.g 0 + C.scalarMul (frLe F k.stem.1) 1, none) := rfl
  have h : (oneEntry C k v).1.batch.stem k.stem = some _ := Function.update_self _ _ _
  rw [hm] at h
  cases h
  simp only [hp, if_pos hk, oldHalves]
  exact ⟨trivial, trivial, trivial⟩

/-- The hash of the half commitment `(2^128 + 1) G0`. -/
theorem hash_c1 : ptCrypto.h ((2 ^ 128 + 1) • ptCrypto.g 0) =
    (31880229125820183039825254280445494428528366748581927177776907717176688820536 : ℕ) := by
  have h0 : Rep (0 : BPt) 0 1 1 := ⟨by simp, by simp, by simp⟩
  have h := rep_ladder 253 (ptCrypto.g 0) 0 _ _ _ _ _ _ (2 ^ 128 + 1) (by decide +kernel) (rep_gen (by norm_num)) h0
  rw [zero_add] at h
  exact hash_rep h _ (by decide +kernel) (by decide +kernel)

/-- The hash of the stem commitment `G0 + h G2`. -/
theorem hash_stem : ptCrypto.h (ptCrypto.g 0 + 5662291538257087800101384026352511509910054961700786674204101103717313474934 • ptCrypto.g 2) =
    (25227638211390427507331598329956678979975958343218411780139797711931237958504 : ℕ) := by
  have h := rep_ladder 253 (ptCrypto.g 2) (ptCrypto.g 0) _ _ _ _ _ _
    5662291538257087800101384026352511509910054961700786674204101103717313474934 (by decide +kernel) (rep_gen (by norm_num))
    (rep_gen (by norm_num))
  exact hash_rep h _ (by decide +kernel) (by decide +kernel)

/-- The root of a trie with one entry can be read back exactly if the hash of the stem is even or the generator of the key's first
byte is in the subgroup. -/
theorem C61_single_root (k : Key) (v : Value) :
    ∃ db m b, runV ptCrypto [.ins k v, .flush] = .ok db ∧ db.storage.stem k.stem = some m ∧
      (oneEntry ptCrypto k v).1.batch.stem k.stem = some m ∧
      ∀ (V : PointCheck) (disk : Rows), Represents (ptCodec V) disk db.storage →
        fetchBranchMeta (ptCodec V) disk [] =
          if Even m.hashStem.val ∨ crsOddBits.testBit (k.1[0]'(by simp [k.2])).val = false then .ok (some b)
          else .error "from_bytes(..).unwrap()" := by
  classical
  obtain ⟨db, m, b, h1, -, h3, h4, h5, h6⟩ := single_run ptCrypto k v
  refine ⟨db, m, b, h1, h3, h5, fun V disk hr => ?_⟩
  rw [(C61_reads (ptCodec V) disk db.storage hr).2.2 [] b h4]
  have : (ptCodec V).valid b.comm ↔ (Even m.hashStem.val ∨ crsOddBits.testBit (k.1[0]'(by simp [k.2])).val = false) := by
    show r • b.comm = 0 ↔ _
    rw [← par_zero_iff, h6, zero_add, Crypto.scalarMul, par_smul, ptCrypto_par (Fin.isLt _), sub_zero, mul_eq_zero,
      ZMod.natCast_eq_zero_iff_even]
    cases crsOddBits.testBit _ <;> simp
  by_cases h : (ptCodec V).valid b.comm
  · rw [if_pos h, if_pos (this.1 h)]
  · rw [if_neg h, if_neg fun h' => h (this.2 h')]

/-- One entry is enough: key zero, value one.  The root record written to disk is refused by the decoder, so `Trie::new` on the
reopened database, which reads it first (`/repo/verkle-trie/src/trie.rs:131-149`), panics. -/
theorem C61_reopen_panics :
    ∃ db, runV ptCrypto [.ins (keyOf [] 0) (valOf 1), .flush] = .ok db ∧
      ∀ (V : PointCheck) (disk : Rows), Represents (ptCodec V) disk db.storage →
        fetchBranchMeta (ptCodec V) disk [] = .error "from_bytes(..).unwrap()" := by
  obtain ⟨db, m, b, h1, -, h5, h⟩ := C61_single_root (keyOf [] 0) (valOf 1)
  refine ⟨db, h1, fun V disk hr => ?_⟩
  rw [h V disk hr]
  obtain ⟨e1, e2, e3⟩ := one_stem ptCrypto (keyOf [] 0) (valOf 1) (by decide) h5
  have z : (((0 : ZMod r)).val : ℕ) = 0 := ZMod.val_zero
  have v1 : frLe (ZMod r) ((valOf 1).1.take 16) + twoPow128 (ZMod r) - 0 = ((2 ^ 128 + 1 : ℕ) : ZMod r) := by
    have : leNat ((valOf 1).1.take 16) = 1 := by decide +kernel
    rw [frLe, this, twoPow128, sub_zero, ← Nat.cast_add, add_comm]
  have v2 : frLe (ZMod r) ((valOf 1).1.drop 16) - 0 = 0 := by
    have : leNat ((valOf 1).1.drop 16) = 0 := by decide +kernel
    rw [frLe, this, Nat.cast_zero, sub_zero]
  have v3 : frLe (ZMod r) (keyOf [] 0).stem.1 = 0 := by
    have : leNat (keyOf [] 0).stem.1 = 0 := by decide +kernel
    rw [frLe, this, Nat.cast_zero]
  have s0 : ((keyOf [] 0).suffix.val % 128) = 0 := by decide
  have c1 : m.c1 = (2 ^ 128 + 1) • ptCrypto.g 0 := by
    rw [e1, v1, v2, s0, Crypto.scalarMul, Crypto.scalarMul, smul_pt, smul_pt, z, zero_nsmul, add_zero, zero_add, ZMod.val_natCast,
      Nat.mod_eq_of_lt (by decide +kernel)]
  have c2 : m.stemComm = ptCrypto.g 0 + 5662291538257087800101384026352511509910054961700786674204101103717313474934 • ptCrypto.g 2 := by
    rw [e2, v3, c1, hash_c1, ptCrypto.h_zero, sub_zero, Crypto.scalarMul, Crypto.scalarMul, smul_pt, smul_pt, z, zero_nsmul, add_zero,
      ZMod.val_natCast]
    congr 2
    decide +kernel
  rw [c2, hash_stem] at e3
  rw [e3]
  refine if_neg ?_
  rw [ZMod.val_natCast]
  rintro (h | h)
  · exact absurd h (by decide +kernel)
  · exact absurd h (by decide +kernel)

/-- Tables can always be laid out on a disk, so the statements about all disks holding the tables are not empty. -/
theorem exists_disk {F G : Type} (K : NodeCodec F G) (db : MemoryDb F G) : ∃ disk, Represents K disk db := by
  classical
  refine ⟨fun row => if h : ∃ it : Item, it.row = row then itemBytes K db h.choose else none, fun it => ?_⟩
  have h : ∃ it' : Item, it'.row = it.row := ⟨it, rfl⟩
  simp only [dif_pos h]
  rw [C13_rows_never_collide _ _ h.choose_spec]

/-- **C61 fails.**  Full claim: whatever was inserted before a flush, the records on disk can be read back. -/
theorem C61_full_claim_false (V : PointCheck) :
    ¬ ∀ (ops : List Op) (db : VerkleDb (ZMod r) BPt) (disk : Rows), runV ptCrypto (ops ++ [.flush]) = .ok db →
      Represents (ptCodec V) disk db.storage →
        (∀ s, fetchStem (ptCodec V) disk s = .ok (db.storage.stem s)) ∧
        (∀ p m, db.storage.branch p = some (.branch m) → fetchBranchMeta (ptCodec V) disk p = .ok (some m)) := by
  intro h
  obtain ⟨db, h1, -, h2⟩ := C61_stem_unreadable (keyOf [] 0) (valOf 1) (by decide +kernel)
  obtain ⟨disk, hd⟩ := exists_disk (ptCodec V) db.storage
  have := (h [.ins (keyOf [] 0) (valOf 1)] db disk h1 hd).1 (keyOf [] 0).stem
  rw [h2 V disk hd] at this
  cases this

/-- **C14 fails on points**: a stem record holding the first generator does not survive encoding and decoding.  (Records the trie
writes which do not: `C61_stem_unreadable`.) -/
theorem C14_full_claim_false (V : PointCheck) :
    ¬ ∀ m : StemMeta (ZMod r) BPt, stemFromBytes (ptCodec V) (stemToBytes (ptCodec V) m) = .ok (some m) := by
  intro h
  have h := h ⟨ptCrypto.g 0, 0, 0, 0, 0, 0⟩
  rw [C14_stem_round_trip, if_neg] at h
  · cases h
  · rintro ⟨hv, -⟩
    exact absurd ((C61_generators 0).1 hv) (by decide +kernel)

/-- **C14** (part that holds).  Full claim: every record decodes to itself.  It holds for child pointers to stems, and for records all of
whose points are in the subgroup. -/
theorem C14_round_trip_partial (V : PointCheck) :
    (∀ m : StemMeta (ZMod r) BPt, r • m.c1 = 0 → r • m.c2 = 0 → r • m.stemComm = 0 →
      stemFromBytes (ptCodec V) (stemToBytes (ptCodec V) m) = .ok (some m)) ∧
    (∀ m : BranchMeta (ZMod r) BPt, r • m.comm = 0 →
      branchFromBytes (ptCodec V) (branchToBytes (ptCodec V) m) = .ok (some m)) ∧
    (∀ s, childFromBytes (ptCodec V) (childToBytes (ptCodec V) (.stem s)) = .ok (some (.stem s))) :=
  ⟨fun m h1 h2 h3 => by
      have h : (ptCodec V).valid m.c1 ∧ (ptCodec V).valid m.c2 ∧ (ptCodec V).valid m.stemComm := ⟨h1, h2, h3⟩
      rw [C14_stem_round_trip, if_pos h],
    fun m h => by
      have h : (ptCodec V).valid m.comm := h
      rw [C14_branch_round_trip, if_pos h], (C14_child_round_trip (ptCodec V)).1⟩

/-- Records which meet the hypotheses: with the second generator. -/
example : r • ptCrypto.g 1 = 0 ∧ ptCrypto.g 1 ≠ 0 := by
  refine ⟨(C61_generators 1).2 (by decide +kernel), fun h => ?_⟩
  obtain ⟨-, hx, -⟩ := rep_gen (i := 1) (by norm_num)
  rw [h] at hx
  have hx : (0 : ZMod q) * ((1 : ℕ) : ZMod q) = _ := hx
  rw [zero_mul, eq_comm, ZMod.natCast_eq_zero_iff] at hx
  exact absurd hx (by decide +kernel)

/-- The points of the subgroup. -/
def subgroupR : AddSubgroup BPt where
  carrier := {p | r • p = 0}
  zero_mem' := nsmul_zero r
  add_mem' {x y} hx hy := by
    show r • (x + y) = 0
    rw [nsmul_add, show r • x = 0 from hx, show r • y = 0 from hy, add_zero]
  neg_mem' {x} hx := by
    show r • (-x) = 0
    rw [smul_neg, show r • x = 0 from hx, neg_zero]

/-- **C61** (part that holds).  If all generators are in the subgroup of order `r`, then after any operations every record of the
flushed disk can be read back.  The default reference string does not meet this. -/
theorem C61_readable_partial (C : Crypto (ZMod r) BPt) (hC : ∀ i, r • C.g i = 0) (V : PointCheck) (ops : List Op)
    (db : VerkleDb (ZMod r) BPt) (disk : Rows) (h : runV C (ops ++ [.flush]) = .ok db) (hr : Represents (ptCodec V) disk db.storage) :
    (∀ s, fetchStem (ptCodec V) disk s = .ok (db.storage.stem s)) ∧
    (∀ p i, fetchChild (ptCodec V) disk p i = .ok (db.storage.branch (p ++ [i]))) ∧
    (∀ p m, db.storage.branch p = some (.branch m) → fetchBranchMeta (ptCodec V) disk p = .ok (some m)) := by
  have hS : Closed (subgroupR) C := ⟨hC, fun a p hp => by
    show r • (a • p) = 0
    rw [smul_pt, r_nsmul, show r • p = 0 from hp, nsmul_zero]⟩
  have key : ∀ (ops : List Op) {v v' : VerkleDb (ZMod r) BPt}, AllIn subgroupR v → runOps C v ops = .ok v' → AllIn subgroupR v' := by
    intro ops
    induction ops with
    | nil => intro v v' h hr; cases hr; exact h
    | cons o ops ih =>
      intro v v' h hr
      cases o with
      | flush => exact ih h.flush hr
      | ins k x =>
        obtain ⟨v1, h1, h2⟩ := bind_ok hr
        exact ih (insert_in hS _ h h1) h2
      | reopen =>
        obtain ⟨v1, h1, h2⟩ := bind_ok hr
        exact ih (new_in (v := VerkleDb.reopen v.storage) ⟨h.storage, InS.new, InS.new⟩ h1) h2
  have hin : AllIn subgroupR db := by
    refine key _ ?_ h
    exact AllIn.insertBranch ⟨InS.new, InS.new, InS.new⟩ [] (m := BranchMeta.zero _ _) (AddSubgroup.zero_mem _) 0
  obtain ⟨h1, h2, h3⟩ := C61_reads (ptCodec V) disk db.storage hr
  refine ⟨fun s => ?_, fun p i => ?_, fun p m hm => ?_⟩
  · rw [h1]
    cases hs : db.storage.stem s with
    | none => rfl
    | some m => exact if_pos (hin.storage.stem s m hs)
  · rw [h2]
    cases hs : db.storage.branch (p ++ [i]) with
    | none => rfl
    | some c =>
      cases c with
      | stem s => rfl
      | branch m => exact if_pos (hin.storage.branch _ m hs)
  · rw [h3 p m hm]
    exact if_pos (hin.storage.branch _ m hm)

/-- Generators in the subgroup for the same elements exist: of each pair of points take the one in the subgroup. -/
noncomputable def evenCrypto : Crypto (ZMod r) BPt where
  g i := if par (ptCrypto.g i) = 0 then ptCrypto.g i else ptCrypto.g i + Pt.T
  h := ptCrypto.h
  h_zero := ptCrypto.h_zero

theorem evenCrypto_even (i : ℕ) : r • evenCrypto.g i = 0 := by
  rw [← par_zero_iff]
  show par (if _ then _ else _) = 0
  split
  · assumption
  · next h =>
    rw [par_add, par_T]
    revert h
    generalize par (ptCrypto.g i) = x
    revert x
    decide

theorem evenCrypto_elem (i : ℕ) : ((evenCrypto.g i : BPt) : BElem) = ((ptCrypto.g i : BPt) : BElem) := by
  show (((if _ then _ else _ : BPt)) : BElem) = _
  split
  · rfl
  · rw [QuotientAddGroup.mk_add, (QuotientAddGroup.eq_zero_iff (Pt.T : BPt)).2 (AddSubgroup.mem_zmultiples _), add_zero]

end Verif.Props
