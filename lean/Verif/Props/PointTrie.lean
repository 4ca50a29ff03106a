import Verif.Props.Reload
import Verif.Trie.Hom

/-!
# C62: the trie on points and the trie on elements

The code holds points, two of which stand for the same element.  The theorems about the trie (C01-C10) are about elements.
-/

set_option autoImplicit false

namespace Verif.Props
open Verif.Trie Verif.Db Verif.Bander Verif.Spec

/-- The element of a point. -/
def toElem : BPt →+ BElem := QuotientAddGroup.mk' _

theorem toElem_smul (a : ZMod r) (p : BPt) : toElem (a • p) = a • toElem p := by
  rw [smul_pt, map_nsmul, ← Nat.cast_smul_eq_nsmul (ZMod r), ZMod.natCast_zmod_val]

theorem crsElems_pts : crsElems = crsPts.map toElem := by
  unfold crsElems crsPts
  rw [List.map_map]
  rfl

/-- Generators on points which stand for the generators of the default reference string. -/
structure Stands (C : Crypto (ZMod r) BPt) : Prop where
  gen : ∀ i, toElem (C.g i) = Bander.crypto.g i
  hash : ∀ p, C.h p = Bander.crypto.h (toElem p)

theorem pt_stands : Stands ptCrypto := by
  refine ⟨fun i => ?_, fun _ => rfl⟩
  show toElem (crsPts.dropLast.getD i 0) = crsElems.dropLast.getD i 0
  rw [crsElems_pts, ← List.map_dropLast, List.getD_eq_getElem?_getD, List.getD_eq_getElem?_getD, List.getElem?_map]
  cases crsPts.dropLast[i]? <;> rfl

theorem even_stands : Stands evenCrypto :=
  ⟨fun i => (evenCrypto_elem i).trans (pt_stands.gen i), fun _ => rfl⟩

def Stands.hom {C : Crypto (ZMod r) BPt} (h : Stands C) : CryptoHom C Bander.crypto :=
  ⟨toElem, toElem_smul, h.gen, fun p => (h.hash p).symm⟩

/-- **C62** (part that holds).  Full claim: as here, and what is stored depends on the final contents only; the latter is false
(`C62_stored_points_depend_on_history`).  Whatever points stand for the generators: the run on points succeeds, answers every read as the run on elements does, and
its root commitment is a point of the element the specification gives, so its hash is that of the specification. -/
theorem C62_points_compute_elements_partial {C : Crypto (ZMod r) BPt} (hC : Stands C) (l : List (Key × Value)) :
    ∃ db, build C l = .ok db ∧ build Bander.crypto l = .ok (mapMem toElem db) ∧
      (∀ k, Trie.get db k = lastWrite l k) ∧
      (∃ p, Trie.rootCommitment db = .ok p ∧ toElem p = branchComm Bander.crypto (lastWrite l) []) ∧
      Trie.rootHash db = .ok (Bander.crypto.h (branchComm Bander.crypto (lastWrite l) [])) := by
  have hb : build Bander.crypto l = (build C l).map (mapMem toElem) := by
    unfold build
    refine map_bind _ _ (mapMem toElem) _ _ _ ?_ fun db _ => ?_
    · exact new_map (F := ZMod r) (f := toElem) (memHom toElem) MemoryDb.new
    · exact insert_map hC.hom (memHom toElem) l db
  have hs := build_eq Bander.crypto l
  rw [hb] at hs
  cases hp : build C l with
  | error e => rw [hp] at hs; cases hs
  | ok db =>
    have hdb : build Bander.crypto l = .ok (mapMem toElem db) := by rw [hb, hp]; rfl
    obtain ⟨r1, r2⟩ := root_map (F := ZMod r) (memHom toElem) db
    obtain ⟨s1, s2⟩ := C04_root_is_from_scratch Bander.crypto l hdb
    refine ⟨db, rfl, hdb, fun k => ?_, ?_, r1.symm.trans s2⟩
    · obtain ⟨db', h1, h2⟩ := C01_reads_return_last_write Bander.crypto l k
      rw [hdb] at h1
      cases h1
      exact h2
    · rw [s1] at r2
      cases hr : Trie.rootCommitment db with
      | error e => rw [hr] at r2; cases r2
      | ok p =>
        rw [hr] at r2
        exact ⟨p, rfl, (Except.ok.inj r2).symm⟩

/-- The same with the cached database, for every run of insertions, flushes and restarts (with the disk as tables; whether its bytes can be
read is C61): it panics on points exactly if it panics on elements,
and its tables stand for those of the run on elements. -/
theorem C62_cached {C : Crypto (ZMod r) BPt} (hC : Stands C) (ops : List Op) :
    runV Bander.crypto ops = (runV C ops).map (mapVdb toElem) ∧
    (∀ v, runV C ops = .ok v → Trie.rootHash (mapVdb toElem v) = Trie.rootHash v ∧
      Trie.rootCommitment (mapVdb toElem v) = (Trie.rootCommitment v).map toElem ∧ ∀ k, Trie.get (mapVdb toElem v) k = Trie.get v k) := by
  refine ⟨?_, fun v _ => ⟨(root_map (vdbHom toElem) v).1, (root_map (vdbHom toElem) v).2, fun _ => rfl⟩⟩
  have key : ∀ (ops : List Op) (v : VerkleDb (ZMod r) BPt), runOps Bander.crypto (mapVdb toElem v) ops = (runOps C v ops).map (mapVdb toElem) := by
    intro ops
    induction ops with
    | nil => intro v; rfl
    | cons o ops ih =>
      intro v
      cases o with
      | ins k x => exact map_bind _ _ _ _ _ _ (insert_map hC.hom (vdbHom toElem) _ v) fun u _ => ih u
      | flush =>
        show runOps _ (mapVdb toElem v).flush ops = _
        rw [flush_map]
        exact ih _
      | reopen =>
        exact map_bind _ _ (mapVdb toElem) _ _ _ (new_map (F := ZMod r) (f := toElem) (vdbHom toElem) (VerkleDb.reopen v.storage))
          fun u _ => ih u
  exact map_bind _ _ (mapVdb toElem) _ _ _ (new_map (F := ZMod r) (f := toElem) (vdbHom toElem) VerkleDb.new) fun u _ => key ops u

/-- Two ways of choosing the points give the same root hash and, up to `(0, -1)`, the same root. -/
theorem C62_choice_of_points {C D : Crypto (ZMod r) BPt} (hC : Stands C) (hD : Stands D) (l : List (Key × Value)) :
    ∃ db db' p p', build C l = .ok db ∧ build D l = .ok db' ∧ Trie.rootHash db = Trie.rootHash db' ∧
      Trie.rootCommitment db = .ok p ∧ Trie.rootCommitment db' = .ok p' ∧ (p' = p ∨ p' = p + Pt.T) := by
  obtain ⟨db, h1, -, -, ⟨p, h2, h3⟩, h4⟩ := C62_points_compute_elements_partial hC l
  obtain ⟨db', h1', -, -, ⟨p', h2', h3'⟩, h4'⟩ := C62_points_compute_elements_partial hD l
  refine ⟨db, db', p, p', h1, h1', h4.trans h4'.symm, h2, h2', ?_⟩
  have h := h3.trans h3'.symm
  have h : -p + p' ∈ AddSubgroup.zmultiples (Pt.T : BPt) := QuotientAddGroup.eq.1 h
  rw [Pt.mem_T] at h
  rcases h with h | h
  · exact Or.inl (neg_add_eq_zero.1 h).symm
  · refine Or.inr ?_
    rw [← h]
    abel

/-- The two choices at hand: the points of the table, and the points in the subgroup. -/
example : Stands ptCrypto ∧ Stands evenCrypto ∧ ptCrypto.g 0 ≠ evenCrypto.g 0 := by
  refine ⟨pt_stands, even_stands, fun h => ?_⟩
  have h1 := evenCrypto_even 0
  rw [← h] at h1
  exact absurd ((C61_generators 0).1 h1) (by decide +kernel)

/-- With the points in the subgroup the roots are those of the default reference string and everything written can be read back. -/
theorem C62_repaired (V : PointCheck) (ops : List Op) (db : VerkleDb (ZMod r) BPt) (disk : Rows)
    (h : runV evenCrypto (ops ++ [.flush]) = .ok db) (hr : Represents (ptCodec V) disk db.storage) :
    runV Bander.crypto (ops ++ [.flush]) = .ok (mapVdb toElem db) ∧
    (∀ s, fetchStem (ptCodec V) disk s = .ok (db.storage.stem s)) ∧
    (∀ p m, db.storage.branch p = some (.branch m) → fetchBranchMeta (ptCodec V) disk p = .ok (some m)) := by
  obtain ⟨h1, -, h3⟩ := C61_readable_partial evenCrypto evenCrypto_even V ops db disk h hr
  refine ⟨?_, h1, h3⟩
  rw [(C62_cached even_stands _).1, h]
  rfl

/-! ### The stored points depend on the history -/

theorem two_writes {F G : Type} [Field F] [AddCommGroup G] [SMul F G] (C : Crypto F G) :
    ∃ db db' m m', build C [(keyOf [] 0, valOf 1)] = .ok db ∧ build C [(keyOf [] 0, valOf 2), (keyOf [] 0, valOf 1)] = .ok db' ∧
      db.stem (keyOf [] 0).stem = some m ∧ db'.stem (keyOf [] 0).stem = some m' ∧
      m.c1 = 0 + C.scalarMul (frLe F ((valOf 1).1.take 16) + twoPow128 F - 0) 0 + C.scalarMul (frLe F ((valOf 1).1.drop 16) - 0) 1 ∧
      m'.c1 = 0 + C.scalarMul (frLe F ((valOf 2).1.take 16) + twoPow128 F - 0) 0 + C.scalarMul (frLe F ((valOf 2).1.drop 16) - 0) 1 +
        C.scalarMul (frLe F ((valOf 1).1.take 16) + twoPow128 F - (frLe F ((valOf 2).1.take 16) + twoPow128 F)) 0 +
        C.scalarMul (frLe F ((valOf 1).1.drop 16) - frLe F ((valOf 2).1.drop 16)) 1 :=
  ⟨_, _, _, _, rfl, rfl, rfl, rfl, rfl, rfl⟩

/-- **C62 fails for the stored points**: two histories with the same final contents leave records with different points, `p` and
`p + (0, -1)`, hence different bytes; one of them can be decoded and the other cannot. -/
theorem C62_stored_points_depend_on_history (V : PointCheck) :
    ∃ (l l' : List (Key × Value)) (db db' : MemoryDb (ZMod r) BPt) (s : Stem) (m m' : StemMeta (ZMod r) BPt),
      (∀ k, lastWrite l k = lastWrite l' k) ∧ build ptCrypto l = .ok db ∧ build ptCrypto l' = .ok db' ∧
      db.stem s = some m ∧ db'.stem s = some m' ∧ m'.c1 = m.c1 + Pt.T ∧ encPt m.c1 ≠ encPt m'.c1 ∧
      decPt V (encPt m.c1) = none ∧ decPt V (encPt m'.c1) = some m'.c1 := by
  classical
  obtain ⟨db, db', m, m', h1, h2, h3, h4, h5, h6⟩ := two_writes ptCrypto
  have hl : ∀ k, lastWrite [(keyOf [] 0, valOf 1)] k = lastWrite [(keyOf [] 0, valOf 2), (keyOf [] 0, valOf 1)] k := by
    intro k
    unfold lastWrite
    by_cases hk : keyOf [] 0 = k <;> simp [hk]
  have z : ((0 : ZMod r).val : ℕ) = 0 := ZMod.val_zero
  have w1 : frLe (ZMod r) ((valOf 1).1.take 16) = ((1 : ℕ) : ZMod r) := by
    have : leNat ((valOf 1).1.take 16) = 1 := by decide +kernel
    rw [frLe, this]
  have w2 : frLe (ZMod r) ((valOf 2).1.take 16) = ((2 : ℕ) : ZMod r) := by
    have : leNat ((valOf 2).1.take 16) = 2 := by decide +kernel
    rw [frLe, this]
  have u1 : frLe (ZMod r) ((valOf 1).1.drop 16) = 0 := by
    have : leNat ((valOf 1).1.drop 16) = 0 := by decide +kernel
    rw [frLe, this, Nat.cast_zero]
  have u2 : frLe (ZMod r) ((valOf 2).1.drop 16) = 0 := by
    have : leNat ((valOf 2).1.drop 16) = 0 := by decide +kernel
    rw [frLe, this, Nat.cast_zero]
  have e1 : ((1 : ℕ) : ZMod r) + twoPow128 (ZMod r) - 0 = ((2 ^ 128 + 1 : ℕ) : ZMod r) := by
    rw [twoPow128, sub_zero, ← Nat.cast_add, add_comm]
  have e2 : ((2 : ℕ) : ZMod r) + twoPow128 (ZMod r) - 0 = ((2 ^ 128 + 2 : ℕ) : ZMod r) := by
    rw [twoPow128, sub_zero, ← Nat.cast_add, add_comm]
  have e3 : ((1 : ℕ) : ZMod r) + twoPow128 (ZMod r) - (((2 : ℕ) : ZMod r) + twoPow128 (ZMod r)) = ((r - 1 : ℕ) : ZMod r) := by
    rw [Nat.cast_sub (by decide +kernel), ZMod.natCast_self]
    push_cast
    ring
  have c1 : m.c1 = (2 ^ 128 + 1) • ptCrypto.g 0 := by
    rw [h5, w1, u1, e1, sub_zero, Crypto.scalarMul, Crypto.scalarMul, smul_pt, smul_pt, z, zero_nsmul, add_zero, zero_add,
      ZMod.val_natCast, Nat.mod_eq_of_lt (by decide +kernel)]
  have c2 : m'.c1 = (2 ^ 128 + 1) • ptCrypto.g 0 + r • ptCrypto.g 0 := by
    rw [h6, w1, w2, u1, u2, e2, e3, sub_zero]
    simp only [Crypto.scalarMul]
    rw [smul_pt, smul_pt, smul_pt, z, zero_nsmul, add_zero, add_zero, zero_add,
      ZMod.val_natCast, ZMod.val_natCast, Nat.mod_eq_of_lt (by decide +kernel), Nat.mod_eq_of_lt (by decide +kernel), ← add_nsmul,
      ← add_nsmul]
    congr 1
    decide +kernel
  have hg : par (ptCrypto.g 0) = 1 := by
    rw [ptCrypto_par (by norm_num)]
    decide +kernel
  have ht : r • ptCrypto.g 0 = Pt.T := by
    refine (r_smul_cases _).resolve_left fun h => ?_
    rw [← par_zero_iff, hg] at h
    exact absurd h (by decide)
  rw [ht, ← c1] at c2
  have hp : par m.c1 = 1 := by
    rw [c1, par_nsmul, hg]
    decide +kernel
  have hp' : par m'.c1 = 0 := by
    rw [c2, par_add, hp, par_T]
    decide
  have d1 : decPt V (encPt m.c1) = none := by
    rw [decPt_encPt, if_neg]
    rw [← par_zero_iff, hp]
    decide
  have d2 : decPt V (encPt m'.c1) = some m'.c1 := by
    rw [decPt_encPt, if_pos]
    rwa [← par_zero_iff]
  refine ⟨_, _, db, db', _, m, m', hl, h1, h2, h3, h4, c2, fun h => ?_, d1, d2⟩
  rw [h, d2] at d1
  cases d1

end Verif.Props
