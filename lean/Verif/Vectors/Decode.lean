import Verif.Vectors.Basic
import Verif.Vectors.Tables

/-!
# Elements and opening proofs from bytes, evaluated

Decoding takes a square root.  Here the coordinates are given and checked: they are on the curve, in the subgroup, and their
encoding is the one given.
-/

set_option autoImplicit false

namespace Verif.Vectors
open Proof Bander Ipa Wire
open Sha256 (beNat)

/-- Coordinates of a point of the subgroup. -/
structure Lit where
  x : ℕ
  y : ℕ
  ok : entryOk x y = true

/-- The element. -/
def Lit.elem (p : Lit) : BElem := (entryPt p.x p.y p.ok : BPt)

def Lit.tri (p : Lit) : Tri := ⟨p.x, p.y, 1⟩

theorem Lit.R (p : Lit) : p.tri.R p.elem :=
  ⟨_, rfl, by simp [Lit.tri], by rw [Lit.tri, Nat.cast_one, mul_one]; rfl, by rw [Lit.tri, Nat.cast_one, mul_one]; rfl⟩

/-- The bytes printed as this number, most significant first. -/
def be32 (n : ℕ) : List Byte := (leBytes 32 n).reverse

theorem Lit.dec {p : Lit} {bs : List Byte} (h : p.tri.bytes = bs) : codec.decE bs = some p.elem :=
  (Elem.dec_some q_lt).2 (by rw [← bytes_R p.R, h])

theorem readElems_lits : ∀ (ps : List Lit) (cs rest : List (List Byte)), ps.map (fun p => p.tri.bytes) = cs →
    readElems codec ps.length (cs ++ rest) = .ok (some (ps.map Lit.elem, rest))
  | [], _, rest, h => by subst h; rfl
  | p :: ps, cs, rest, h => by
    subst h
    rw [List.map_cons, List.cons_append, List.length_cons, readElems, Lit.dec rfl]
    simp only [readElems_lits ps _ rest rfl, bind, Except.bind]
    rfl

/-- A proof with these coordinates. -/
def litProof (L R : List Lit) (a : ZMod r) : IpaProof (ZMod r) BElem := ⟨L.map Lit.elem, R.map Lit.elem, a⟩

def triProof (L R : List Lit) (a : ZMod r) : IpaProof (ZMod r) Tri := ⟨L.map Lit.tri, R.map Lit.tri, a⟩

theorem lits_R (L : List Lit) : List.Forall₂ Tri.R (L.map Lit.tri) (L.map Lit.elem) := by
  rw [List.forall₂_map_left_iff, List.forall₂_map_right_iff, List.forall₂_same]
  exact fun p _ => p.R

theorem proof_R (L R : List Lit) (a : ZMod r) : IpaRel Tri.R (triProof L R a) (litProof L R a) := ⟨lits_R L, lits_R R, rfl⟩

/-- `IPAProof::from_bytes` on the bytes of a proof with these coordinates. -/
theorem ipaFromBytes_lit {L R : List Lit} {a : ZMod r} {bs : List Byte} (hL : L.length = 8) (hR : R.length = 8) (hb : bs.length = 544)
    (h : chunksExact 32 bs = L.map (fun p => p.tri.bytes) ++ (R.map (fun p => p.tri.bytes) ++ [leBytes 32 a.val])) :
    ipaFromBytes codec bs 256 = .ok (some (litProof L R a)) := by
  have h8 : Nat.clog 2 256 = 8 := by
    rw [show (256 : ℕ) = 2 ^ 8 by norm_num, Nat.clog_pow 2 8 (by norm_num)]
  unfold ipaFromBytes
  rw [h8, hb, if_neg (by norm_num), if_neg (by norm_num), h]
  have h1 := readElems_lits L _ (R.map (fun p => p.tri.bytes) ++ [leBytes 32 a.val]) rfl
  have h2 := readElems_lits R _ [leBytes 32 a.val] rfl
  rw [hL] at h1
  rw [hR] at h2
  have h3 : codec.decS (leBytes 32 a.val) = some a := codec.dec_encS a
  simp only [h1, h2, bind, Except.bind, h3]
  rfl

/-- `MultiPointProof::from_bytes` likewise. -/
theorem multiFromBytes_lit {D : Lit} {L R : List Lit} {a : ZMod r} {bs : List Byte} (hL : L.length = 8) (hR : R.length = 8) (hb : bs.length = 576)
    (hD : D.tri.bytes = bs.take 32)
    (h : chunksExact 32 (bs.drop 32) = L.map (fun p => p.tri.bytes) ++ (R.map (fun p => p.tri.bytes) ++ [leBytes 32 a.val])) :
    multiFromBytes codec bs 256 = .ok (some ⟨litProof L R a, D.elem⟩) := by
  unfold multiFromBytes
  rw [if_neg (by omega), Lit.dec hD]
  simp only [ipaFromBytes_lit hL hR (by rw [List.length_drop, hb]) h, bind, Except.bind]

/-- The reference string with which the repository proves. -/
def crsT : CRS Tri := ⟨256, crsTri.take 256, genTri⟩

noncomputable def crsE : CRS BElem := crsOf crypto (genPt : BElem)

theorem crs_gens : (List.range 256).map crypto.g = crsElems.take 256 := by
  have hl : crsElems.length = 257 := by
    unfold crsElems
    rw [List.length_map, List.length_attach, crs_len]
  apply List.ext_getElem
  · rw [List.length_map, List.length_range, List.length_take, hl]
    rfl
  · intro i h1 h2
    rw [List.length_map, List.length_range] at h1
    rw [List.getElem_map, List.getElem_range, List.getElem_take]
    change crsElems.dropLast.getD i 0 = _
    rw [List.getD_eq_getElem?_getD, List.getElem?_eq_getElem (by rw [List.length_dropLast, hl]; exact h1), Option.getD_some, List.getElem_dropLast]

theorem crs_R : CrsRel Tri.R crsT crsE := by
  refine ⟨rfl, ?_, genTri_R⟩
  change List.Forall₂ Tri.R (crsTri.take 256) ((List.range 256).map crypto.g)
  rw [crs_gens]
  exact List.forall₂_take 256 crsTri_R

/-- Two elements with the same encoding are equal. -/
theorem elem_of_hex {p : Lit} {e : BElem} {n : ℕ} (h : hexE e = n) (hp : beNat p.tri.bytes = n) : p.tri.R e := by
  have h1 : beNat e.enc = beNat p.elem.enc := by
    rw [← bytes_R p.R, hp]
    exact h
  have hinj : ∀ {l l' : List Byte}, l.length = l'.length → beNat l = beNat l' → l = l' := by
    intro l
    induction l using List.reverseRecOn with
    | nil => intro l' hl _; exact (List.length_eq_zero_iff.1 hl.symm).symm
    | append_singleton l b ih =>
      intro l' hl he
      rcases List.eq_nil_or_concat l' with rfl | ⟨l'', b', rfl⟩
      · simp at hl
      · rw [List.concat_eq_append] at hl he ⊢
        simp only [List.length_append, List.length_singleton, Nat.add_right_cancel_iff] at hl
        unfold beNat at he
        rw [List.foldl_append, List.foldl_append] at he
        simp only [List.foldl_cons, List.foldl_nil] at he
        have hb := b.isLt
        have hb' := b'.isLt
        have h3 : b.val = b'.val := by omega
        have h4 : beNat l = beNat l'' := by unfold beNat; omega
        rw [ih hl h4, Fin.ext h3]
  have h2 := Elem.enc_inj q_lt (hinj (by rw [Elem.enc_len, Elem.enc_len]) h1)
  rw [h2]
  exact p.R

end Verif.Vectors
