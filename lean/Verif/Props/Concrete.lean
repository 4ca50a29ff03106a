import Verif.Bander.Concrete
import Verif.Props.Bander
import Verif.Props.Multi
import Verif.Props.Eip
import Verif.Props.Msm

/-!
# C52, C53: the group and the reference string
-/

set_option autoImplicit false

namespace Verif.Props
open Bander

/-- **C52** (order): the elements of Bandersnatch form a commutative group of exactly `r` elements, and `r`, the order of the scalar
field, is prime. -/
theorem C52_prime_order : Nat.card BElem = r ∧ r.Prime ∧ (∀ x y : BElem, x + y = y + x) ∧ (∀ x y z : BElem, x + y + z = x + (y + z)) ∧
    ∀ x : BElem, r • x = 0 :=
  ⟨card_elem, r_prime, add_comm, add_assoc, fun x => by rw [← card_elem]; exact card_nsmul_eq_zero'⟩

/-- **C52** (multiples): every element is a multiple of every element other than the neutral one; scalars act faithfully. -/
theorem C52_cyclic {g : BElem} (hg : g ≠ 0) (x : BElem) : ∃! k : ZMod r, k • g = x := by
  have ho : addOrderOf g = r := addOrderOf_eq_prime (C52_prime_order.2.2.2.2 g) hg
  have hinj : Function.Injective fun k : ZMod r => k • g := by
    intro k k' h
    by_contra hne
    have h : k • g = k' • g := h
    have hk : (k - k') • g = 0 := by rw [sub_smul, h, sub_self]
    rcases smul_eq_zero.1 hk with h' | h'
    · exact hne (sub_eq_zero.1 h')
    · exact hg h'
  have hbij := (Nat.bijective_iff_injective_and_card (fun k : ZMod r => k • g)).2 ⟨hinj, by rw [Nat.card_zmod, card_elem]⟩
  exact hbij.existsUnique x

example : (genPt : BElem) ≠ 0 := gen_ne

/-- **C52** (representation): the elements are what the code computes with.  Every element has a representative; a point in extended
coordinates represents an element exactly when it is on the curve and is `± 2 Q`; the code's equality is equality of elements. -/
theorem C52_represented :
    (∀ e : BElem, ∃ p, Bander.Represents p e) ∧
    (∀ p, (∃ e : BElem, Bander.Represents p e) ↔ Valid coeffA coeffD p ∧ Subgroup coeffA coeffD (p.x / p.z) (p.y / p.z)) ∧
    (∀ p p' (e e' : BElem), Bander.Represents p e → Bander.Represents p' e' → (p.eq p' = true ↔ e = e')) := by
  refine ⟨exists_rep, fun p => ?_, fun p p' e e' h h' => h.eq_iff h'⟩
  rw [exists_elem]
  exact and_congr_right fun v => good.halve v.on

/-- **C52** (operations): a representative of the sum (by the affine addition law) represents the sum, one of `(-x, y)` the negative,
`Element::zero()` the neutral element. -/
theorem C52_operations {p p' p'' : Proj (ZMod Bander.q)} {e e' : BElem} (h : Bander.Represents p e) (h' : Bander.Represents p' e')
    (v : Valid coeffA coeffD p'') :
    ((p''.x / p''.z = addX coeffD (p.x / p.z) (p.y / p.z) (p'.x / p'.z) (p'.y / p'.z) ∧
      p''.y / p''.z = addY coeffA coeffD (p.x / p.z) (p.y / p.z) (p'.x / p'.z) (p'.y / p'.z)) → Bander.Represents p'' (e + e')) ∧
    ((p''.x / p''.z = -(p.x / p.z) ∧ p''.y / p''.z = p.y / p.z) → Bander.Represents p'' (-e)) ∧
    Bander.Represents (neutral : Proj (ZMod Bander.q)) (0 : BElem) :=
  ⟨fun hs => h.add h' v hs.1 hs.2, fun hs => h.neg v hs.1 hs.2, Represents.zero⟩

theorem generator_represents : Bander.Represents generator (genPt : BElem) := by
  refine ⟨generator_valid, genPt, rfl, ?_, ?_⟩ <;> (have hz : generator.z = 1 := rfl; rw [hz, div_one]; rfl)

/-- A case: the generator and its double. -/
example : ∃ p'', Bander.Represents generator (genPt : BElem) ∧ Bander.Represents p'' ((genPt : BElem) + (genPt : BElem)) ∧ (genPt : BElem) + (genPt : BElem) ≠ 0 := by
  obtain ⟨p'', h⟩ := exists_rep ((genPt : BElem) + (genPt : BElem))
  exact ⟨p'', generator_represents, h, fun h0 => gen_ne (Elem.no_two_torsion h0)⟩

/-- **C52** (hash and encodings): the code's map to the scalar field and its compressed encoding, computed on any representative, are
the hash and encoding in the parameters the model of the trie and of the proofs is instantiated with; decoding 32 bytes succeeds
for the same inputs and gives a representative of the same element. -/
theorem C52_parameters (S : Sqrt (ZMod Bander.q)) :
    (∀ p (e : BElem), Bander.Represents p e → p.mapToScalarField (ZMod r) = .ok (crypto.h e) ∧ p.toBytes = .ok (codec.encE e)) ∧
    ∀ bs : List Byte, bs.length = 32 →
      (codec.decE bs = none ∧ fromBytes coeffA coeffD S bs = .ok none) ∨
      ∃ e p, codec.decE bs = some e ∧ fromBytes coeffA coeffD S bs = .ok (some p) ∧ Bander.Represents p e :=
  ⟨fun _ _ h => ⟨h.hash _, h.toBytes⟩, fun _ hl => fromBytes_dec q_lt S hl⟩

/-- **C52** (canonical encodings): both encodings are canonical, so that the accepted byte strings are exactly the encodings. -/
theorem C52_canonical : (∀ (bs : List Byte) (e : BElem), codec.decE bs = some e ↔ codec.encE e = bs) ∧
    ∀ (bs : List Byte) (x : ZMod r), codec.decS bs = some x ↔ codec.encS x = bs := by
  refine ⟨fun bs e => Elem.dec_some q_lt, fun bs x => ⟨fun h => ?_, fun h => h ▸ codec.dec_encS x⟩⟩
  have h : decScalar bs = some x := h
  unfold decScalar at h
  split at h
  · next hb =>
    injection h with h
    change Wire.leBytes 32 x.val = bs
    rw [← h, ZMod.val_natCast, Nat.mod_eq_of_lt hb.2, Wire.leBytes_leNat' hb.1]
  · cases h

/-- **C52** (scalar field): the conditions on the scalar field under which the other theorems are stated hold: naturals below `2^252`
are different scalars, and so are the points of the domain; the canonical representatives have at most 253 bits. -/
theorem C52_scalar_field : Spec.BigField (ZMod r) ∧ Ipa.Distinct (ZMod r) 256 ∧ Canonical (F := ZMod r) ZMod.val := by
  have hr : 2 ^ 252 ≤ r ∧ r < 2 ^ 253 := by decide +kernel
  have big : Spec.BigField (ZMod r) := by
    intro x y hx hy h
    rw [ZMod.natCast_eq_natCast_iff', Nat.mod_eq_of_lt (hx.trans_le hr.1), Nat.mod_eq_of_lt (hy.trans_le hr.1)] at h
    exact h
  refine ⟨big, fun i j hi hj h => big i j (hi.trans (by norm_num)) (hj.trans (by norm_num)) h, fun x => ⟨(ZMod.val_lt x).trans hr.2, ?_⟩⟩
  rw [ZMod.natCast_val, ZMod.cast_id]

/-- The trie over Bandersnatch: the root does not depend on the history (C03). -/
example (l l' : List (Key × Value)) (h : ∀ k, lastWrite l k = lastWrite l' k) {db db' : MemoryDb (ZMod r) BElem}
    (hb : build crypto l = .ok db) (hb' : build crypto l' = .ok db') : Trie.rootHash db = Trie.rootHash db' :=
  (C03_root_history_independent crypto l l' h hb hb').2.1

/-- The trie over Bandersnatch: the root binds the map, unless a collision is exhibited (C09). -/
example (l l' : List (Key × Value)) {db db' : MemoryDb (ZMod r) BElem}
    (hb : build crypto l = .ok db) (hb' : build crypto l' = .ok db') (h : Trie.rootHash db = Trie.rootHash db') :
    (∀ k, Trie.get db k = Trie.get db' k) ∨ Spec.Broken crypto (lastWrite l) (lastWrite l') :=
  C09_root_binds_map C52_scalar_field.1 crypto l l' hb hb' (Or.inr h)

/-- The committer with precomputed tables over Bandersnatch (C37). -/
example : ∃ D, Msm.Committer.new (ZMod r) ((List.range 256).map crypto.g) = .ok D ∧
    ∀ v : Byte → ZMod r, D.commitLagrange ZMod.val ((List.finRange 256).map v) = .ok (Spec.commit crypto v) := by
  obtain ⟨D, h1, -, h2⟩ := C37_is_the_assumed_committer crypto C52_scalar_field.2.2
  exact ⟨D, h1, h2⟩

/-- Verkle proofs over Bandersnatch round-trip through bytes (C24). -/
example (openAll : List (Proof.ProverQuery (ZMod r) BElem) → Res (Verif.MultiProof (ZMod r) BElem))
    (check : Verif.MultiProof (ZMod r) BElem → List (Proof.VerifierQuery (ZMod r) BElem) → Res Bool)
    (hO : ∀ qs p, openAll qs = .ok p → p.openProof.L.length = 8 ∧ p.openProof.R.length = 8)
    (l : List (Key × Value)) {db : MemoryDb (ZMod r) BElem} (hb : build crypto l = .ok db) {keys : List Key}
    (hk : 36 * keys.length < 2 ^ 32) {p : Proof.VerkleProof BElem (Verif.MultiProof (ZMod r) BElem)}
    (hp : Proof.createVerkleProof (⟨Verif.MultiProof (ZMod r) BElem, openAll, check⟩ : Proof.Opener (ZMod r) BElem) db keys = .ok (.ok p)) :
    ∃ bs, Wire.writeProof codec p = .ok bs ∧ Wire.readProof codec bs = .ok (some p) :=
  C24_proof_roundtrip crypto codec openAll check hO l hb hk hp

theorem mapM_all {α β : Type} {f : α → Res β} {g : α → β} : ∀ {l : List α}, (∀ x ∈ l, f x = .ok (g x)) → l.mapM f = .ok (l.map g)
  | [], _ => rfl
  | x :: l, h => by
    rw [List.mapM_cons, h x (by simp), mapM_all fun y hy => h y (by simp [hy])]
    rfl

theorem mapM_forall₂ {α β : Type} {f : α → Res β} {R : α → β → Prop} :
    ∀ {l : List α}, (∀ x ∈ l, ∃ y, f x = .ok y ∧ R x y) → ∃ l', l.mapM f = .ok l' ∧ List.Forall₂ R l l'
  | [], _ => ⟨[], rfl, .nil⟩
  | x :: l, h => by
    obtain ⟨y, h1, h2⟩ := h x (by simp)
    obtain ⟨l', h3, h4⟩ := mapM_forall₂ fun z hz => h z (List.mem_cons_of_mem x hz)
    refine ⟨y :: l', ?_, .cons h2 h4⟩
    rw [List.mapM_cons, h1, h3]
    rfl

/-- What reading an entry gives. -/
def entryProj (n : ℕ) : Proj (ZMod Bander.q) := ⟨entryX n, entryY n, (entryX n : ZMod Bander.q) * entryY n, 1⟩

theorem entry_read {n : ℕ} (h : n ∈ crsHex) : fromBytesUnchecked (hexBytes n) = .ok (entryProj n) := by
  have he := crs_entry h
  simp only [entryOk, Bool.and_eq_true, decide_eq_true_eq] at he
  have hl : (hexBytes n).length = 64 := by rw [hexBytes, List.length_reverse, Wire.leBytes_length]
  have h1 : Wire.readExact 32 ((hexBytes n).take 32) = some ((hexBytes n).take 32, []) :=
    Wire.readExact_iff.2 ⟨by rw [List.length_take, hl]; rfl, by rw [List.append_nil]⟩
  have h2 : Wire.readExact 32 ((hexBytes n).drop 32) = some ((hexBytes n).drop 32, []) :=
    Wire.readExact_iff.2 ⟨by rw [List.length_drop, hl], by rw [List.append_nil]⟩
  unfold fromBytesUnchecked deFq
  rw [h1, h2]
  dsimp only
  rw [show leNat ((hexBytes n).take 32) = entryX n from rfl, show leNat ((hexBytes n).drop 32) = entryY n from rfl,
    if_pos he.1.1.1, if_pos he.1.1.2]
  rfl

theorem entry_cx {n : ℕ} (h : n ∈ crsHex) :
    (Elem.cx ((entryPt _ _ (crs_entry h) : Pt coeffA coeffD) : BElem)).val = canonN (entryX n) (entryY n) := by
  have he := crs_entry h
  simp only [entryOk, Bool.and_eq_true, decide_eq_true_eq] at he
  obtain ⟨⟨⟨hx, hy⟩, -⟩, -⟩ := he
  have hxv : ((entryX n : ℕ) : ZMod Bander.q).val = entryX n := by rw [ZMod.val_natCast, Nat.mod_eq_of_lt hx]
  have hyv : ((entryY n : ℕ) : ZMod Bander.q).val = entryY n := by rw [ZMod.val_natCast, Nat.mod_eq_of_lt hy]
  have hneg : ∀ z : ℕ, z < Bander.q → (-(z : ZMod Bander.q)).val = (Bander.q - z) % Bander.q := by
    intro z hz
    rw [ZMod.neg_val', ZMod.val_natCast, Nat.mod_eq_of_lt hz]
  rw [Elem.cx_mk]
  unfold canonX isPositive canonN entryPt
  dsimp only
  rw [hneg _ hy, hyv]
  have hiff : (Bander.q - entryY n) % Bander.q < entryY n ↔ Bander.q - entryY n < entryY n ∨ False := by
    by_cases h0 : entryY n = 0
    · rw [h0]; simp
    · rw [Nat.mod_eq_of_lt (by omega)]; simp
  rw [or_false] at hiff
  by_cases hc : Bander.q - entryY n < entryY n
  · rw [if_pos (by simpa using hiff.2 hc), if_pos hc, hxv]
  · rw [if_neg (by simpa using fun h => hc (hiff.1 h)), if_neg hc, hneg _ hx]

theorem entry_rep {n : ℕ} (h : n ∈ crsHex) : Bander.Represents (entryProj n) ((entryPt _ _ (crs_entry h) : Pt coeffA coeffD) : BElem) := by
  have hon := (entryPt _ _ (crs_entry h)).on
  refine ⟨⟨one_ne_zero, mul_one _, ?_⟩, _, rfl, div_one _, div_one _⟩
  unfold entryProj
  dsimp only
  rw [div_one, div_one]
  exact hon

theorem map_attach {α β γ : Type} {L : List α} {f : (x : α) → x ∈ L → β} {g : β → γ} {k : α → γ} (h : ∀ x hx, g (f x hx) = k x) :
    (L.attach.map fun x => f x.1 x.2).map g = L.map k := by
  rw [List.map_map]
  conv_rhs => rw [← List.attach_map_subtype_val L, List.map_map]
  apply List.map_congr_left
  rintro ⟨x, hx⟩ -
  exact h x hx

theorem forall₂_attach {α β γ : Type} {L : List α} {f : (x : α) → x ∈ L → β} {g : α → γ} {R : γ → β → Prop} (h : ∀ x hx, R (g x) (f x hx)) :
    List.Forall₂ R (L.map g) (L.attach.map fun x => f x.1 x.2) := by
  conv =>
    arg 2
    rw [← List.attach_map_subtype_val L, List.map_map]
  rw [List.forall₂_map_left_iff, List.forall₂_map_right_iff, List.forall₂_same]
  rintro ⟨x, hx⟩ -
  exact h x hx

theorem crs_cx : crsElems.map (fun e => e.cx.val) = crsHex.map fun n => canonN (entryX n) (entryY n) :=
  map_attach (f := fun n h => ((entryPt _ _ (crs_entry h) : Pt coeffA coeffD) : BElem)) fun _ h => entry_cx h

/-- The last entry of the table: the other point of the class of the generator. -/
def lastHex : ℕ := 0x18ae52a26618e7e1658499ad22c0792bf342be7b77113774c5340b2ccc32c129664197ccb667315e6064e4ee81ad8c3586d5dcba508b7d150f3e12da9e666c2a

theorem last_eq (hne : crsHex ≠ []) : crsHex.getLast hne = lastHex := by
  have h : crsHex.getLast? = some lastHex := by decide +kernel
  rw [List.getLast?_eq_some_getLast hne] at h
  exact Option.some.inj h

theorem last_rep (hne : crsHex ≠ []) : Bander.Represents (entryProj (crsHex.getLast hne)) (genPt : BElem) := by
  have h := entry_rep (List.getLast_mem hne)
  suffices hs : ((entryPt _ _ (crs_entry (List.getLast_mem hne)) : Pt coeffA coeffD) : BElem) = (genPt : BElem) by
    rw [hs] at h
    exact h
  have hx : ((33549696307925229982445904590536874618633472405590028303463218160177641247209 + entryX lastHex : ℕ) : ZMod Bander.q) = ((0 : ℕ) : ZMod Bander.q) :=
    (ZMod.natCast_eq_natCast_iff' _ _ _).2 (by decide +kernel)
  have hy : ((33247207790868406533770098284893268064219217060773724591094549753060500487835 + entryY lastHex : ℕ) : ZMod Bander.q) = ((0 : ℕ) : ZMod Bander.q) :=
    (ZMod.natCast_eq_natCast_iff' _ _ _).2 (by decide +kernel)
  rw [Nat.cast_add, Nat.cast_zero, ← last_eq hne] at hx hy
  exact Elem.eq_iff.2 (Or.inr ⟨eq_neg_of_add_eq_zero_left hx, eq_neg_of_add_eq_zero_left hy⟩)

/-- **C53** (default reference string): decoding the table of the source does not panic and gives 256 generators and `Q`; they represent
the elements of `crsElems`, which are pairwise different and different from the neutral element, and `Q` represents
the generator. -/
theorem C53_default : ∃ crs : Crs Bander.q, Crs.fromBytes (crsHex.map hexBytes) = .ok crs ∧ crs.n = 256 ∧ crs.G.length = 256 ∧
    List.Forall₂ (fun p e => Bander.Represents p (e : BElem)) (crs.G ++ [crs.Q]) crsElems ∧ crsElems.Nodup ∧ (0 : BElem) ∉ crsElems ∧
    Bander.Represents crs.Q (genPt : BElem) := by
  have hne : crsHex ≠ [] := fun h => by
    have := crs_len
    rw [h] at this
    cases this
  have hlast : (crsHex.map hexBytes).getLast? = some (hexBytes (crsHex.getLast hne)) := by
    rw [List.getLast?_map, List.getLast?_eq_some_getLast hne]
    rfl
  have hG : (crsHex.map hexBytes).dropLast.mapM (fromBytesUnchecked (q := Bander.q)) = .ok (crsHex.dropLast.map entryProj) := by
    rw [← List.map_dropLast, ← mapM_all (f := fun n => fromBytesUnchecked (hexBytes n)) (fun n hn => entry_read (List.dropLast_subset _ hn))]
    rw [List.mapM_map]
    rfl
  have hlen : crsHex.dropLast.length = 256 := by rw [List.length_dropLast, crs_len]
  have hnd := crs_nodup
  rw [← crs_cx, List.nodup_cons] at hnd
  refine ⟨⟨256, crsHex.dropLast.map entryProj, entryProj (crsHex.getLast hne)⟩, ?_, rfl, by rw [List.length_map, hlen], ?_, ?_, ?_, last_rep hne⟩
  · unfold Crs.fromBytes
    rw [hlast]
    dsimp only
    rw [entry_read (List.getLast_mem hne)]
    simp only [bind, Except.bind]
    rw [hG]
    simp only [List.length_map, hlen]
  · dsimp only
    rw [← List.map_singleton (f := entryProj), ← List.map_append, List.dropLast_append_getLast]
    exact forall₂_attach (f := fun n h => ((entryPt _ _ (crs_entry h) : Pt coeffA coeffD) : BElem)) fun _ h => entry_rep h
  · exact List.Nodup.of_map _ hnd.2
  · intro h0
    apply hnd.1
    rw [List.mem_map]
    exact ⟨0, h0, by rw [Elem.cx_zero, ZMod.val_zero]⟩

/-- **C53** (which generators): a generated reference string consists of the accepted candidates, in order, among the reductions of the
hashes of the seed followed by a big-endian counter of eight bytes from 0 on. -/
theorem C53_candidates (S : Sqrt (ZMod Bander.q)) (sha : List Byte → List Byte) (gen : Proj (ZMod Bander.q)) (n : ℕ) (seed : List Byte)
    {crs : Crs Bander.q} (h : Crs.new coeffA coeffD S sha gen n seed = .ok crs) :
    ∃ os : List (Option (Proj (ZMod Bander.q))), os.length ≤ 2 ^ 64 ∧ crs.G = os.filterMap id ∧
      ∀ i (hi : i < os.length), tryReduce coeffA coeffD S (sha (seed ++ (Wire.leBytes 8 i).reverse)) = .ok os[i] := by
  have hgen : ∀ fuel i n l, generateFrom coeffA coeffD S sha seed fuel i n = .ok l →
      ∃ os : List (Option (Proj (ZMod Bander.q))), os.length ≤ fuel ∧ l = os.filterMap id ∧
        ∀ j (hj : j < os.length), tryReduce coeffA coeffD S (sha (seed ++ (Wire.leBytes 8 (i + j)).reverse)) = .ok os[j] := by
    intro fuel
    induction fuel with
    | zero =>
      intro i n l hl
      cases n with
      | zero =>
        simp only [generateFrom] at hl
        injection hl with hl
        exact ⟨[], by simp, by simp [← hl], by simp⟩
      | succ n => simp [generateFrom] at hl
    | succ fuel ih =>
      intro i n l hl
      cases n with
      | zero =>
        simp only [generateFrom] at hl
        injection hl with hl
        exact ⟨[], by simp, by simp [← hl], by simp⟩
      | succ n =>
        rw [generateFrom] at hl
        cases hc : tryReduce coeffA coeffD S (sha (seed ++ (Wire.leBytes 8 i).reverse)) with
        | error e => rw [hc] at hl; cases hl
        | ok res =>
        rw [hc] at hl
        simp only [bind, Except.bind] at hl
        have key : ∀ os : List (Option (Proj (ZMod Bander.q))),
            (∀ j (hj : j < os.length), tryReduce coeffA coeffD S (sha (seed ++ (Wire.leBytes 8 (i + 1 + j)).reverse)) = .ok os[j]) →
            ∀ j (hj : j < (res :: os).length),
              tryReduce coeffA coeffD S (sha (seed ++ (Wire.leBytes 8 (i + j)).reverse)) = .ok (res :: os)[j] := by
          intro os hos j hj
          cases j with
          | zero => exact hc
          | succ j =>
            have := hos j (by simpa using hj)
            rw [show i + 1 + j = i + (j + 1) by omega] at this
            exact this
        cases res with
        | none =>
          obtain ⟨os, h1, h2, h3⟩ := ih _ _ _ hl
          exact ⟨none :: os, by simpa using h1, by simpa using h2, key os h3⟩
        | some p =>
          simp only at hl
          cases hr : generateFrom coeffA coeffD S sha seed fuel (i + 1) n with
          | error e => rw [hr] at hl; cases hl
          | ok l' =>
            rw [hr] at hl
            injection hl with hl
            obtain ⟨os, h1, h2, h3⟩ := ih _ _ _ hr
            exact ⟨some p :: os, by simpa using h1, by simp [← hl, h2], key os h3⟩
  unfold Crs.new generateRandomElements at h
  cases hG : generateFrom coeffA coeffD S sha seed (2 ^ 64) 0 n with
  | error e => rw [hG] at h; cases h
  | ok G =>
    rw [hG] at h
    simp only [bind, Except.bind] at h
    cases hd : assertDedup [] G with
    | error e => rw [hd] at h; cases h
    | ok u =>
      rw [hd] at h
      injection h with h
      subst h
      obtain ⟨os, h1, h2, h3⟩ := hgen _ _ _ _ hG
      exact ⟨os, h1, h2, fun i hi => by simpa using h3 i hi⟩

/-- **C53** (generated reference string): whatever the hash function, a reference string generated from a seed has the requested number
of generators, all represent elements of the group, and no two are equal. -/
theorem C53_generated (S : Sqrt (ZMod Bander.q)) (sha : List Byte → List Byte) (gen : Proj (ZMod Bander.q)) (n : ℕ) (seed : List Byte)
    {crs : Crs Bander.q} (h : Crs.new coeffA coeffD S sha gen n seed = .ok crs) :
    crs.n = n ∧ crs.G.length = n ∧ crs.Q = gen ∧
    ∃ es : List BElem, List.Forall₂ (fun p e => Bander.Represents p e) crs.G es ∧ es.Nodup := by
  have hgen : ∀ fuel i n l, generateFrom coeffA coeffD S sha seed fuel i n = .ok l →
      l.length = n ∧ ∃ es : List BElem, List.Forall₂ (fun p e => Bander.Represents p e) l es := by
    intro fuel
    induction fuel with
    | zero =>
      intro i n l hl
      cases n with
      | zero =>
        simp only [generateFrom] at hl
        injection hl with hl
        subst hl
        exact ⟨rfl, [], .nil⟩
      | succ n => simp [generateFrom] at hl
    | succ fuel ih =>
      intro i n l hl
      cases n with
      | zero =>
        simp only [generateFrom] at hl
        injection hl with hl
        subst hl
        exact ⟨rfl, [], .nil⟩
      | succ n =>
        obtain ⟨res, h1, h2⟩ := C39_reduce good S (sha (seed ++ (Wire.leBytes 8 i).reverse))
        rw [generateFrom, h1] at hl
        simp only [bind, Except.bind] at hl
        cases res with
        | none => exact ih _ _ _ hl
        | some p =>
          simp only at hl
          cases hr : generateFrom coeffA coeffD S sha seed fuel (i + 1) n with
          | error e => rw [hr] at hl; cases hl
          | ok l' =>
            rw [hr] at hl
            injection hl with hl
            subst hl
            obtain ⟨h3, es, h4⟩ := ih _ _ _ hr
            obtain ⟨v, hs, -⟩ := h2 p rfl
            obtain ⟨e, he⟩ := exists_elem.2 ⟨v, (good.halve v.on).2 hs⟩
            exact ⟨by rw [List.length_cons, h3], e :: es, .cons he h4⟩
  have hded : ∀ (l : List (Proj (ZMod Bander.q))) (es : List BElem) seen, List.Forall₂ (fun p e => Bander.Represents p e) l es →
      assertDedup seen l = .ok () → es.Nodup ∧ ∀ e ∈ es, e.enc ∉ seen := by
    intro l es seen hf
    induction hf generalizing seen with
    | nil => intro _; exact ⟨List.nodup_nil, by simp⟩
    | cons h1 _ ih =>
      intro hd
      rw [assertDedup, h1.toBytes] at hd
      simp only [bind, Except.bind] at hd
      split at hd
      · cases hd
      · next hns =>
        obtain ⟨h2, h3⟩ := ih _ hd
        refine ⟨List.nodup_cons.2 ⟨fun hm => h3 _ hm (by simp), h2⟩, ?_⟩
        intro e he
        rcases List.mem_cons.1 he with rfl | he
        · exact hns
        · exact fun hm => h3 e he (by simp [hm])
  unfold Crs.new generateRandomElements at h
  cases hG : generateFrom coeffA coeffD S sha seed (2 ^ 64) 0 n with
  | error e => rw [hG] at h; cases h
  | ok G =>
    rw [hG] at h
    simp only [bind, Except.bind] at h
    cases hd : assertDedup [] G with
    | error e => rw [hd] at h; cases h
    | ok u =>
      rw [hd] at h
      injection h with h
      subst h
      obtain ⟨h1, es, h2⟩ := hgen _ _ _ _ hG
      exact ⟨rfl, h1, rfl, es, h2, (hded _ _ _ h2 hd).1⟩

/-- A case: one generator, where the hash function gives the encoding of the generator of Bandersnatch. -/
example (S : Sqrt (ZMod Bander.q)) : ∃ (sha : List Byte → List Byte) (crs : Crs Bander.q),
    Crs.new coeffA coeffD S sha generator 1 [1, 2, 3] = .ok crs := by
  obtain ⟨bs, p, h1, h2, -⟩ := C39_roundtrip good q_lt S generator_valid generator_subgroup
  have hl : bs.length = 32 := by
    rw [generator_encoding] at h1
    injection h1 with h1
    rw [← h1, List.length_reverse, Wire.leBytes_length]
  obtain ⟨res, h3, h4⟩ := C39_reduce good S bs
  have h5 : tryReduce coeffA coeffD S bs = .ok (some p) := by
    rw [← h2]
    unfold tryReduce
    dsimp only
    rw [generator_encoding] at h1
    injection h1 with h1
    rw [← h1, List.reverse_reverse, serFq, ZMod.val_natCast, Wire.leNat_leBytes, Nat.mod_eq_of_lt (a := _ % 256 ^ 32) (by decide +kernel),
      Nat.mod_eq_of_lt (by decide +kernel)]
  have h6 := C39_reencode good S hl h2
  refine ⟨fun _ => bs, ⟨1, [p], generator⟩, ?_⟩
  unfold Crs.new generateRandomElements
  rw [show 2 ^ 64 = (2 ^ 64 - 1) + 1 from by norm_num]
  simp only [generateFrom, h5, bind, Except.bind, assertDedup, h6.2.2]
  rfl

/-- **C53** (byte form): writing a reference string and reading it back gives the same affine points. -/
theorem C53_roundtrip (crs : Crs Bander.q) (hn : crs.n = crs.G.length) (v : ∀ p ∈ crs.Q :: crs.G, Valid coeffA coeffD p) :
    ∃ bs crs', crs.toBytes = .ok bs ∧ (∀ b ∈ bs, b.length = 64) ∧ Crs.fromBytes bs = .ok crs' ∧ crs'.n = crs.n ∧
      List.Forall₂ (fun p p' => p'.x = p.x / p.z ∧ p'.y = p.y / p.z ∧ p'.z = 1 ∧ p'.t = p'.x * p'.y) (crs.Q :: crs.G) (crs'.Q :: crs'.G) := by
  have hone : ∀ p, Valid coeffA coeffD p → p.toBytesUncompressed = .ok (serFq (p.x / p.z) ++ serFq (p.y / p.z)) := by
    intro p v
    rw [Proj.toBytesUncompressed, v.toAffine]
    rfl
  have hback : ∀ x y : ZMod Bander.q, fromBytesUnchecked (serFq x ++ serFq y) = .ok ⟨x, y, x * y, 1⟩ := by
    intro x y
    unfold fromBytesUnchecked
    have h1 : (serFq x ++ serFq y).take 32 = serFq x := by rw [List.take_left' (serFq_length x)]
    have h2 : (serFq x ++ serFq y).drop 32 = serFq y := by rw [List.drop_left' (serFq_length x)]
    have h3 := deFq_serFq q_lt x []
    have h4 := deFq_serFq q_lt y []
    rw [List.append_nil] at h3 h4
    rw [h1, h2, h3, h4]
  have hmap : crs.G.mapM (fun point => point.toBytesUncompressed) = .ok (crs.G.map fun p => serFq (p.x / p.z) ++ serFq (p.y / p.z)) :=
    mapM_all fun p hp => hone p (v p (by simp [hp]))
  refine ⟨(crs.G.map fun p => serFq (p.x / p.z) ++ serFq (p.y / p.z)) ++ [serFq (crs.Q.x / crs.Q.z) ++ serFq (crs.Q.y / crs.Q.z)],
    ⟨crs.n, crs.G.map fun p => ⟨p.x / p.z, p.y / p.z, p.x / p.z * (p.y / p.z), 1⟩,
    ⟨crs.Q.x / crs.Q.z, crs.Q.y / crs.Q.z, crs.Q.x / crs.Q.z * (crs.Q.y / crs.Q.z), 1⟩⟩, ?_, ?_, ?_, rfl, ?_⟩
  · unfold Crs.toBytes
    rw [hmap, hone crs.Q (v _ (by simp))]
    rfl
  · intro b hb
    rcases List.mem_append.1 hb with hb | hb
    · obtain ⟨p, -, rfl⟩ := List.mem_map.1 hb
      rw [List.length_append, serFq_length, serFq_length]
    · rw [List.mem_singleton.1 hb, List.length_append, serFq_length, serFq_length]
  · unfold Crs.fromBytes
    rw [List.getLast?_concat, List.dropLast_concat]
    dsimp only
    rw [hback, List.mapM_map]
    simp only [bind, Except.bind]
    have := mapM_all (f := (fromBytesUnchecked (q := Bander.q)) ∘ fun p : Proj (ZMod Bander.q) => serFq (p.x / p.z) ++ serFq (p.y / p.z))
      (g := fun p => ⟨p.x / p.z, p.y / p.z, p.x / p.z * (p.y / p.z), 1⟩) (l := crs.G) (fun p _ => hback _ _)
    rw [this, hn]
    simp
  · refine .cons ⟨rfl, rfl, rfl, rfl⟩ ?_
    rw [List.forall₂_map_right_iff, List.forall₂_same]
    exact fun _ _ => ⟨rfl, rfl, rfl, rfl⟩

example : ∃ crs : Crs Bander.q, crs.n = crs.G.length ∧ crs.G.length = 256 ∧ ∀ p ∈ crs.Q :: crs.G, Valid coeffA coeffD p := by
  obtain ⟨crs, -, h1, h2, h3, -, -, h4⟩ := C53_default
  refine ⟨crs, by rw [h1, h2], h2, fun p hp => ?_⟩
  rcases List.mem_cons.1 hp with rfl | hp
  · exact h4.1
  · obtain ⟨e, he⟩ : ∃ e : BElem, Bander.Represents p e := by
      clear h1 h2 h4
      have : ∀ (l : List (Proj (ZMod Bander.q))) (es : List BElem), List.Forall₂ (fun p e => Bander.Represents p e) l es →
          p ∈ l → ∃ e : BElem, Bander.Represents p e := by
        intro l es hf
        induction hf with
        | nil => intro h; cases h
        | cons h _ ih =>
          intro hp
          rcases List.mem_cons.1 hp with rfl | hp
          · exact ⟨_, h⟩
          · exact ih hp
      exact this _ _ h3 (List.mem_append_left _ hp)
    exact he.1

end Verif.Props
