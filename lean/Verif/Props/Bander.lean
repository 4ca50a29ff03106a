import Verif.Bander.Lemmas
import Verif.Bander.Params

/-!
# C38, C39, C40: group elements

The statements are for every prime `q`, every curve `a x² + y² = 1 + d x² y²` with the properties in `Good` (which hold for
Bandersnatch, `Verif.Bander.good`), every representative of an affine point (`Valid`) and every square-root routine with the
contract of arkworks.  `Valid` excludes the two points at infinity, which no decoder of the repository produces and on which
`to_bytes` panics.
-/

set_option autoImplicit false

namespace Verif.Props
open Bander

section
variable {q : ℕ} [Fact q.Prime] {a d : ZMod q}

/-- The points which are `2 Q` or `2 Q + (0, -1)` for a point `Q` of the curve: the classes of the subgroup of odd order. -/
def Subgroup (a d : ZMod q) (x y : ZMod q) : Prop :=
  ∃ x1 y1, OnCurve a d x1 y1 ∧
    ((addX d x1 y1 x1 y1 = x ∧ addY a d x1 y1 x1 y1 = y) ∨ (addX d x1 y1 x1 y1 = -x ∧ addY a d x1 y1 x1 y1 = -y))

/-- The generator of Bandersnatch (`prime_subgroup_generator`, with the sign of the repository's first test vector). -/
def generator : Proj (ZMod Bander.q) :=
  ⟨(33549696307925229982445904590536874618633472405590028303463218160177641247209 : ℕ),
    (33247207790868406533770098284893268064219217060773724591094549753060500487835 : ℕ),
    (33549696307925229982445904590536874618633472405590028303463218160177641247209 *
      33247207790868406533770098284893268064219217060773724591094549753060500487835 : ℕ), 1⟩

/-- Membership of a concrete point, by computing with representatives. -/
theorem valid_of_nat (x y : ℕ)
    (h : (x ^ 2 * (Bander.q - 5) + y ^ 2) % Bander.q =
      (1 + 45022363124591815672509500913686876175488063829319466900776701791074614335719 * x ^ 2 * y ^ 2) % Bander.q) :
    Valid coeffA coeffD ⟨(x : ZMod Bander.q), y, (x * y : ℕ), 1⟩ := by
  refine ⟨one_ne_zero, by push_cast; ring, ?_⟩
  have h := (ZMod.natCast_eq_natCast_iff' _ _ _).2 h
  have h5 : 5 ≤ Bander.q := by decide +kernel
  push_cast [Nat.cast_sub h5] at h
  simp only [div_one]
  unfold OnCurve coeffA coeffD
  push_cast
  rw [ZMod.natCast_self] at h
  linear_combination h

theorem generator_valid : Valid coeffA coeffD generator := valid_of_nat _ _ (by decide +kernel)

/-- **C38** (equality): two elements are equal exactly when they are the same affine point, or one is `(-x, -y)` of the other. -/
theorem C38_equality (P : Good a d) {p p' : Proj (ZMod q)} (v : Valid a d p) (v' : Valid a d p') :
    p.eq p' = true ↔
      (p'.x / p'.z = p.x / p.z ∧ p'.y / p'.z = p.y / p.z) ∨ (p'.x / p'.z = -(p.x / p.z) ∧ p'.y / p'.z = -(p.y / p.z)) := by
  rw [eq_iff P v v', ratio_iff P v v']
  simp [Proj.aff]

/-- **C38** (equality): an equivalence relation. -/
theorem C38_equivalence (P : Good a d) {p p' p'' : Proj (ZMod q)} (v : Valid a d p) (v' : Valid a d p') (v'' : Valid a d p'') :
    p.eq p = true ∧ p.eq p' = p'.eq p ∧ (p.eq p' = true → p'.eq p'' = true → p.eq p'' = true) := by
  refine ⟨(eq_iff P v v).2 rfl, ?_, ?_⟩
  · rw [Bool.eq_iff_iff, eq_iff P v v', eq_iff P v' v]
    exact eq_comm
  · rw [eq_iff P v v', eq_iff P v' v'', eq_iff P v v'']
    exact Eq.trans

/-- **C38** (equality): a triple with `x = y = 0`, which is no point of the curve, equals nothing, not even itself. -/
theorem C38_invalid_unequal {p : Proj (ZMod q)} (hx : p.x = 0) (hy : p.y = 0) (p' : Proj (ZMod q)) :
    p.eq p' = false ∧ p'.eq p = false := by
  constructor
  · simp [Proj.eq, hx, hy]
  · simp [Proj.eq, hx, hy]

/-- **C38** (encoding): the compressed encoding never panics, has 32 bytes, and two elements have the same encoding exactly when
they are equal. -/
theorem C38_encoding (P : Good a d) (hq : q < 2 ^ 256) {p p' : Proj (ZMod q)} (v : Valid a d p) (v' : Valid a d p') :
    ∃ b b', p.toBytes = .ok b ∧ p'.toBytes = .ok b' ∧ b.length = 32 ∧ b'.length = 32 ∧ (b = b' ↔ p.eq p' = true) := by
  refine ⟨_, _, toBytes_eq v, toBytes_eq v', by simp [serFq_length], by simp [serFq_length], ?_⟩
  rw [List.reverse_injective.eq_iff, serFq_inj hq, canonX_eq_iff P (by exact v.on) (by exact v'.on), eq_iff P v v', ratio_iff P v v']

/-- **C38** (map to the base field): it never panics, and two elements have the same image exactly when they are equal. -/
theorem C38_map_to_field (P : Good a d) {p p' : Proj (ZMod q)} (v : Valid a d p) (v' : Valid a d p') :
    ∃ t t', p.mapToField = .ok t ∧ p'.mapToField = .ok t' ∧ (t = t' ↔ p.eq p' = true) := by
  refine ⟨p.x / p.y, p'.x / p'.y, ?_, ?_, (eq_iff P v v').symm⟩
  · rw [Proj.mapToField, divide, if_neg (v.y_ne P)]
  · rw [Proj.mapToField, divide, if_neg (v'.y_ne P)]

/-- **C38** (map to the scalar field, what holds): it never panics and is constant on classes.  Missing: it does not distinguish
classes, see `C38_full_claim_false`. -/
theorem C38_scalar_hash_partial (P : Good a d) (F : Type) [Field F] {p p' : Proj (ZMod q)} (v : Valid a d p) (v' : Valid a d p') :
    ∃ t t' : F, p.mapToScalarField F = .ok t ∧ p'.mapToScalarField F = .ok t' ∧ (p.eq p' = true → t = t') := by
  obtain ⟨t, t', h1, h2, h3⟩ := C38_map_to_field P v v'
  refine ⟨frLe F (serFq t), frLe F (serFq t'), ?_, ?_, fun h => by rw [h3.2 h]⟩
  · rw [Proj.mapToScalarField, h1]; rfl
  · rw [Proj.mapToScalarField, h2]; rfl

/-- The neutral element, `Element::zero()`, `element.rs:171-173`. -/
def neutral : Proj (ZMod q) := ⟨0, 1, 0, 1⟩

/-- A point of Bandersnatch with `x / y = r`, the order of the scalar field. -/
def hashZero : Proj (ZMod Bander.q) :=
  ⟨(22222182874456480082896582723317617808980142100437263351804405073744597356350 : ℕ),
    (1355557272698088213439094984576199341205458808426301826943743325871480779548 : ℕ),
    (22222182874456480082896582723317617808980142100437263351804405073744597356350 *
      1355557272698088213439094984576199341205458808426301826943743325871480779548 : ℕ), 1⟩

theorem hashZero_valid : Valid coeffA coeffD hashZero := valid_of_nat _ _ (by decide +kernel)

theorem neutral_valid : Valid a d neutral := ⟨one_ne_zero, by simp [neutral], by simp [neutral, OnCurve]⟩

/-- The claim that the map to the scalar field distinguishes classes is false for Bandersnatch: the base field has about four times
as many elements as the scalar field.  The witness is an element of the subgroup, different from the neutral element, whose hash
is zero, the hash of the neutral element. -/
theorem C38_full_claim_false :
    Valid coeffA coeffD hashZero ∧ Valid coeffA coeffD neutral ∧
    Subgroup coeffA coeffD (hashZero.x / hashZero.z) (hashZero.y / hashZero.z) ∧ Subgroup coeffA coeffD (0 : ZMod Bander.q) 1 ∧
    hashZero.eq neutral = false ∧
    hashZero.mapToScalarField (ZMod Bander.r) = .ok 0 ∧ neutral.mapToScalarField (q := Bander.q) (ZMod Bander.r) = .ok 0 := by
  have hy : hashZero.y ≠ 0 := hashZero_valid.y_ne good
  have hx : hashZero.x = (Bander.r : ZMod Bander.q) * hashZero.y := by
    unfold hashZero
    dsimp only
    rw [← Nat.cast_mul]
    exact (ZMod.natCast_eq_natCast_iff' _ _ _).2 (by decide +kernel)
  have hz : hashZero.z = 1 := rfl
  have hr : Bander.r < Bander.q := by decide +kernel
  have hr0 : (Bander.r : ZMod Bander.q) ≠ 0 := by
    intro h
    have := congrArg ZMod.val h
    rw [ZMod.val_natCast, Nat.mod_eq_of_lt hr, ZMod.val_zero] at this
    exact absurd this (by decide +kernel)
  refine ⟨hashZero_valid, neutral_valid, ?_, ?_, ?_, ?_, ?_⟩
  · refine (good.halve hashZero_valid.on).1
      ⟨((27900165777473920472136915172535712075056886524969927745477585998615005812916 : ℕ) : ZMod Bander.q), ?_⟩
    rw [hz, div_one, coeffA, neg_mul, sub_neg_eq_add]
    have : ((1 + 5 * 22222182874456480082896582723317617808980142100437263351804405073744597356350 ^ 2 : ℕ) : ZMod Bander.q) =
      ((27900165777473920472136915172535712075056886524969927745477585998615005812916 *
        27900165777473920472136915172535712075056886524969927745477585998615005812916 : ℕ) : ZMod Bander.q) :=
      (ZMod.natCast_eq_natCast_iff' _ _ _).2 (by decide +kernel)
    rw [Nat.cast_add, Nat.cast_mul, Nat.cast_mul, Nat.cast_pow, Nat.cast_one] at this
    exact this
  · exact ⟨0, 1, by simp [OnCurve], by simp [addX, addY]⟩
  · unfold Proj.eq
    rw [if_neg (fun h => hy h.2), if_neg (by simp [neutral]), decide_eq_false_iff_not]
    simp only [neutral, mul_one, zero_mul]
    rw [hx]
    exact mul_ne_zero hr0 hy
  · rw [Proj.mapToScalarField, Proj.mapToField, divide, if_neg hy, hx, mul_div_assoc, div_self hy, mul_one]
    simp only [bind, Except.bind]
    unfold frLe serFq
    rw [Wire.leNat_leBytes, ZMod.val_natCast, Nat.mod_eq_of_lt hr, Nat.mod_eq_of_lt (by decide +kernel), ZMod.natCast_self]
  · rw [Proj.mapToScalarField, Proj.mapToField, divide, if_neg (by simp [neutral])]
    simp only [neutral, bind, Except.bind, zero_div]
    unfold frLe serFq
    rw [Wire.leNat_leBytes, ZMod.val_zero, Nat.zero_mod, Nat.cast_zero]

example : Valid coeffA coeffD generator ∧ Valid coeffA coeffD hashZero ∧ Good coeffA coeffD ∧ Bander.q < 2 ^ 256 :=
  ⟨generator_valid, hashZero_valid, good, by decide +kernel⟩

/-- A square-root routine exists. -/
noncomputable def someSqrt (K : Type) [Field K] : Sqrt K := by
  classical
  exact {
    f := fun x => if h : IsSquare x then some h.choose else none
    sound := by
      intro x b h
      split at h
      · next hs =>
        injection h with h
        rw [← h, ← hs.choose_spec]
      · cases h
    complete := fun {x} h => ⟨h.choose, by rw [dif_pos h]⟩ }

theorem generator_subgroup : Subgroup coeffA coeffD (generator.x / generator.z) (generator.y / generator.z) := by
  refine (good.halve generator_valid.on).1
    ⟨((10492313172349039683469942431944542861281997749014010607045972223061357375855 : ℕ) : ZMod Bander.q), ?_⟩
  have hz : generator.z = 1 := rfl
  rw [hz, div_one, coeffA, neg_mul, sub_neg_eq_add]
  have : ((1 + 5 * 33549696307925229982445904590536874618633472405590028303463218160177641247209 ^ 2 : ℕ) : ZMod Bander.q) =
    ((10492313172349039683469942431944542861281997749014010607045972223061357375855 *
      10492313172349039683469942431944542861281997749014010607045972223061357375855 : ℕ) : ZMod Bander.q) :=
    (ZMod.natCast_eq_natCast_iff' _ _ _).2 (by decide +kernel)
  rw [Nat.cast_add, Nat.cast_mul, Nat.cast_mul, Nat.cast_pow, Nat.cast_one] at this
  exact this

/-- The first test vector of the repository (`element.rs`, `fixed_test_vectors`): the encoding of the generator. -/
theorem generator_encoding : generator.toBytes =
    .ok (Wire.leBytes 32 0x4a2c7486fd924882bf02c6908de395122843e3e05264d7991e18e7985dad51e9).reverse := by
  rw [toBytes_eq generator_valid]
  have hz : generator.z = 1 := rfl
  have hy : isPositive generator.y = true := by
    unfold isPositive generator
    dsimp only
    rw [ZMod.neg_val, ZMod.val_natCast]
    decide +kernel
  unfold canonX Proj.aff
  rw [hz, div_one, div_one, if_pos hy]
  unfold serFq generator
  dsimp only
  rw [ZMod.val_natCast, Nat.mod_eq_of_lt (by decide +kernel)]

/-- **C39** (total): decoding never panics, whatever the length of the input. -/
theorem C39_total (P : Good a d) (S : Sqrt (ZMod q)) (bs : List Byte) : ∃ r, fromBytes a d S bs = .ok r := by
  rcases fromBytes_cases P S bs with ⟨x, y, -, -, -, -, h⟩ | ⟨h, -⟩ <;> exact ⟨_, h⟩

/-- **C39** (re-encoding): an element decoded from 32 bytes is a point of the subgroup, and encodes to the same bytes. -/
theorem C39_reencode (P : Good a d) (S : Sqrt (ZMod q)) {bs : List Byte} (hl : bs.length = 32) {p : Proj (ZMod q)}
    (h : fromBytes a d S bs = .ok (some p)) : Valid a d p ∧ Subgroup a d (p.x / p.z) (p.y / p.z) ∧ p.toBytes = .ok bs := by
  rcases fromBytes_cases P S bs with ⟨x, y, h1, h2, h3, h4, h5⟩ | ⟨h5, -⟩
  · rw [h] at h5
    injection h5 with h5
    injection h5 with h5
    subst h5
    have v : Valid a d ⟨x, y, x * y, 1⟩ := ⟨one_ne_zero, by simp, by simpa using h2⟩
    refine ⟨v, ?_, ?_⟩
    · simp only [div_one]
      exact (P.halve h2).1 h4
    · rw [toBytes_eq v]
      obtain ⟨rest, e⟩ := deFq_some h1
      have : rest = [] := by
        have := congrArg List.length e
        rw [List.length_reverse, List.length_append, serFq_length, hl] at this
        exact List.length_eq_zero_iff.1 (by omega)
      rw [this, List.append_nil] at e
      have hc : canonX (Proj.aff ⟨x, y, x * y, 1⟩) = x := by simp [canonX, Proj.aff, h3]
      rw [hc, ← e, List.reverse_reverse]
  · rw [h] at h5
    cases h5

/-- **C39** (round trip): the encoding of a point of the subgroup decodes to an equal element. -/
theorem C39_roundtrip (P : Good a d) (hq : q < 2 ^ 256) (S : Sqrt (ZMod q)) {p : Proj (ZMod q)} (v : Valid a d p)
    (hs : Subgroup a d (p.x / p.z) (p.y / p.z)) :
    ∃ bs p', p.toBytes = .ok bs ∧ fromBytes a d S bs = .ok (some p') ∧ p.eq p' = true := by
  have hon := v.on
  have hsq := (P.halve hon).2 hs
  have key : ∃ y, OnCurve a d (canonX p.aff) y ∧ (canonX p.aff) ^ 2 = (p.x / p.z) ^ 2 := by
    unfold canonX Proj.aff
    dsimp only
    split
    · exact ⟨_, hon, rfl⟩
    · exact ⟨_, (Good.on_neg hon).1, by rw [neg_sq]⟩
  obtain ⟨y0, hy0, hsq0⟩ := key
  have hde : deFq (q := q) (serFq (canonX p.aff)).reverse.reverse = some (canonX p.aff) := by
    rw [List.reverse_reverse]
    simpa using deFq_serFq hq (canonX p.aff) []
  rcases fromBytes_cases P S (serFq (canonX p.aff)).reverse with ⟨x, y, h1, h2, h3, h4, h5⟩ | ⟨-, h5⟩
  · rw [hde] at h1
    injection h1 with h1
    refine ⟨_, _, toBytes_eq v, h5, ?_⟩
    have v' : Valid a d ⟨x, y, x * y, 1⟩ := ⟨one_ne_zero, by simp, by simpa using h2⟩
    rw [eq_iff P v v', ratio_iff P v v', ← canonX_eq_iff P (by exact v.on) (by exact v'.on), h1]
    simp [canonX, Proj.aff, h3]
  · exact absurd (by rw [hsq0]; exact hsq) (h5 _ _ hde hy0)

/-- **C39** (accepted inputs): 32 bytes decode to an element exactly when they are the encoding of a point of the subgroup. -/
theorem C39_accepts (P : Good a d) (hq : q < 2 ^ 256) (S : Sqrt (ZMod q)) {bs : List Byte} (hl : bs.length = 32) :
    (∃ p, fromBytes a d S bs = .ok (some p)) ↔
      ∃ p, Valid a d p ∧ Subgroup a d (p.x / p.z) (p.y / p.z) ∧ p.toBytes = .ok bs := by
  constructor
  · rintro ⟨p, hp⟩
    exact ⟨p, C39_reencode P S hl hp⟩
  · rintro ⟨p, v, hs, hb⟩
    obtain ⟨bs', p', h1, h2, -⟩ := C39_roundtrip P hq S v hs
    rw [hb] at h1
    injection h1 with h1
    exact ⟨p', h1 ▸ h2⟩

/-- **C39** (other lengths): shorter inputs are refused; of longer inputs only the last 32 bytes are read. -/
theorem C39_other_lengths (S : Sqrt (ZMod q)) (bs : List Byte) :
    (bs.length < 32 → fromBytes a d S bs = .ok none) ∧
    (32 ≤ bs.length → fromBytes a d S bs = fromBytes a d S (bs.drop (bs.length - 32))) := by
  constructor
  · intro hl
    unfold fromBytes deFq
    have : Wire.readExact 32 bs.reverse = none := by
      cases h : Wire.readExact 32 bs.reverse with
      | none => rfl
      | some x =>
        obtain ⟨h1, h2⟩ := Wire.readExact_iff.1 (show Wire.readExact 32 bs.reverse = some (x.1, x.2) from h)
        have := congrArg List.length h2
        rw [List.length_reverse, List.length_append, h1] at this
        omega
    rw [this]
  · intro hl
    have e : bs.reverse = (bs.drop (bs.length - 32)).reverse ++ (bs.take (bs.length - 32)).reverse := by
      rw [← List.reverse_append, List.take_append_drop]
    have hlen : (bs.drop (bs.length - 32)).reverse.length = 32 := by
      rw [List.length_reverse, List.length_drop]
      omega
    have : deFq (q := q) bs.reverse = deFq (bs.drop (bs.length - 32)).reverse := by
      unfold deFq
      rw [e, Wire.readExact_append hlen]
      have := Wire.readExact_append hlen []
      rw [List.append_nil] at this
      rw [this]
    unfold fromBytes
    rw [this]

/-- **C39** (hashing to the group): `try_reduce_to_element` never panics, and what it returns is a point of the subgroup whose
encoding is the input modulo `q`. -/
theorem C39_reduce (P : Good a d) (S : Sqrt (ZMod q)) (bs : List Byte) :
    ∃ r, tryReduce a d S bs = .ok r ∧ ∀ p, r = some p →
      Valid a d p ∧ Subgroup a d (p.x / p.z) (p.y / p.z) ∧
      p.toBytes = .ok (Wire.leBytes 32 (leNat bs.reverse % q)).reverse := by
  unfold tryReduce
  dsimp only
  obtain ⟨r, hr⟩ := C39_total P S (serFq ((leNat bs.reverse : ℕ) : ZMod q)).reverse
  refine ⟨r, hr, ?_⟩
  rintro p rfl
  have := C39_reencode P S (by rw [List.length_reverse, serFq_length]) hr
  rw [serFq, ZMod.val_natCast] at this
  exact this

example (S : Sqrt (ZMod Bander.q)) : ∃ p,
    fromBytes coeffA coeffD S (Wire.leBytes 32 0x4a2c7486fd924882bf02c6908de395122843e3e05264d7991e18e7985dad51e9).reverse =
      .ok (some p) ∧ generator.eq p = true := by
  obtain ⟨bs, p, h1, h2, h3⟩ := C39_roundtrip good (by decide +kernel) S generator_valid generator_subgroup
  rw [generator_encoding] at h1
  injection h1 with h1
  exact ⟨p, h1 ▸ h2, h3⟩

example : (Wire.leBytes 32 0x4a2c7486fd924882bf02c6908de395122843e3e05264d7991e18e7985dad51e9).reverse.length = 32 ∧
    Nonempty (Sqrt (ZMod Bander.q)) := ⟨by rw [List.length_reverse, Wire.leBytes_length], ⟨someSqrt _⟩⟩

/-- **C40**: mapping a list of elements at once gives the list of the single results. -/
theorem C40_batch (P : Good a d) (F : Type) [Field F] (l : List (Proj (ZMod q))) (v : ∀ p ∈ l, Valid a d p) :
    l.mapM (fun p => p.mapToScalarField F) = .ok (batchMapToScalarField F l) := by
  induction l with
  | nil => rfl
  | cons p l ih =>
    have hy := (v p (by simp)).y_ne P
    rw [List.mapM_cons, ih fun p hp => v p (by simp [hp]), Proj.mapToScalarField, Proj.mapToField, divide, if_neg hy]
    simp only [bind, Except.bind, pure, Except.pure, batchMapToScalarField, List.map_cons, List.zipWith_cons_cons]
    rw [div_eq_inv_mul]

example : ∀ p ∈ [generator, neutral, hashZero], Valid coeffA coeffD p := by
  simp only [List.mem_cons, List.not_mem_nil, or_false]
  rintro p (rfl | rfl | rfl)
  exacts [generator_valid, neutral_valid, hashZero_valid]

/-- **C40** (outside the curve): for an element with `y = 0` the two differ: the single map panics, the batch gives `0`. -/
theorem C40_zero_y (F : Type) [Field F] (l l' : List (Proj (ZMod q))) {p : Proj (ZMod q)} (h : p.y = 0) :
    (∃ e, p.mapToScalarField F = .error e) ∧ (batchMapToScalarField F (l ++ p :: l'))[l.length]? = some 0 := by
  constructor
  · rw [Proj.mapToScalarField, Proj.mapToField, divide, if_pos h]
    exact ⟨_, rfl⟩
  · simp [batchMapToScalarField, h, frLe, serFq, Wire.leNat_leBytes]

end

end Verif.Props
