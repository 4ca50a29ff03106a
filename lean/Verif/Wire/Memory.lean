import Verif.Wire.Lemmas

/-!
# Memory asked for while proof bytes are decoded

The decoders of `Verif.Wire.Model` once more, each returning beside its result the number of bytes it has asked the allocator
for until it returned or panicked: 31 for every stem put into the set, `n` for `vec![0u8; n]` and `read_to_end`, one for
every depth and status pushed, 32 for every group element pushed (an element takes a constant multiple of that in memory) and for
every element of capacity asked for.  The spare capacity of growing vectors and the nodes of the set are not counted: they are
at most a constant factor.  Everything allocated is kept until the end, so the sum is also what is held.
-/

set_option autoImplicit false

namespace Verif.Wire
open Proof

/-- The loop over the stems, `/repo/verkle-trie/src/proof.rs:77-82`. -/
def readStemsM : ℕ → List Byte → BSet Stem → Option (BSet Stem × List Byte) × ℕ
  | 0, bs, s => (some (s, bs), 0)
  | n + 1, bs, s =>
    if h : 31 ≤ bs.length then
      let r := readStemsM n (bs.drop 31) (BSet.insert ⟨bs.take 31, by simp [h]⟩ s)
      (r.1, 31 + r.2)
    else (none, 0)

/-- The loop over the packed bytes, `proof.rs:95-109`. -/
def readPackedM : List Byte → Res (List Byte × List ExtPresent) × ℕ
  | [] => (.ok ([], []), 0)
  | b :: bs =>
    match readStatus b with
    | .error e => (.error e, 0)
    | .ok e =>
      let r := readPackedM bs
      (r.1.map fun p => (asU8 (b.val >>> 3) :: p.1, e :: p.2), 2 + r.2)

/-- `VerificationHint::read`, `proof.rs:71-116`, with the buffer of line 92. -/
def readHintM (bs : List Byte) : Res (Option (VerificationHint × List Byte)) × ℕ :=
  match readExact 4 bs with
  | none => (.ok none, 0)
  | some (n, bs) =>
    match readStemsM (leNat n) bs [] with
    | (none, c) => (.ok none, c)
    | (some (stems, bs), c) =>
      match readExact 4 bs with
      | none => (.ok none, c)
      | some (k, bs) =>
        match readExact (leNat k) bs with
        | none => (.ok none, c + leNat k)
        | some (buf, bs) =>
          let r := readPackedM buf
          (r.1.map fun p => some (⟨p.1, p.2, stems⟩, bs), c + leNat k + r.2)

section
variable {F G : Type} (K : WireCodec F G)

/-- The loop over the commitments, `proof.rs:191-201`. -/
def readCommsM : ℕ → List Byte → Option (List G × List Byte) × ℕ
  | 0, bs => (some ([], bs), 0)
  | n + 1, bs =>
    match readExact 32 bs with
    | none => (none, 0)
    | some (c, bs) =>
      match K.decE c with
      | none => (none, 0)
      | some x =>
        let r := readCommsM n bs
        (r.1.map fun p => (x :: p.1, p.2), 32 + r.2)

/-- `MultiPointProof::from_bytes` (`/repo/ipa-multipoint/src/multiproof.rs:174-188`) asks for two vectors of `log2(256)` elements
(`ipa.rs:35-36`) once the first element is read. -/
def multiFromBytesM (bs : List Byte) (deg : ℕ) : Res (Option (MultiProof F G)) × ℕ :=
  (multiFromBytes K bs deg,
    if bs.length < 32 then 0 else match K.decE (bs.take 32) with
      | none => 0
      | some _ => 2 * (32 * Nat.clog 2 deg))

/-- `VerkleProof::read`, `proof.rs:184-211`; `read_to_end` (line 203) copies what is left. -/
def readProofM (bs : List Byte) : Res (Option (VerkleProof G (MultiProof F G))) × ℕ :=
  match readHintM bs with
  | (.error e, c) => (.error e, c)
  | (.ok none, c) => (.ok none, c)
  | (.ok (some (hint, bs)), c) =>
    match readExact 4 bs with
    | none => (.ok none, c)
    | some (n, bs) =>
      match readCommsM K (leNat n) bs with
      | (none, c') => (.ok none, c + c')
      | (some (cs, bs), c') =>
        let r := multiFromBytesM K bs 256
        (r.1.map fun o => o.map fun p => ⟨hint, cs, p⟩, c + c' + bs.length + r.2)

end

/-! ### The results are those of the decoders -/

theorem readStemsM_fst : ∀ (n : ℕ) (bs : List Byte) (s : BSet Stem), (readStemsM n bs s).1 = readStems n bs s
  | 0, _, _ => rfl
  | n + 1, bs, s => by
    rw [readStemsM, readStems]
    split
    · exact readStemsM_fst n _ _
    · rfl

theorem readPackedM_fst : ∀ bs : List Byte, (readPackedM bs).1 = readPacked bs
  | [] => rfl
  | b :: bs => by
    rw [readPackedM, readPacked]
    cases readStatus b with
    | error e => rfl
    | ok e =>
      simp only [readPackedM_fst bs]
      cases readPacked bs <;> rfl

theorem readHintM_fst (bs : List Byte) : (readHintM bs).1 = readHint bs := by
  rw [readHintM, readHint]
  cases readExact 4 bs with
  | none => rfl
  | some p =>
    obtain ⟨n, b1⟩ := p
    have h := readStemsM_fst (leNat n) b1 []
    simp only
    rw [← h]
    rcases readStemsM (leNat n) b1 [] with ⟨_ | ⟨stems, b2⟩, c⟩
    · rfl
    · simp only
      cases readExact 4 b2 with
      | none => rfl
      | some p =>
        obtain ⟨k, b3⟩ := p
        simp only
        cases readExact (leNat k) b3 with
        | none => rfl
        | some p =>
          simp only [readPackedM_fst]
          cases readPacked p.1 <;> rfl

section
variable {F G : Type} (K : WireCodec F G)

theorem readCommsM_fst : ∀ (n : ℕ) (bs : List Byte), (readCommsM K n bs).1 = readComms K n bs
  | 0, _ => rfl
  | n + 1, bs => by
    rw [readCommsM, readComms]
    cases readExact 32 bs with
    | none => rfl
    | some p =>
      obtain ⟨c, b1⟩ := p
      simp only [bind, Option.bind]
      cases K.decE c with
      | none => rfl
      | some x =>
        simp only [readCommsM_fst n b1]
        cases readComms K n b1 <;> rfl

theorem readProofM_fst (bs : List Byte) : (readProofM K bs).1 = readProof K bs := by
  rw [readProofM, readProof, ← readHintM_fst]
  rcases readHintM bs with ⟨_ | _ | ⟨hint, b1⟩, c⟩
  · rfl
  · rfl
  · simp only [bind, Except.bind]
    cases readExact 4 b1 with
    | none => rfl
    | some p =>
      obtain ⟨n, b2⟩ := p
      simp only
      rw [← readCommsM_fst]
      rcases readCommsM K (leNat n) b2 with ⟨_ | ⟨cs, b3⟩, c'⟩
      · rfl
      · simp only [multiFromBytesM]
        rcases multiFromBytes K b3 256 with _ | _ | _ <;> rfl

/-! ### Amounts -/

theorem readStemsM_snd : ∀ (n : ℕ) (bs : List Byte) (s : BSet Stem),
    (∀ s' r, (readStemsM n bs s).1 = some (s', r) → (readStemsM n bs s).2 + r.length = bs.length) ∧
      (readStemsM n bs s).2 ≤ bs.length
  | 0, bs, s => ⟨fun s' r h => by simp only [readStemsM, Option.some.injEq, Prod.mk.injEq] at h ⊢; rw [h.2]; simp, by simp [readStemsM]⟩
  | n + 1, bs, s => by
    rw [readStemsM]
    split
    · rename_i h
      obtain ⟨h1, h2⟩ := readStemsM_snd n (bs.drop 31) (BSet.insert ⟨bs.take 31, by simp [h]⟩ s)
      rw [List.length_drop] at h1 h2
      refine ⟨fun s' r hr => ?_, ?_⟩
      · have := h1 s' r hr
        show 31 + _ + _ = _
        omega
      · show 31 + _ ≤ _
        omega
    · simp

theorem readPackedM_snd : ∀ bs : List Byte, (readPackedM bs).2 ≤ 2 * bs.length
  | [] => le_refl _
  | b :: bs => by
    rw [readPackedM]
    cases readStatus b with
    | error e => simp
    | ok e =>
      have := readPackedM_snd bs
      simp only [List.length_cons]
      omega

theorem readCommsM_snd : ∀ (n : ℕ) (bs : List Byte),
    (∀ l r, (readCommsM K n bs).1 = some (l, r) → (readCommsM K n bs).2 + r.length = bs.length) ∧
      (readCommsM K n bs).2 ≤ bs.length
  | 0, bs => ⟨fun l r h => by simp only [readCommsM, Option.some.injEq, Prod.mk.injEq] at h ⊢; rw [h.2]; simp, by simp [readCommsM]⟩
  | n + 1, bs => by
    rw [readCommsM]
    cases hr : readExact 32 bs with
    | none => simp
    | some p =>
      obtain ⟨c, b1⟩ := p
      obtain ⟨hc, rfl⟩ := readExact_iff.1 hr
      simp only
      cases K.decE c with
      | none => simp
      | some x =>
        obtain ⟨h1, h2⟩ := readCommsM_snd n b1
        simp only [List.length_append, hc]
        refine ⟨fun l r h => ?_, by omega⟩
        cases hm : (readCommsM K n b1).1 with
        | none => rw [hm] at h; simp at h
        | some q =>
          rw [hm] at h
          simp only [Option.map_some, Option.some.injEq, Prod.mk.injEq] at h
          have := h1 q.1 q.2 hm
          rw [← h.2]
          omega

end

theorem readStemsM_flat : ∀ (stems : List Stem) (bs : List Byte) (s : BSet Stem),
    readStemsM stems.length (stems.flatMap Subtype.val ++ bs) s = (some (stems.foldl (fun s x => BSet.insert x s) s, bs), 31 * stems.length)
  | [], bs, s => rfl
  | x :: stems, bs, s => by
    have h : 31 ≤ ((x :: stems).flatMap Subtype.val ++ bs).length := by simp [x.2]
    rw [List.length_cons, readStemsM, dif_pos h]
    have h1 : ((x :: stems).flatMap Subtype.val ++ bs).drop 31 = stems.flatMap Subtype.val ++ bs := by
      rw [List.flatMap_cons, List.append_assoc, List.drop_left' x.2]
    have h2 : ((x :: stems).flatMap Subtype.val ++ bs).take 31 = x.1 := by
      rw [List.flatMap_cons, List.append_assoc, List.take_left' x.2]
    have e : (⟨((x :: stems).flatMap Subtype.val ++ bs).take 31, by rw [List.length_take]; omega⟩ : Stem) = x := Subtype.ext h2
    rw [h1, e, readStemsM_flat stems bs]
    simp only [List.foldl_cons, Prod.mk.injEq, true_and]
    omega

/-- The hint decoder asks for at most three times what it consumes, unless it stops for lack of the depths announced: then it has
asked for the announced number of bytes. -/
theorem readHintM_snd (bs : List Byte) :
    (∃ (stems : List Stem) (k : ℕ) (rest : List Byte), stems.length < 2 ^ 32 ∧ k < 2 ^ 32 ∧ rest.length < k ∧
      bs = leBytes 4 stems.length ++ stems.flatMap Subtype.val ++ leBytes 4 k ++ rest ∧
      readHintM bs = (.ok none, 31 * stems.length + k)) ∨
    ((readHintM bs).2 ≤ 3 * bs.length ∧
      ∀ h r, (readHintM bs).1 = .ok (some (h, r)) → (readHintM bs).2 + 3 * r.length ≤ 3 * bs.length) := by
  cases h1 : readExact 4 bs with
  | none =>
    right
    simp [readHintM, h1]
  | some p =>
    obtain ⟨n, b1⟩ := p
    obtain ⟨hn, rfl⟩ := readExact_iff.1 h1
    have hs := readStemsM_snd (leNat n) b1 []
    cases h2 : readStemsM (leNat n) b1 [] with
    | mk o c =>
    rw [h2] at hs
    cases o with
    | none =>
      right
      simp only [readHintM, h1, h2, List.length_append, hn]
      exact ⟨by have := hs.2; simp only at this; omega, fun h r e => by cases e⟩
    | some q =>
      obtain ⟨stems, b2⟩ := q
      have hs1 := hs.1 stems b2 rfl
      simp only at hs1
      cases h3 : readExact 4 b2 with
      | none =>
        right
        simp only [readHintM, h1, h2, h3, List.length_append, hn]
        exact ⟨by omega, fun h r e => by cases e⟩
      | some p =>
        obtain ⟨k, b3⟩ := p
        obtain ⟨hk, rfl⟩ := readExact_iff.1 h3
        rw [List.length_append, hk] at hs1
        cases h4 : readExact (leNat k) b3 with
        | none =>
          left
          have hst : readStems (leNat n) b1 [] = some (stems, k ++ b3) := by rw [← readStemsM_fst, h2]
          obtain ⟨l, hl1, hl2, hl3⟩ := (readStems_iff _ _ _ _ _).1 hst
          have hlt : ¬ leNat k ≤ b3.length := fun h => by simp [readExact, h] at h4
          have hn4 := le4_of hn
          have hk4 := le4_of hk
          have hc : c = 31 * l.length := by
            have := readStemsM_flat l (k ++ b3) []
            rw [hl1, ← hl2, h2] at this
            rw [hl1]; exact (Prod.mk.inj this).2
          refine ⟨l, leNat k, b3, by rw [hl1]; exact hn4.2, hk4.2, by omega, ?_, ?_⟩
          · rw [hl1, ← hn4.1, ← hk4.1, hl2]
            simp
          · simp only [readHintM, h1, h2, h3, h4, hc]
        | some p =>
          obtain ⟨buf, b4⟩ := p
          obtain ⟨hb, rfl⟩ := readExact_iff.1 h4
          right
          have hp := readPackedM_snd buf
          rw [List.length_append, hb] at hs1
          simp only [readHintM, h1, h2, h3, h4, List.length_append, hn]
          refine ⟨by omega, fun h r e => ?_⟩
          cases he : (readPackedM buf).1 with
          | error x => rw [he] at e; cases e
          | ok x =>
            rw [he] at e
            simp only [Except.map, Except.ok.injEq, Option.some.injEq, Prod.mk.injEq] at e
            rw [← e.2]
            omega

theorem readPackedM_exact : ∀ (bs : List Byte) (p : List Byte × List ExtPresent), (readPackedM bs).1 = .ok p →
    (readPackedM bs).2 = 2 * bs.length ∧ p.1.length = bs.length
  | [], p, h => by
    simp only [readPackedM, Except.ok.injEq] at h ⊢
    simp [← h]
  | b :: bs, p, h => by
    rw [readPackedM] at h ⊢
    cases hs : readStatus b with
    | error e => rw [hs] at h; cases h
    | ok e =>
      rw [hs] at h
      simp only at h ⊢
      cases hr : (readPackedM bs).1 with
      | error x => rw [hr] at h; cases h
      | ok q =>
        rw [hr] at h
        simp only [Except.map, Except.ok.injEq] at h
        obtain ⟨h1, h2⟩ := readPackedM_exact bs q hr
        rw [← h]
        exact ⟨by rw [h1, List.length_cons]; ring, by rw [List.length_cons, List.length_cons, h2]⟩

/-- A hint that is read takes what it occupies, without the two counters, and two bytes more for every depth. -/
theorem readHintM_exact {bs : List Byte} {h : VerificationHint} {r : List Byte} (hr : (readHintM bs).1 = .ok (some (h, r))) :
    (readHintM bs).2 + r.length + 8 = bs.length + 2 * h.depths.length := by
  cases h1 : readExact 4 bs with
  | none => simp [readHintM, h1] at hr
  | some p =>
    obtain ⟨n, b1⟩ := p
    obtain ⟨hn, rfl⟩ := readExact_iff.1 h1
    have hs := readStemsM_snd (leNat n) b1 []
    cases h2 : readStemsM (leNat n) b1 [] with
    | mk o c =>
    rw [h2] at hs
    cases o with
    | none => simp [readHintM, h1, h2] at hr
    | some q =>
      obtain ⟨stems, b2⟩ := q
      have hs1 := hs.1 stems b2 rfl
      simp only at hs1
      cases h3 : readExact 4 b2 with
      | none => simp [readHintM, h1, h2, h3] at hr
      | some p =>
        obtain ⟨k, b3⟩ := p
        obtain ⟨hk, rfl⟩ := readExact_iff.1 h3
        cases h4 : readExact (leNat k) b3 with
        | none => simp [readHintM, h1, h2, h3, h4] at hr
        | some p =>
          obtain ⟨buf, b4⟩ := p
          obtain ⟨hb, rfl⟩ := readExact_iff.1 h4
          simp only [List.length_append, hk, hb] at hs1
          simp only [readHintM, h1, h2, h3, h4] at hr ⊢
          cases he : (readPackedM buf).1 with
          | error x => rw [he] at hr; cases hr
          | ok x =>
            obtain ⟨h5, h6⟩ := readPackedM_exact buf x he
            rw [he] at hr
            simp only [Except.map, Except.ok.injEq, Option.some.injEq, Prod.mk.injEq] at hr
            rw [← hr.1, ← hr.2]
            simp only [List.length_append, hn, h5, h6, hb]
            omega

end Verif.Wire
