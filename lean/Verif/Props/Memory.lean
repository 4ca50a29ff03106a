import Verif.Wire.Memory
import Verif.Props.Size

/-!
# C73: memory asked for while decoding proofs
-/

set_option autoImplicit false

namespace Verif.Props
open Verif.Spec Verif.Trie Verif.Proof Verif.Wire BOrd

section
variable {F G : Type} (K : WireCodec F G)

/-- The bytes asked for while `bs` is decoded as a proof. -/
def memory (bs : List Byte) : ℕ := (readProofM K bs).2

/-- The bytes start with a list of stems followed by the announcement of `k` depths of which fewer than `k` are there. -/
def Truncated (bs : List Byte) (stems : List Stem) (k : ℕ) : Prop :=
  stems.length < 2 ^ 32 ∧ k < 2 ^ 32 ∧ ∃ rest : List Byte, rest.length < k ∧
    bs = leBytes 4 stems.length ++ stems.flatMap Subtype.val ++ leBytes 4 k ++ rest

/-- The decoder that counts returns what the decoder returns. -/
theorem C73_same_result (bs : List Byte) : (readProofM K bs).1 = readProof K bs := readProofM_fst K bs

theorem readProofM_truncated {bs : List Byte} {stems : List Stem} {k : ℕ} (h : Truncated bs stems k) :
    readProofM K bs = (.ok none, 31 * stems.length + k) := by
  obtain ⟨h1, h2, rest, h3, rfl⟩ := h
  have e1 : readExact 4 (leBytes 4 stems.length ++ stems.flatMap Subtype.val ++ leBytes 4 k ++ rest) =
      some (leBytes 4 stems.length, stems.flatMap Subtype.val ++ (leBytes 4 k ++ rest)) := by
    rw [List.append_assoc, List.append_assoc]
    exact readExact_le4 _ _
  have e2 : readExact k rest = none := by rw [readExact, if_neg (by omega)]
  have : readHintM (leBytes 4 stems.length ++ stems.flatMap Subtype.val ++ leBytes 4 k ++ rest) =
      (.ok none, 31 * stems.length + k) := by
    simp only [readHintM, e1, leNat_le4 h1, readStemsM_flat, readExact_le4, leNat_le4 h2, e2]
  simp only [readProofM, this]

/-- C73 (what holds).  Exactly on inputs that announce more depths than they contain the decoder has asked for the number of bytes
announced, on top of the stems, before it returns an error; on all other inputs, whether it returns a proof, an error or
panics, for at most three times the length of the input and 512 bytes. -/
theorem C73_memory_partial (bs : List Byte) :
    (∀ stems k, Truncated bs stems k → readProof K bs = .ok none ∧ memory K bs = 31 * stems.length + k) ∧
    ((¬ ∃ stems k, Truncated bs stems k) → memory K bs ≤ 3 * bs.length + 512) ∧
    memory K bs ≤ 3 * bs.length + 2 ^ 32 + 512 := by
  have hT : ∀ stems k, Truncated bs stems k → readProof K bs = .ok none ∧ memory K bs = 31 * stems.length + k := by
    intro stems k h
    have := readProofM_truncated K h
    exact ⟨by rw [← readProofM_fst, this], by rw [memory, this]⟩
  have hN : (∃ stems k, Truncated bs stems k) ∨ memory K bs ≤ 3 * bs.length + 512 := by
    rcases readHintM_snd bs with ⟨stems, k, rest, h1, h2, h3, h4, -⟩ | ⟨h1, h2⟩
    · exact Or.inl ⟨stems, k, h1, h2, rest, h3, h4⟩
    · right
      unfold memory readProofM
      cases hh : readHintM bs with
      | mk o c =>
      rw [hh] at h1 h2
      simp only at h1 h2
      rcases o with e | _ | ⟨hint, b1⟩
      · simp only; omega
      · simp only; omega
      · have h2' := h2 hint b1 rfl
        simp only
        cases h3 : readExact 4 b1 with
        | none => simp only; omega
        | some p =>
          obtain ⟨n, b2⟩ := p
          obtain ⟨hn, rfl⟩ := readExact_iff.1 h3
          rw [List.length_append, hn] at h2'
          have hc := readCommsM_snd K (leNat n) b2
          simp only
          cases hq : readCommsM K (leNat n) b2 with
          | mk o c' =>
          rw [hq] at hc
          rcases o with _ | ⟨cs, b3⟩
          · have := hc.2
            simp only at this ⊢
            omega
          · have h5 := hc.1 cs b3 rfl
            have hm : (multiFromBytesM K b3 256).2 ≤ 512 := by
              unfold multiFromBytesM
              rw [clog256]
              simp only
              split
              · omega
              · split <;> omega
            simp only at h5 ⊢
            omega
  refine ⟨hT, fun h => hN.resolve_left h, ?_⟩
  rcases hN with ⟨stems, k, h⟩ | h
  · have h1 := (hT stems k h).2
    obtain ⟨-, hk, rest, -, h3⟩ := h
    have : 31 * stems.length ≤ bs.length := by
      rw [h3]
      simp only [List.length_append, leBytes_length, List.length_flatMap]
      rw [List.map_congr_left (g := fun _ => 31) fun s _ => s.2]
      simp
      omega
    omega
  · omega

/-- An input from which a proof is read asks for its length, two bytes more for every depth, and 500 bytes: no part of it is held
twice but the depths, whatever stems are repeated in it. -/
theorem C73_accepted {bs : List Byte} {p : VerkleProof G (MultiProof F G)} (h : readProof K bs = .ok (some p)) :
    memory K bs = bs.length + 2 * p.hint.depths.length + 500 := by
  rw [← readProofM_fst] at h
  unfold memory
  unfold readProofM at h ⊢
  have hx := @readHintM_exact bs
  cases hh : readHintM bs with
  | mk o c =>
  rw [hh] at h hx
  rcases o with e | _ | ⟨hint, b1⟩
  · cases h
  · cases h
  · have h1 := hx rfl
    simp only at h h1 ⊢
    cases h3 : readExact 4 b1 with
    | none => rw [h3] at h; cases h
    | some q =>
      obtain ⟨n, b2⟩ := q
      obtain ⟨hn, rfl⟩ := readExact_iff.1 h3
      rw [h3] at h
      have hc := readCommsM_snd K (leNat n) b2
      simp only at h ⊢
      cases hq : readCommsM K (leNat n) b2 with
      | mk o c' =>
      rw [hq] at h hc
      rcases o with _ | ⟨cs, b3⟩
      · cases h
      · have h5 := hc.1 cs b3 rfl
        simp only [multiFromBytesM] at h h5 ⊢
        rw [List.length_append, hn] at h1
        unfold multiFromBytes at h
        rw [clog256]
        split at h
        · cases h
        · rename_i h32
          rw [if_neg h32]
          cases hd : K.decE (b3.take 32) with
          | none => rw [hd] at h; cases h
          | some g =>
            rw [hd] at h
            simp only [bind, Except.bind] at h ⊢
            rcases hi : ipaFromBytes K (b3.drop 32) 256 with _ | _ | y
            · rw [hi] at h; cases h
            · rw [hi] at h; cases h
            · rw [hi] at h
              simp only [Except.map, Option.map_some, Except.ok.injEq, Option.some.injEq] at h
              rw [← h]
              simp only
              omega

/-- Eight bytes suffice to make the decoder ask for any number of bytes below 2³². -/
theorem C73_amplification {k : ℕ} (hk0 : 0 < k) (hk : k < 2 ^ 32) :
    ∃ bs : List Byte, bs.length = 8 ∧ readProof K bs = .ok none ∧ memory K bs = k := by
  have h : Truncated (leBytes 4 0 ++ leBytes 4 k) [] k := ⟨by simp, hk, [], by simpa using hk0, by simp⟩
  obtain ⟨h1, -⟩ := C73_memory_partial K (leBytes 4 0 ++ leBytes 4 k)
  have := h1 _ _ h
  exact ⟨_, by simp [leBytes_length], this.1, by simpa using this.2⟩

/-- C73, the full claim is false: the memory is not in proportion to the input, whatever factor below 400 million is allowed. -/
theorem C73_full_claim_false : ¬ ∃ c, c ≤ 400000000 ∧ ∀ bs : List Byte, memory K bs ≤ c * (bs.length + 1) := by
  rintro ⟨c, hc, h⟩
  obtain ⟨bs, h1, -, h3⟩ := C73_amplification K (k := 2 ^ 32 - 1) (by norm_num) (by norm_num)
  have := h bs
  rw [h1, h3] at this
  norm_num at this
  omega

end

/-- Decoding a proof written by the prover asks for at most 1088 bytes and 1027 per distinct key. -/
theorem C73_honest {F G : Type} [Field F] [AddCommGroup G] [Module F G] [DecidableEq F] [DecidableEq G] (C : Crypto F G)
    (K : WireCodec F G) (openAll : List (ProverQuery F G) → Res (MultiProof F G))
    (check : MultiProof F G → List (VerifierQuery F G) → Res Bool)
    (hO : ∀ qs p, openAll qs = .ok p → p.openProof.L.length = 8 ∧ p.openProof.R.length = 8)
    (l : List (Key × Value)) {db : MemoryDb F G} (hb : build C l = .ok db) {keys : List Key} (hk : 36 * keys.length < 2 ^ 32)
    {p : VerkleProof G (MultiProof F G)}
    (hp : createVerkleProof (⟨MultiProof F G, openAll, check⟩ : Opener F G) db keys = .ok (.ok p)) :
    ∃ bs, writeProof K p = .ok bs ∧ readProof K bs = .ok (some p) ∧ memory K bs ≤ 1088 + 1027 * keys.toFinset.card := by
  obtain ⟨bs, h1, h2⟩ := C24_proof_roundtrip C K openAll check hO l hb hk hp
  obtain ⟨bs', h1', -, -, -, -, h3⟩ := C72_proof_size C K openAll check hO l hb hp
  rw [h1] at h1'
  cases h1'
  have h4 := C73_accepted K h2
  have hne : keys ≠ [] := fun e => by simp [createVerkleProof, e] at hp
  have hdep : p.hint.depths.length = (stemSet keys).card := by
    simp only [createVerkleProof, if_neg hne, bind, Except.bind] at hp
    cases hq : createProverQueries db keys with
    | error e => rw [hq] at hp; simp at hp
    | ok r =>
      obtain ⟨qs, h⟩ := r
      have h1 := (C72_query_count C l hb hq).1
      rw [hq] at hp
      cases qs with
      | nil => simp at hp
      | cons q qs =>
        simp only at hp
        cases ho : openAll (q :: qs) with
        | error e => rw [ho] at hp; simp at hp
        | ok pf =>
          rw [ho] at hp
          simp only [Except.ok.injEq] at hp
          rw [← hp]
          exact h1
  have hle : (stemSet keys).card ≤ keys.toFinset.card := by
    have : stemSet keys = keys.toFinset.image Key.stem := by ext s; simp [stemSet]
    rw [this]
    exact Finset.card_image_le
  exact ⟨bs, h1, h2, by omega⟩

/-- Both cases of C73 occur: nine bytes that announce 65536 depths, and nine bytes with one depth. -/
example : Truncated ([0, 0, 0, 0, 0, 0, 1, 0, 2] : List Byte) [] 65536 ∧ memory toyWire [0, 0, 0, 0, 0, 0, 1, 0, 2] = 65536 ∧
    memory toyWire [0, 0, 0, 0, 1, 0, 0, 0, 2] = 3 :=
  ⟨⟨by simp, by norm_num, [2], by simp, by decide +kernel⟩, by decide +kernel, by decide +kernel⟩

end Verif.Props
