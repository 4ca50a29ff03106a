import Verif.Ffi.Requests
import Verif.Props.Multi
import Verif.Props.Concrete

/-!
# C48, C49: scalars and proof requests across the byte interface
-/

set_option autoImplicit false
set_option linter.unusedSectionVars false

namespace Verif.Props
open Wire Proof Ipa Ffi

section
variable {F G E : Type} (K : WireCodec F G)

/-! ### C48 -/

theorem frFromLe_append (x : F) (rest : List Byte) : frFromLeBytes K (K.encS x ++ rest) = some x := by
  unfold frFromLeBytes
  rw [readExact_append (K.encS_len x)]
  exact K.dec_encS x

theorem frFromLe_some {bs : List Byte} {x : F} (h : frFromLeBytes K bs = some x) :
    ∃ s rest, s.length = 32 ∧ bs = s ++ rest ∧ K.decS s = some x := by
  unfold frFromLeBytes at h
  cases hr : readExact 32 bs with
  | none => rw [hr] at h; cases h
  | some v =>
    obtain ⟨s, rest⟩ := v
    rw [hr] at h
    obtain ⟨h1, h2⟩ := readExact_iff.1 hr
    exact ⟨s, rest, h1, h2, h⟩

end

/-- C48 (partial).  Decoding inverts encoding; encodings have 32 bytes and are the little-endian representative below the modulus; strings
of 32 bytes at or above the modulus and shorter strings are rejected.  Missing: longer strings are not rejected, their first 32 bytes are
decoded (`C48_full_claim_false`). -/
theorem C48_scalar_bytes_partial :
    (∀ x : ZMod Bander.r, frFromLeBytes Bander.codec (frToLeBytes Bander.codec x) = some x ∧
      (frToLeBytes Bander.codec x).length = 32 ∧ leNat (frToLeBytes Bander.codec x) = x.val) ∧
    (∀ bs : List Byte, bs.length < 32 → frFromLeBytes Bander.codec bs = none) ∧
    (∀ bs : List Byte, bs.length = 32 →
      (Bander.r ≤ leNat bs → frFromLeBytes Bander.codec bs = none) ∧
      (leNat bs < Bander.r → frFromLeBytes Bander.codec bs = some ((leNat bs : ℕ) : ZMod Bander.r) ∧
        frToLeBytes Bander.codec ((leNat bs : ℕ) : ZMod Bander.r) = bs)) ∧
    ∀ (bs rest : List Byte), bs.length = 32 → frFromLeBytes Bander.codec (bs ++ rest) = frFromLeBytes Bander.codec bs := by
  refine ⟨fun x => ⟨?_, Bander.codec.encS_len x, ?_⟩, fun bs h => ?_, fun bs h => ?_, fun bs rest h => ?_⟩
  · have := frFromLe_append Bander.codec x []
    rwa [List.append_nil] at this
  · change leNat (leBytes 32 x.val) = x.val
    rw [leNat_leBytes, Nat.mod_eq_of_lt ((ZMod.val_lt x).trans (Bander.r_lt.trans_eq (by norm_num)))]
  · unfold frFromLeBytes readExact
    rw [if_neg (by omega)]
    rfl
  · have h1 : frFromLeBytes Bander.codec bs = Bander.decScalar bs := by
      unfold frFromLeBytes
      have := readExact_append h []
      rw [List.append_nil] at this
      rw [this]
      rfl
    rw [h1]
    unfold Bander.decScalar
    refine ⟨fun h2 => if_neg fun hc => absurd hc.2 (by omega), fun h2 => ⟨if_pos ⟨h, h2⟩, ?_⟩⟩
    change leBytes 32 ((leNat bs : ℕ) : ZMod Bander.r).val = bs
    rw [ZMod.val_natCast, Nat.mod_eq_of_lt h2, leBytes_leNat' h]
  · unfold frFromLeBytes
    have := readExact_append h []
    rw [List.append_nil] at this
    rw [this, readExact_append h]
    rfl

/-- C48: a string of 33 bytes is accepted, and is read as the scalar 5. -/
theorem C48_full_claim_false : ∃ bs : List Byte, bs.length ≠ 32 ∧ frFromLeBytes Bander.codec bs = some 5 := by
  refine ⟨frToLeBytes Bander.codec 5 ++ [7], ?_, frFromLe_append Bander.codec 5 [7]⟩
  rw [List.length_append, frToLeBytes, Bander.codec.encS_len]
  decide

example : (leBytes 32 (Bander.r - 1)).length = 32 ∧ leNat (leBytes 32 (Bander.r - 1)) < Bander.r ∧
    (leBytes 32 Bander.r).length = 32 ∧ Bander.r ≤ leNat (leBytes 32 Bander.r) := by
  refine ⟨leBytes_length _ _, by decide +kernel, leBytes_length _ _, by decide +kernel⟩

/-! ### C49 -/

section
variable {F G E : Type} (K : WireCodec F G)

/-- The request format of `create_proof`, for one query: commitment, 256 evaluations, point, result. -/
def proverQueryBytes (head : List Byte) (q : ProverQuery F E) : List Byte :=
  head ++ (q.poly.flatMap K.encS ++ asU8 q.point :: K.encS q.result)

/-- The queries which have a request format. -/
def Formatted (q : ProverQuery F E) : Prop := q.poly.length = 256 ∧ q.point < 256

/-- The request format of `verify_proof`, for one query: commitment, point, result. -/
def verifierQueryBytes (head : List Byte) (z : Byte) (y : F) : List Byte := head ++ z :: K.encS y

theorem split_append {n : ℕ} {a : List Byte} (h : a.length = n) (rest : List Byte) : Ffi.split n (a ++ rest) = .ok (a, rest) := by
  unfold Ffi.split
  rw [if_pos (by rw [List.length_append]; omega), List.take_left' h, List.drop_left' h]

theorem split_ok {n : ℕ} {bs a rest : List Byte} (h : Ffi.split n bs = .ok (a, rest)) : a.length = n ∧ bs = a ++ rest := by
  unfold Ffi.split at h
  split at h
  · injection h with h
    injection h with h1 h2
    subst h1 h2
    exact ⟨by rw [List.length_take]; omega, (List.take_append_drop _ _).symm⟩
  · cases h

theorem split_short {n : ℕ} {bs : List Byte} (h : bs.length < n) : ∃ e, Ffi.split n bs = .error e :=
  ⟨_, if_neg (by omega)⟩

theorem takeScalar_append (x : F) (rest : List Byte) : takeScalar K (K.encS x ++ rest) = .ok (x, rest) := by
  unfold takeScalar
  rw [split_append (K.encS_len x)]
  have := frFromLe_append K x []
  rw [List.append_nil] at this
  simp only [bind, Except.bind, this, unwrap]

theorem takeScalar_ok {bs rest : List Byte} {x : F} (h : takeScalar K bs = .ok (x, rest)) :
    ∃ s, s.length = 32 ∧ bs = s ++ rest ∧ K.decS s = some x := by
  unfold takeScalar at h
  cases hs : Ffi.split 32 bs with
  | error e => rw [hs] at h; cases h
  | ok v =>
    obtain ⟨s, rest'⟩ := v
    rw [hs] at h
    obtain ⟨h1, h2⟩ := split_ok hs
    simp only [bind, Except.bind] at h
    cases hd : frFromLeBytes K s with
    | none => rw [hd] at h; cases h
    | some y =>
      rw [hd] at h
      simp only [unwrap] at h
      injection h with h
      injection h with h3 h4
      subst h3 h4
      obtain ⟨s', r', h5, h6, h7⟩ := frFromLe_some K hd
      have : r' = [] := by
        have := congrArg List.length h6
        rw [List.length_append] at this
        exact List.length_eq_zero_iff.1 (by omega)
      subst this
      rw [List.append_nil] at h6
      subst h6
      exact ⟨s, h1, h2, h7⟩

theorem takeScalars_append : ∀ (xs : List F) (rest : List Byte), takeScalars K xs.length (xs.flatMap K.encS ++ rest) = .ok (xs, rest)
  | [], _ => rfl
  | x :: xs, rest => by
    rw [List.length_cons, takeScalars, List.flatMap_cons, List.append_assoc, takeScalar_append]
    simp only [bind, Except.bind]
    rw [takeScalars_append xs rest]

theorem takeScalars_ok (hS : ∀ c x, c.length = 32 → K.decS c = some x → K.encS x = c) : ∀ {n : ℕ} {bs rest : List Byte} {xs : List F},
    takeScalars K n bs = .ok (xs, rest) → xs.length = n ∧ bs = xs.flatMap K.encS ++ rest
  | 0, bs, rest, xs, h => by
    rw [takeScalars] at h
    injection h with h
    injection h with h1 h2
    subst h1 h2
    exact ⟨rfl, rfl⟩
  | n + 1, bs, rest, xs, h => by
    rw [takeScalars] at h
    cases h1 : takeScalar K bs with
    | error e => rw [h1] at h; cases h
    | ok v =>
      obtain ⟨x, bs'⟩ := v
      rw [h1] at h
      simp only [bind, Except.bind] at h
      cases h2 : takeScalars K n bs' with
      | error e => rw [h2] at h; cases h
      | ok w =>
        obtain ⟨xs', bs''⟩ := w
        rw [h2] at h
        injection h with h
        injection h with h3 h4
        subst h3 h4
        obtain ⟨h5, h6⟩ := takeScalars_ok hS h2
        obtain ⟨s, h7, h8, h9⟩ := takeScalar_ok K h1
        refine ⟨by rw [List.length_cons, h5], ?_⟩
        rw [h8, h6, List.flatMap_cons, hS _ _ h7 h9, List.append_assoc]

theorem takeByte_ok {bs rest : List Byte} {z : ℕ} (h : takeByte bs = .ok (z, rest)) : ∃ b : Byte, z = b.val ∧ bs = b :: rest := by
  cases bs with
  | nil => cases h
  | cons b bs =>
    injection h with h
    injection h with h1 h2
    exact ⟨b, h1.symm, by rw [h2]⟩

theorem takeGroupElement_append (e : G) (rest : List Byte) : takeGroupElement K (K.encE e ++ rest) = .ok (e, rest) := by
  unfold takeGroupElement
  rw [split_append (K.encE_len e)]
  simp only [bind, Except.bind, K.dec_encE, unwrap]

theorem takeGroupElement_ok (hE : ∀ c x, c.length = 32 → K.decE c = some x → K.encE x = c) {bs rest : List Byte} {e : G}
    (h : takeGroupElement K bs = .ok (e, rest)) : bs = K.encE e ++ rest := by
  unfold takeGroupElement at h
  cases hs : Ffi.split 32 bs with
  | error e => rw [hs] at h; cases h
  | ok v =>
    obtain ⟨s, rest'⟩ := v
    rw [hs] at h
    obtain ⟨h1, h2⟩ := split_ok hs
    simp only [bind, Except.bind] at h
    cases hd : K.decE s with
    | none => rw [hd] at h; cases h
    | some y =>
      rw [hd] at h
      simp only [unwrap] at h
      injection h with h
      injection h with h3 h4
      subst h3 h4
      rw [h2, hE _ _ h1 hd]

/-- **C49** (one prover query): the request format of a query is read back as that query, for both forms of the commitment. -/
theorem C49_prover_query {take : List Byte → Res (E × List Byte)} {head : List Byte} {q : ProverQuery F E}
    (hh : ∀ rest, take (head ++ rest) = .ok (q.commitment, rest)) (hq : Formatted q) :
    deserializeProofQuery K take (proverQueryBytes K head q) = .ok q := by
  unfold deserializeProofQuery proverQueryBytes
  rw [hh]
  simp only [bind, Except.bind]
  rw [← hq.1, takeScalars_append]
  simp only [takeByte]
  have := takeScalar_append K q.result []
  rw [List.append_nil] at this
  rw [this]
  simp only [ne_eq, not_true_eq_false, if_false]
  rw [show (asU8 q.point).val = q.point from Nat.mod_eq_of_lt hq.2]

/-- **C49** (one verifier query). -/
theorem C49_verifier_query [NatCast F] {take : List Byte → Res (E × List Byte)} {head : List Byte} {e : E}
    (hh : ∀ rest, take (head ++ rest) = .ok (e, rest)) (z : Byte) (y : F) :
    deserializeVerifierQuery K take (verifierQueryBytes K head z y) = .ok ⟨e, ((z.val : ℕ) : F), y⟩ := by
  unfold deserializeVerifierQuery verifierQueryBytes
  rw [hh]
  simp only [bind, Except.bind, takeByte]
  have := takeScalar_append K y []
  rw [List.append_nil] at this
  rw [this]
  simp

theorem deserializeProofQuery_ok (hE : ∀ c x, c.length = 32 → K.decE c = some x → K.encE x = c)
    (hS : ∀ c x, c.length = 32 → K.decS c = some x → K.encS x = c) {bs : List Byte} {q : ProverQuery F G}
    (h : deserializeProofQuery K (takeGroupElement K) bs = .ok q) : bs = proverQueryBytes K (K.encE q.commitment) q ∧ Formatted q := by
  unfold deserializeProofQuery at h
  cases h1 : takeGroupElement K bs with
  | error e => rw [h1] at h; cases h
  | ok v =>
  obtain ⟨e, b1⟩ := v
  rw [h1] at h
  simp only [bind, Except.bind] at h
  cases h2 : takeScalars K 256 b1 with
  | error e => rw [h2] at h; cases h
  | ok v =>
  obtain ⟨poly, b2⟩ := v
  rw [h2] at h
  simp only at h
  cases h3 : takeByte b2 with
  | error e => rw [h3] at h; cases h
  | ok v =>
  obtain ⟨z, b3⟩ := v
  rw [h3] at h
  simp only at h
  cases h4 : takeScalar K b3 with
  | error e => rw [h4] at h; cases h
  | ok v =>
  obtain ⟨y, b4⟩ := v
  rw [h4] at h
  simp only at h
  split at h
  · cases h
  · next hb =>
    injection h with h
    subst h
    obtain ⟨b, rfl, hz⟩ := takeByte_ok h3
    obtain ⟨h5, h6⟩ := takeScalars_ok K hS h2
    obtain ⟨s, h7, h8, h9⟩ := takeScalar_ok K h4
    have hb : b4 = [] := by simpa using hb
    refine ⟨?_, h5, b.isLt⟩
    unfold proverQueryBytes
    simp only
    rw [takeGroupElement_ok K hE h1, h6, hz, h8, hS _ _ h7 h9, hb, List.append_nil]
    congr 3
    exact (Fin.ext (Nat.mod_eq_of_lt b.isLt)).symm

theorem deserializeVerifierQuery_ok [NatCast F] (hE : ∀ c x, c.length = 32 → K.decE c = some x → K.encE x = c)
    (hS : ∀ c x, c.length = 32 → K.decS c = some x → K.encS x = c) {bs : List Byte} {q : VerifierQuery F G}
    (h : deserializeVerifierQuery K (takeGroupElement K) bs = .ok q) :
    ∃ z : Byte, bs = verifierQueryBytes K (K.encE q.commitment) z q.result ∧ q.point = ((z.val : ℕ) : F) := by
  unfold deserializeVerifierQuery at h
  cases h1 : takeGroupElement K bs with
  | error e => rw [h1] at h; cases h
  | ok v =>
  obtain ⟨e, b1⟩ := v
  rw [h1] at h
  simp only [bind, Except.bind] at h
  cases h3 : takeByte b1 with
  | error e => rw [h3] at h; cases h
  | ok v =>
  obtain ⟨z, b3⟩ := v
  rw [h3] at h
  simp only at h
  cases h4 : takeScalar K b3 with
  | error e => rw [h4] at h; cases h
  | ok v =>
  obtain ⟨y, b4⟩ := v
  rw [h4] at h
  simp only at h
  split at h
  · cases h
  · next hb =>
    injection h with h
    subst h
    obtain ⟨b, rfl, hz⟩ := takeByte_ok h3
    obtain ⟨s, h7, h8, h9⟩ := takeScalar_ok K h4
    have hb : b4 = [] := by simpa using hb
    refine ⟨b, ?_, rfl⟩
    unfold verifierQueryBytes
    simp only
    rw [takeGroupElement_ok K hE h1, hz, h8, hS _ _ h7 h9, hb, List.append_nil]

theorem proverQueryBytes_length {head : List Byte} (hh : head.length = 32) {q : ProverQuery F E} (hq : Formatted q) :
    (proverQueryBytes K head q).length = 8257 := by
  unfold proverQueryBytes
  rw [List.length_append, List.length_append, List.length_cons, K.encS_len, hh, List.length_flatMap,
    List.map_congr_left (g := fun _ => 32) fun x _ => K.encS_len x]
  rw [List.map_const', List.sum_replicate, hq.1]
  rfl

theorem verifierQueryBytes_length {head : List Byte} (hh : head.length = 32) (z : Byte) (y : F) :
    (verifierQueryBytes K head z y).length = 65 := by
  unfold verifierQueryBytes
  rw [List.length_append, List.length_cons, K.encS_len, hh]

theorem mapM_ok_inv {α β γ : Type} {f : α → Res β} {a : γ → α} {b : γ → β} {P : γ → Prop} : ∀ {l : List α} {l' : List β},
    l.mapM f = .ok l' → (∀ x ∈ l, ∀ y, f x = .ok y → ∃ z, x = a z ∧ y = b z ∧ P z) →
    ∃ zs : List γ, l = zs.map a ∧ l' = zs.map b ∧ ∀ z ∈ zs, P z
  | [], l', h, _ => by
    rw [List.mapM_nil] at h
    injection h with h
    subst h
    exact ⟨[], rfl, rfl, by simp⟩
  | x :: l, l', h, hR => by
    rw [List.mapM_cons] at h
    cases h1 : f x with
    | error e => rw [h1] at h; cases h
    | ok y =>
      rw [h1] at h
      simp only [bind, Except.bind] at h
      cases h2 : l.mapM f with
      | error e => rw [h2] at h; cases h
      | ok ys =>
        rw [h2] at h
        injection h with h
        subst h
        obtain ⟨z, hz1, hz2, hz3⟩ := hR x (by simp) y h1
        obtain ⟨zs, h3, h4, h5⟩ := mapM_ok_inv h2 fun x' hx' => hR x' (by simp [hx'])
        refine ⟨z :: zs, by rw [List.map_cons, ← h3, ← hz1], by rw [List.map_cons, ← h4, ← hz2], ?_⟩
        intro w hw
        rcases List.mem_cons.1 hw with rfl | hw
        · exact hz3
        · exact h5 w hw

theorem chunks_of_map {α : Type} {f : α → List Byte} {n : ℕ} (hn : 0 < n) : ∀ {l : List α}, (∀ x ∈ l, (f x).length = n) →
    chunksExact n (l.flatMap f) = l.map f ∧ (l.flatMap f).length % n = 0 := by
  intro l hl
  have h1 := chunksExact_flatMap (α := {x // x ∈ l}) (fun x => f x.1) hn (fun x => hl x.1 x.2) l.attach
  have h2 : l.attach.flatMap (fun x => f x.1) = l.flatMap f := by
    conv_rhs => rw [← List.attach_map_subtype_val l, List.flatMap_map]
  have h3 : l.attach.map (fun x => f x.1) = l.map f := by
    conv_rhs => rw [← List.attach_map_subtype_val l, List.map_map]
    rfl
  rw [h2, h3] at h1
  refine ⟨h1, ?_⟩
  rw [List.length_flatMap, List.map_congr_left hl, List.map_const', List.sum_replicate]
  exact Nat.mul_mod_left _ _

/-- **C49** (prover queries): the request for a list of queries, in the format of `create_proof`, is split into exactly those queries. -/
theorem C49_prover {qs : List (ProverQuery F G)} (hq : ∀ q ∈ qs, Formatted q) :
    proverQueries K (qs.flatMap fun q => proverQueryBytes K (K.encE q.commitment) q) = .ok (some qs) := by
  obtain ⟨h1, h2⟩ := chunks_of_map (n := 8257) (by norm_num) (l := qs)
    (f := fun q => proverQueryBytes K (K.encE q.commitment) q) fun q h => proverQueryBytes_length K (K.encE_len _) (hq q h)
  unfold proverQueries
  rw [if_neg (by rw [h2]; simp), h1, List.mapM_map]
  have := mapM_all (f := fun q : ProverQuery F G => deserializeProofQuery K (takeGroupElement K) (proverQueryBytes K (K.encE q.commitment) q)) (g := id)
    (l := qs) fun q h => C49_prover_query K (takeGroupElement_append K q.commitment) (hq q h)
  rw [List.map_id] at this
  change ((qs.mapM fun q => deserializeProofQuery K (takeGroupElement K) (proverQueryBytes K (K.encE q.commitment) q)) >>=
    fun v => Except.ok (some v)) = _
  rw [this]
  rfl

/-- **C49** (prover queries, converse): when encodings are canonical nothing else is accepted: an input which is split into queries is the
request for those queries.  An input gives an error exactly when its length is not a multiple of the size of a query. -/
theorem C49_prover_only (hE : ∀ c x, c.length = 32 → K.decE c = some x → K.encE x = c)
    (hS : ∀ c x, c.length = 32 → K.decS c = some x → K.encS x = c) (input : List Byte) :
    (∀ qs : List (ProverQuery F G), proverQueries K input = .ok (some qs) →
      (∀ q ∈ qs, Formatted q) ∧ input = qs.flatMap fun q => proverQueryBytes K (K.encE q.commitment) q) ∧
    (proverQueries K input = .ok none ↔ ¬ 8257 ∣ input.length) := by
  unfold proverQueries
  by_cases hl : input.length % 8257 = 0
  · rw [if_neg (by simpa using hl)]
    obtain ⟨h1, -, h3⟩ := flatten_chunksExact (n := 8257) (by norm_num) (input.length / 8257) input
      (Nat.div_mul_cancel (Nat.dvd_of_mod_eq_zero hl)).symm
    refine ⟨fun qs h => ?_, fun h => ?_, fun h => absurd (Nat.dvd_of_mod_eq_zero hl) h⟩
    · cases hm : (chunksExact 8257 input).mapM (deserializeProofQuery K (takeGroupElement K)) with
      | error e => rw [hm] at h; cases h
      | ok qs' =>
        rw [hm] at h
        injection h with h
        injection h with h
        subst h
        obtain ⟨zs, h4, h5, h6⟩ := mapM_ok_inv (a := fun q => proverQueryBytes K (K.encE q.commitment) q) (b := id) (P := Formatted) hm
          fun x _ q hx => ⟨q, (deserializeProofQuery_ok K hE hS hx).1, rfl, (deserializeProofQuery_ok K hE hS hx).2⟩
        rw [List.map_id] at h5
        subst h5
        refine ⟨h6, ?_⟩
        rw [← h1, h4, List.flatMap_def]
    · cases hm : (chunksExact 8257 input).mapM (deserializeProofQuery K (takeGroupElement K)) with
      | error e => rw [hm] at h; cases h
      | ok qs' => rw [hm] at h; injection h with h; cases h
  · rw [if_pos (by simpa using hl)]
    refine ⟨fun qs h => ?_, fun _ h => hl (Nat.mod_eq_zero_of_dvd h), fun _ => rfl⟩
    injection h with h
    cases h

/-- What is said in the request of one verifier query. -/
def toQuery [NatCast F] (x : G × Byte × F) : VerifierQuery F G := ⟨x.1, ((x.2.1.val : ℕ) : F), x.2.2⟩

/-- Its bytes. -/
def queryBytes (x : G × Byte × F) : List Byte := verifierQueryBytes K (K.encE x.1) x.2.1 x.2.2

/-- **C49** (verifier queries): the request for a proof and a list of queries, in the format of `verify_proof`, is split into exactly that
proof and those queries. -/
theorem C49_verifier [NatCast F] {p : MultiProof F G} (hL : p.openProof.L.length = 8) (hR : p.openProof.R.length = 8)
    (qs : List (G × Byte × F)) :
    verifierInput K (multiToBytes K p ++ qs.flatMap (queryBytes K)) = .ok (some (p, qs.map toQuery)) := by
  obtain ⟨h1, h2⟩ := chunks_of_map (n := 65) (by norm_num) (l := qs) (f := queryBytes K)
    fun q _ => verifierQueryBytes_length K (K.encE_len _) _ _
  unfold verifierInput
  rw [split_append (by rw [multiToBytes_length, hL, hR])]
  simp only [bind, Except.bind]
  rw [multi_roundtrip K p 256 hL hR (by rw [show Nat.clog 2 256 = 8 by decide +kernel]; norm_num)]
  simp only [unwrap]
  rw [if_neg (by rw [h2]; simp), h1, List.mapM_map]
  have := mapM_all (f := fun q => deserializeVerifierQuery K (takeGroupElement K) (queryBytes K q)) (g := toQuery)
    (l := qs) fun q h => C49_verifier_query K (takeGroupElement_append K q.1) q.2.1 q.2.2
  change ((qs.mapM fun q => deserializeVerifierQuery K (takeGroupElement K) (queryBytes K q)) >>= fun v => Except.ok (some (p, v))) = _
  rw [this]
  rfl

/-- C49 (verifier queries, converse; partial).  An accepted input is the request for what it is split into.  An input whose length is not 576
plus a multiple of 65 is never accepted; it gives an error when the proof at its front is well formed.  Missing: otherwise, in particular for
fewer than 576 bytes, the code panics instead of returning an error. -/
theorem C49_verifier_only_partial [NatCast F] (hE : ∀ c x, c.length = 32 → K.decE c = some x → K.encE x = c)
    (hS : ∀ c x, c.length = 32 → K.decS c = some x → K.encS x = c) (input : List Byte) :
    (∀ p qs', verifierInput K input = .ok (some (p, qs')) → p.openProof.L.length = 8 ∧ p.openProof.R.length = 8 ∧
      ∃ qs : List (G × Byte × F), qs' = qs.map toQuery ∧ input = multiToBytes K p ++ qs.flatMap (queryBytes K)) ∧
    (verifierInput K input = .ok none ↔ ∃ p : MultiProof F G, p.openProof.L.length = 8 ∧ p.openProof.R.length = 8 ∧
      ∃ rest, input = multiToBytes K p ++ rest ∧ ¬ 65 ∣ rest.length) ∧
    (input.length < 576 → ∃ e, verifierInput K input = .error e) := by
  have hc : Nat.clog 2 256 = 8 := by decide +kernel
  have hkey : ∀ {a : List Byte} {p : MultiProof F G}, a.length = 576 → multiFromBytes K a 256 = .ok (some p) →
      a = multiToBytes K p ∧ p.openProof.L.length = 8 ∧ p.openProof.R.length = 8 := by
    intro a p ha h
    obtain ⟨g, l, r, s, -, -, -, -, -, -, h1, h2⟩ := (C33_length_checked_partial K (deg := 256) (bs := a) (by rw [ha]; norm_num)).2.2 p h
    rw [hc] at h1 h2
    exact ⟨C33_canonical K hE hS (by rw [ha]; norm_num) h, h1, h2⟩
  refine ⟨fun p qs' h => ?_, ⟨fun h => ?_, ?_⟩, fun h => ?_⟩
  · unfold verifierInput at h
    cases hs : Ffi.split 576 input with
    | error e => rw [hs] at h; cases h
    | ok v =>
    obtain ⟨a, rest⟩ := v
    rw [hs] at h
    obtain ⟨h1, h2⟩ := split_ok hs
    simp only [bind, Except.bind] at h
    cases hm : multiFromBytes K a 256 with
    | error e => rw [hm] at h; cases h
    | ok o =>
    rw [hm] at h
    cases o with
    | none => cases h
    | some p' =>
    simp only [unwrap] at h
    split at h
    · injection h with h; cases h
    · next hl =>
      have hl : rest.length % 65 = 0 := by simpa using hl
      cases hq : (chunksExact 65 rest).mapM (deserializeVerifierQuery K (takeGroupElement K)) with
      | error e => rw [hq] at h; cases h
      | ok qs'' =>
      rw [hq] at h
      injection h with h
      injection h with h
      injection h with h3 h4
      subst h3 h4
      obtain ⟨h5, h6, h7⟩ := hkey h1 hm
      obtain ⟨h8, -, -⟩ := flatten_chunksExact (n := 65) (by norm_num) (rest.length / 65) rest
        (Nat.div_mul_cancel (Nat.dvd_of_mod_eq_zero hl)).symm
      obtain ⟨zs, h9, h10, -⟩ := mapM_ok_inv (a := queryBytes K) (b := toQuery) (P := fun _ => True) hq fun x _ q hx => by
        obtain ⟨z, hz1, hz2⟩ := deserializeVerifierQuery_ok K hE hS hx
        refine ⟨(q.commitment, z, q.result), hz1, ?_, trivial⟩
        unfold toQuery
        simp only
        rw [← hz2]
      exact ⟨h6, h7, zs, h10, by rw [h2, h5, ← h8, h9, List.flatMap_def]⟩
  · unfold verifierInput at h
    cases hs : Ffi.split 576 input with
    | error e => rw [hs] at h; cases h
    | ok v =>
    obtain ⟨a, rest⟩ := v
    rw [hs] at h
    obtain ⟨h1, h2⟩ := split_ok hs
    simp only [bind, Except.bind] at h
    cases hm : multiFromBytes K a 256 with
    | error e => rw [hm] at h; cases h
    | ok o =>
    rw [hm] at h
    cases o with
    | none => cases h
    | some p' =>
    simp only [unwrap] at h
    obtain ⟨h5, h6, h7⟩ := hkey h1 hm
    split at h
    · next hl => exact ⟨p', h6, h7, rest, by rw [h2, h5], fun hd => hl (Nat.mod_eq_zero_of_dvd hd)⟩
    · cases hq : (chunksExact 65 rest).mapM (deserializeVerifierQuery K (takeGroupElement K)) with
      | error e => rw [hq] at h; cases h
      | ok qs'' => rw [hq] at h; injection h with h; cases h
  · rintro ⟨p, h1, h2, rest, rfl, h3⟩
    unfold verifierInput
    rw [split_append (by rw [multiToBytes_length, h1, h2])]
    simp only [bind, Except.bind]
    rw [multi_roundtrip K p 256 (by rw [h1, hc]) (by rw [h2, hc]) (by rw [hc]; norm_num)]
    simp only [unwrap]
    rw [if_pos fun h => h3 (Nat.dvd_of_mod_eq_zero h)]
  · obtain ⟨e, he⟩ := split_short h
    exact ⟨e, by unfold verifierInput; rw [he]; rfl⟩

/-- **C49** (sparse updates): the input of `update_commitment_sparse` is split into exactly the commitment, indices and scalars it was put
together from, and nothing else is accepted; an input of at least 64 bytes gives an error exactly when the rest is not a multiple of 65
bytes, and a shorter one makes the code panic. -/
theorem C49_sparse (input : List Byte) :
    (∀ (c : List Byte) (items : List (Byte × List Byte × List Byte)), c.length = 64 → (∀ x ∈ items, x.2.1.length = 32 ∧ x.2.2.length = 32) →
      input = c ++ items.flatMap (fun x => x.2.1 ++ (x.2.2 ++ [x.1])) → deserializeUpdateCommitmentSparse input =
        .ok (some (c, items.map (·.1.val), items.map (·.2.1), items.map (·.2.2)))) ∧
    (∀ c is os ns, deserializeUpdateCommitmentSparse input = .ok (some (c, is, os, ns)) →
      c.length = 64 ∧ ∃ items : List (Byte × List Byte × List Byte), (∀ x ∈ items, x.2.1.length = 32 ∧ x.2.2.length = 32) ∧
        is = items.map (·.1.val) ∧ os = items.map (·.2.1) ∧ ns = items.map (·.2.2) ∧
        input = c ++ items.flatMap (fun x => x.2.1 ++ (x.2.2 ++ [x.1]))) ∧
    (64 ≤ input.length → (deserializeUpdateCommitmentSparse input = .ok none ↔ ¬ 65 ∣ input.length - 64)) ∧
    (input.length < 64 → ∃ e, deserializeUpdateCommitmentSparse input = .error e) := by
  refine ⟨?_, fun c is os ns h => ?_, fun h64 => ?_, fun h => ?_⟩
  · rintro c items hc hi rfl
    obtain ⟨h1, h2⟩ := chunks_of_map (n := 65) (by norm_num) (l := items) (f := fun x => x.2.1 ++ (x.2.2 ++ [x.1])) fun x hx => by
      rw [List.length_append, List.length_append, (hi x hx).1, (hi x hx).2]
      rfl
    unfold deserializeUpdateCommitmentSparse
    rw [split_append hc]
    simp only [bind, Except.bind]
    rw [if_neg (by rw [h2]; simp), h1, List.mapM_map, mapM_all (g := fun x => (x.1.val, x.2.1, x.2.2))]
    · simp only [List.map_map]
      rfl
    · intro x hx
      simp only [Function.comp]
      rw [split_append (hi x hx).1]
      simp only
      rw [split_append (hi x hx).2]
      rfl
  · unfold deserializeUpdateCommitmentSparse at h
    cases hs : Ffi.split 64 input with
    | error e => rw [hs] at h; cases h
    | ok v =>
    obtain ⟨a, rest⟩ := v
    rw [hs] at h
    obtain ⟨h1, h2⟩ := split_ok hs
    simp only [bind, Except.bind] at h
    split at h
    · injection h with h; cases h
    · next hl =>
      have hl : rest.length % 65 = 0 := by simpa using hl
      obtain ⟨h8, -, -⟩ := flatten_chunksExact (n := 65) (by norm_num) (rest.length / 65) rest
        (Nat.div_mul_cancel (Nat.dvd_of_mod_eq_zero hl)).symm
      have h65 := (flatten_chunksExact (n := 65) (by norm_num) (rest.length / 65) rest
        (Nat.div_mul_cancel (Nat.dvd_of_mod_eq_zero hl)).symm).2.2
      split at h
      · cases h
      · next items hm =>
        injection h with h
        injection h with h
        injection h with h3 h
        injection h with h4 h
        injection h with h5 h6
        subst h3 h4 h5 h6
        obtain ⟨zs, h9, h10, h11⟩ := mapM_ok_inv (γ := Byte × List Byte × List Byte) (a := fun x => x.2.1 ++ (x.2.2 ++ [x.1]))
          (b := fun x => (x.1.val, x.2.1, x.2.2)) (P := fun x => x.2.1.length = 32 ∧ x.2.2.length = 32) hm fun x hx y hy => by
            cases hs1 : Ffi.split 32 x with
            | error e => rw [hs1] at hy; cases hy
            | ok v =>
            obtain ⟨o, x1⟩ := v
            rw [hs1] at hy
            simp only at hy
            cases hs2 : Ffi.split 32 x1 with
            | error e => rw [hs2] at hy; cases hy
            | ok v =>
            obtain ⟨n, x2⟩ := v
            rw [hs2] at hy
            simp only at hy
            cases hs3 : takeByte x2 with
            | error e => rw [hs3] at hy; cases hy
            | ok v =>
            obtain ⟨i, x3⟩ := v
            rw [hs3] at hy
            injection hy with hy
            subst hy
            obtain ⟨l1, rfl⟩ := split_ok hs1
            obtain ⟨l2, rfl⟩ := split_ok hs2
            obtain ⟨b, rfl, rfl⟩ := takeByte_ok hs3
            have := h65 _ hx
            rw [List.length_append, List.length_append, List.length_cons, l1, l2] at this
            have : x3 = [] := List.length_eq_zero_iff.1 (by omega)
            subst this
            exact ⟨(b, o, n), rfl, rfl, l1, l2⟩
        refine ⟨h1, zs, h11, ?_, ?_, ?_, ?_⟩
        · rw [h10, List.map_map]; rfl
        · rw [h10, List.map_map]; rfl
        · rw [h10, List.map_map]; rfl
        · rw [h2, ← h8, h9, List.flatMap_def]
  · obtain ⟨a, rest, rfl, ha⟩ : ∃ a rest, input = a ++ rest ∧ a.length = 64 :=
      ⟨input.take 64, input.drop 64, (List.take_append_drop _ _).symm, by rw [List.length_take]; omega⟩
    unfold deserializeUpdateCommitmentSparse
    rw [split_append ha]
    simp only [bind, Except.bind]
    rw [List.length_append, ha, Nat.add_sub_cancel_left]
    split
    · next hl => exact ⟨fun _ hd => hl (Nat.mod_eq_zero_of_dvd hd), fun _ => rfl⟩
    · next hl =>
      have hl : rest.length % 65 = 0 := by simpa using hl
      refine ⟨fun h => ?_, fun h => absurd (Nat.dvd_of_mod_eq_zero hl) h⟩
      split at h
      · cases h
      · injection h with h; cases h
  · obtain ⟨e, he⟩ := split_short h
    exact ⟨e, by unfold deserializeUpdateCommitmentSparse; rw [he]; rfl⟩

end

/-! ### From queries to a verified proof -/

section
variable {F G : Type} [Field F] [DecidableEq F] [AddCommGroup G] [DecidableEq G] [Module F G] (O : Oracle F G)

theorem createGo_length (Q : G) : ∀ (k : ℕ) {a b : List F} {g : List G} {t t' : Transcript} {π : IpaProof F G},
    createGo O Q k a b g t = .ok (π, t') → π.L.length = k ∧ π.R.length = k
  | 0, a, b, g, t, t', π, h => by
    cases a with
    | nil => simp [createGo] at h
    | cons x a =>
      simp only [createGo] at h
      injection h with h
      injection h with h _
      subst h
      exact ⟨rfl, rfl⟩
  | k + 1, a, b, g, t, t', π, h => by
    rw [createGo] at h
    simp only [bind, Except.bind] at h
    split at h
    · cases h
    split at h
    · cases h
    split at h
    · cases h
    split at h
    · cases h
    · next r hr =>
      obtain ⟨π', t''⟩ := r
      injection h with h
      injection h with h _
      subst h
      obtain ⟨h1, h2⟩ := createGo_length Q k hr
      exact ⟨by simp [h1], by simp [h2]⟩

theorem openMulti_length {crs : CRS G} {W : Weights F} {t t' : Transcript} {qs : List (ProverQuery F G)} {order : List ℕ}
    {π : MultiProof F G} (h : openMulti O crs W t qs order = .ok (π, t')) :
    π.openProof.L.length = Nat.clog 2 crs.gens.length ∧ π.openProof.R.length = Nat.clog 2 crs.gens.length := by
  unfold openMulti at h
  simp only [bind, Except.bind] at h
  split at h
  · cases h
  split at h
  · cases h
  split at h
  · cases h
  split at h
  · cases h
  split at h
  · cases h
  · next r hr =>
    injection h with h
    injection h with h _
    subst h
    unfold create at hr
    simp only at hr
    split at hr
    · cases hr
    split at hr
    · cases hr
    split at hr
    · cases hr
    obtain ⟨π', t''⟩ := r
    exact createGo_length O _ _ hr

/-- **C49** (end to end): for true openings of formatted queries, the bytes which `create_proof` returns, followed by the request for the same
statements, are accepted by `verify_proof`, unless the challenge falls on the domain (or no proof is created, see `C49_proof_created`). -/
theorem C49_end_to_end (C : Crypto F G) (Q : G) {order : List (ProverQuery F G) → List ℕ} (ho : ∀ qs, IsOrder qs (order qs))
    (hF : Distinct F 256) {qs : List (ProverQuery F G)} (hne : qs ≠ []) (hq : ∀ q ∈ qs, Formatted q)
    (ht : ∀ q ∈ qs, TrueOpening (crsOf C Q) q) {bs : List Byte}
    (h : createProof O C Q order (qs.flatMap fun q => proverQueryBytes O.K (O.K.encE q.commitment) q) = .ok (some bs))
    (htt : ∀ p : MultiProof F G, multiToBytes O.K p = bs → ∀ i : ℕ, i < 256 →
      challengeT O (lbl "verkle") (qs.map ProverQuery.toVerifier) p.gx ≠ (i : F)) :
    verifyProof O C Q (bs ++ qs.flatMap fun q => queryBytes O.K (q.commitment, asU8 q.point, q.result)) = .ok (some true) := by
  obtain ⟨W, hW, -⟩ := new_good hF (by norm_num)
  unfold createProof at h
  rw [hW, C49_prover O.K hq] at h
  simp only [bind, Except.bind] at h
  split at h
  · cases h
  · next r hr =>
    obtain ⟨π, t'⟩ := r
    injection h with h
    injection h with h
    subst h
    have hg : (crsOf C Q).gens.length = 256 := by simp [crsOf]
    have h8 : Nat.clog 2 256 = 8 := by decide +kernel
    obtain ⟨hL, hR⟩ := openMulti_length O hr
    rw [hg, h8] at hL hR
    have hv := C49_verifier O.K hL hR (qs.map fun q => (q.commitment, asU8 q.point, q.result))
    rw [List.flatMap_map, List.map_map] at hv
    have hc : qs.map (toQuery ∘ fun q => (q.commitment, asU8 q.point, q.result)) = qs.map ProverQuery.toVerifier := by
      apply List.map_congr_left
      intro q hqm
      simp only [Function.comp, toQuery, ProverQuery.toVerifier]
      rw [show (asU8 q.point).val = q.point from Nat.mod_eq_of_lt (hq q hqm).2]
    rw [hc] at hv
    unfold verifyProof
    rw [hW]
    simp only [bind, Except.bind]
    rw [hv]
    simp only
    rw [C32_completeness O (k := 8) (by norm_num) (crs := crsOf C Q) rfl hg hF hW hne ht (ho qs) hr fun i hi => htt _ rfl i hi]

/-- **C49** (end to end): a proof is created when no challenge is zero. -/
theorem C49_proof_created (C : Crypto F G) (Q : G) {order : List (ProverQuery F G) → List ℕ} (ho : ∀ qs, IsOrder qs (order qs))
    (hF : Distinct F 256) {qs : List (ProverQuery F G)} (hne : qs ≠ []) (hq : ∀ q ∈ qs, Formatted q)
    (ht : ∀ q ∈ qs, TrueOpening (crsOf C Q) q) (hH : ∀ s, O.H s ≠ 0) :
    ∃ bs, createProof O C Q order (qs.flatMap fun q => proverQueryBytes O.K (O.K.encE q.commitment) q) = .ok (some bs) ∧ bs.length = 576 := by
  obtain ⟨W, hW, -⟩ := new_good hF (by norm_num)
  have hg : (crsOf C Q).gens.length = 256 := by simp [crsOf]
  obtain ⟨⟨π, t'⟩, hr⟩ := C32_creation_total O (k := 8) (by norm_num) (crs := crsOf C Q) rfl hg hF hW hne ht (ho qs)
    (newTranscript (lbl "verkle")) hH
  obtain ⟨hL, hR⟩ := openMulti_length O hr
  rw [hg, show Nat.clog 2 256 = 8 by decide +kernel] at hL hR
  refine ⟨multiToBytes O.K π, ?_, by rw [multiToBytes_length, hL, hR]⟩
  unfold createProof
  rw [hW, C49_prover O.K hq]
  simp only [bind, Except.bind]
  rw [hr]

/-- C49: an empty request makes `create_proof` panic, though its length is a multiple of the size of a query. -/
theorem C49_empty_request_panics (C : Crypto F G) (Q : G) {order : List (ProverQuery F G) → List ℕ} (ho : order [] = [])
    (hF : Distinct F 256) : ∃ e, createProof O C Q order [] = .error e := by
  obtain ⟨W, hW, -⟩ := new_good hF (by norm_num)
  have h := C49_prover O.K (qs := ([] : List (ProverQuery F G))) (by simp)
  rw [List.flatMap_nil] at h
  have hg : (crsOf C Q).gens ≠ [] := by simp [crsOf]
  unfold createProof
  rw [hW, h]
  simp only [bind, Except.bind]
  rw [ho, C32_empty_panics O hg]
  exact ⟨_, rfl⟩

end

/-! ### Concrete cases -/

/-- The hypotheses on the codec hold for Bandersnatch. -/
example : (∀ c (x : Bander.BElem), c.length = 32 → Bander.codec.decE c = some x → Bander.codec.encE x = c) ∧
    ∀ c (x : ZMod Bander.r), c.length = 32 → Bander.codec.decS c = some x → Bander.codec.encS x = c :=
  ⟨fun _ _ _ h => (C52_canonical.1 _ _).1 h, fun _ _ _ h => (C52_canonical.2 _ _).1 h⟩

/-- Two formatted queries with true openings over `wide`. -/
def wideQueries : List (ProverQuery (ZMod 521) (ZMod 521)) :=
  [⟨3 * 6 + 4 * 201, List.replicate 5 0 ++ [3] ++ List.replicate 194 0 ++ [4] ++ List.replicate 55 0, 200, 4⟩,
   ⟨7 * 1 + 256, 7 :: List.replicate 254 0 ++ [1], 0, 7⟩]

theorem wideQueries_ok : (∀ q ∈ wideQueries, Formatted q) ∧ ∀ q ∈ wideQueries, TrueOpening (crsOf wide 3) q := by
  constructor <;> intro q hq <;> simp only [wideQueries, List.mem_cons, List.not_mem_nil, or_false] at hq
  · rcases hq with rfl | rfl <;> exact ⟨by decide +kernel, by decide +kernel⟩
  · rcases hq with rfl | rfl <;> exact ⟨by decide +kernel, by decide +kernel, by decide +kernel, by decide +kernel⟩

example : ∃ bs, createProof wideOracle wide 3 anyOrder
      (wideQueries.flatMap fun q => proverQueryBytes wideOracle.K (wideOracle.K.encE q.commitment) q) = .ok (some bs) ∧
    verifyProof wideOracle wide 3
      (bs ++ wideQueries.flatMap fun q => queryBytes wideOracle.K (q.commitment, asU8 q.point, q.result)) = .ok (some true) := by
  have hne : wideQueries ≠ [] := List.cons_ne_nil _ _
  obtain ⟨bs, h, -⟩ := C49_proof_created wideOracle wide 3 anyOrder_isOrder wide_distinct hne wideQueries_ok.1 wideQueries_ok.2
    fun s => by simpa using wideOracle_avoids s 0 (by norm_num)
  exact ⟨bs, h, C49_end_to_end wideOracle wide 3 anyOrder_isOrder wide_distinct hne wideQueries_ok.1 wideQueries_ok.2 h
    fun _ _ i hi => wideOracle_avoids _ i hi⟩

/-- A query with an uncompressed commitment. -/
example (q : ProverQuery (ZMod Bander.r) (Bander.Proj (ZMod Bander.q))) (hq : Formatted q) (h1 : q.commitment = ⟨0, 1, 0, 1⟩) :
    deserializeProofQuery Bander.codec (takeUncompressed Bander.fromBytesUnchecked)
      (proverQueryBytes Bander.codec (Bander.serFq (0 : ZMod Bander.q) ++ Bander.serFq (1 : ZMod Bander.q)) q) = .ok q := by
  apply C49_prover_query Bander.codec _ hq
  intro rest
  unfold takeUncompressed
  rw [split_append (by rw [List.length_append, Bander.serFq_length, Bander.serFq_length])]
  have h3 := Bander.deFq_serFq Bander.q_lt (0 : ZMod Bander.q) []
  have h4 := Bander.deFq_serFq Bander.q_lt (1 : ZMod Bander.q) []
  rw [List.append_nil] at h3 h4
  simp only [bind, Except.bind, Bander.fromBytesUnchecked]
  rw [List.take_left' (Bander.serFq_length _), List.drop_left' (Bander.serFq_length _), h3, h4, h1]
  simp

example : ∃ items : List (Byte × List Byte × List Byte), items.length = 2 ∧ ∀ x ∈ items, x.2.1.length = 32 ∧ x.2.2.length = 32 :=
  ⟨[(7, List.replicate 32 1, List.replicate 32 2), (7, List.replicate 32 3, List.replicate 32 4)], rfl, by simp⟩

end Verif.Props
