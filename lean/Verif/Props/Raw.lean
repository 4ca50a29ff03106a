import Verif.Ffi.Raw
import Verif.Props.CBind

/-!
# C82: the C and C# entry points on memory
-/

set_option autoImplicit false

namespace Verif.Props
open Wire Bander Ffi Ffi.Raw

/-- The bytes lie in one allocation from where the pointer points on. -/
def HoldsAt (m : Machine) (p : Ptr) (bs : List Byte) : Prop :=
  ∃ b pre post, p = some (b, pre.length) ∧ m.mem b = some (pre ++ bs ++ post)

/-- At least `n` bytes of one allocation lie from where the pointer points on. -/
def RoomAt (m : Machine) (p : Ptr) (n : ℕ) : Prop := ∃ bs, bs.length = n ∧ HoldsAt m p bs

/-- The handle is that of a context that has not been freed. -/
def LiveCtx (m : Machine) (h : Handle) (c : FullContext) : Prop := ∃ a, h = some a ∧ m.ctxs a = some c

/-- One byte of the caller's memory. -/
def byteAt (m : Machine) (b i : ℕ) : Option Byte := (m.mem b).bind fun l => l[i]?

/-- From `m` to `m'` exactly the given bytes have been written where the pointer points. -/
structure OnlyWritten (m m' : Machine) (p : Ptr) (bs : List Byte) : Prop where
  ctxs : m'.ctxs = m.ctxs
  there : HoldsAt m' p bs
  rest : ∀ b o, p = some (b, o) → ∀ b' i, ¬ (b' = b ∧ o ≤ i ∧ i < o + bs.length) → byteAt m' b' i = byteAt m b' i
  sizes : ∀ b, (m'.mem b).map List.length = (m.mem b).map List.length

theorem slice_holds {m : Machine} {p : Ptr} {bs : List Byte} (h : HoldsAt m p bs) : slice m p bs.length = .done bs := by
  obtain ⟨b, pre, post, rfl, hm⟩ := h
  have hl : pre.length + bs.length ≤ (pre ++ bs ++ post).length := by simp
  simp only [slice, hm]
  rw [if_pos hl, List.append_assoc, List.drop_left, List.take_left]

theorem room_iff {m : Machine} {p : Ptr} {n : ℕ} : RoomAt m p n ↔ ∃ b o l, p = some (b, o) ∧ m.mem b = some l ∧ o + n ≤ l.length := by
  constructor
  · rintro ⟨bs, rfl, b, pre, post, rfl, hm⟩
    exact ⟨b, _, _, rfl, hm, by simp⟩
  · rintro ⟨b, o, l, rfl, hm, hl⟩
    refine ⟨(l.drop o).take n, by rw [List.length_take, List.length_drop]; omega, b, l.take o, l.drop (o + n), ?_, ?_⟩
    · rw [List.length_take, Nat.min_eq_left (by omega)]
    · rw [hm, List.append_assoc, ← List.drop_drop, List.take_append_drop, List.take_append_drop]

theorem slice_no_room {m : Machine} {p : Ptr} {n : ℕ} (h : ¬ RoomAt m p n) : slice m p n = .undefined := by
  rw [room_iff] at h
  unfold slice
  rcases p with _ | ⟨b, o⟩
  · rfl
  · dsimp only
    cases hm : m.mem b with
    | none => rfl
    | some l =>
      dsimp only
      rw [if_neg fun hl => h ⟨b, o, l, rfl, hm, hl⟩]

theorem store_no_room {m : Machine} {p : Ptr} {bs : List Byte} (h : ¬ RoomAt m p bs.length) : store m p bs = .undefined := by
  rw [room_iff] at h
  unfold store
  rcases p with _ | ⟨b, o⟩
  · rfl
  · dsimp only
    cases hm : m.mem b with
    | none => rfl
    | some l =>
      dsimp only
      rw [if_neg fun hl => h ⟨b, o, l, rfl, hm, hl⟩]

theorem store_room {m : Machine} {p : Ptr} {bs : List Byte} (h : RoomAt m p bs.length) : ∃ m', store m p bs = .done m' ∧ OnlyWritten m m' p bs := by
  obtain ⟨b, o, l, rfl, hm, hl⟩ := room_iff.1 h
  have ho : (l.take o).length = o := by rw [List.length_take, Nat.min_eq_left (by omega)]
  refine ⟨{ m with mem := Function.update m.mem b (some (l.take o ++ bs ++ l.drop (o + bs.length))) }, ?_, rfl, ?_, ?_, ?_⟩
  · simp only [store, hm]
    rw [if_pos hl]
  · exact ⟨b, l.take o, l.drop (o + bs.length), by rw [ho], Function.update_self ..⟩
  · rintro b₁ o₁ he b' i hi
    injection he with he
    injection he with h1 h2
    subst h1 h2
    unfold byteAt
    dsimp only
    by_cases hb : b' = b
    · subst hb
      rw [Function.update_self, hm]
      show (l.take o ++ bs ++ l.drop (o + bs.length))[i]? = l[i]?
      by_cases h1 : i < o
      · rw [List.append_assoc, List.getElem?_append_left (by omega), List.getElem?_take_of_lt h1]
      · have h2 : o + bs.length ≤ i := by
          by_contra h2
          exact hi ⟨rfl, by omega, by omega⟩
        rw [List.getElem?_append_right (by rw [List.length_append, ho]; exact h2), List.length_append, ho, List.getElem?_drop,
          Nat.add_sub_cancel' h2]
    · rw [Function.update_of_ne hb]
  · intro b'
    dsimp only
    by_cases hb : b' = b
    · subst hb
      rw [Function.update_self, hm]
      show some _ = some _
      rw [List.length_append, List.length_append, ho, List.length_drop]
      congr 1
      omega
    · rw [Function.update_of_ne hb]

theorem deref_live {m : Machine} {h : Handle} {c : FullContext} (hc : LiveCtx m h c) : deref m h = .done c := by
  obtain ⟨a, rfl, ha⟩ := hc
  simp only [deref, ha]

theorem deref_dead {m : Machine} {h : Handle} (hc : ∀ c, ¬ LiveCtx m h c) : deref m h = .undefined := by
  unfold deref
  rcases h with _ | a
  · rfl
  · dsimp only
    cases ha : m.ctxs a with
    | none => rfl
    | some c => exact absurd ⟨a, rfl, ha⟩ (hc c)

/-! ### Calls that read one buffer and write one -/

/-- What a call does that computes `f` of the context and of one buffer and writes `n` bytes: with a live context and buffers of the announced
sizes it writes the result and nothing else, or panics where the function on byte strings does; otherwise it is undefined. -/
def ActsAs (call : Machine → Handle → Ptr → ℕ → Ptr → Outcome Machine) (f : FullContext → List Byte → Res (List Byte)) (n : ℕ) : Prop :=
  ∀ (m : Machine) (ctx : Handle) (input out : Ptr) (len : ℕ),
    (∀ c bs, LiveCtx m ctx c → bs.length = len → HoldsAt m input bs →
      (∀ e, f c bs = .error e → call m ctx input len out = .abort e) ∧
      ∀ res, f c bs = .ok res → res.length = n ∧
        (RoomAt m out n → ∃ m', call m ctx input len out = .done m' ∧ OnlyWritten m m' out res) ∧
        (¬ RoomAt m out n → call m ctx input len out = .undefined)) ∧
    ((∀ c, ¬ LiveCtx m ctx c) ∨ ¬ RoomAt m input len → call m ctx input len out = .undefined)

theorem actsAs {call : Machine → Handle → Ptr → ℕ → Ptr → Outcome Machine} {f : FullContext → List Byte → Res (List Byte)} {n : ℕ}
    (hcall : ∀ m ctx input len out, call m ctx input len out =
      (slice m input len).bind fun s => (deref m ctx).bind fun c => (lift (f c s)).bind fun r => store m out r)
    (hf : ∀ c bs r, f c bs = .ok r → r.length = n) : ActsAs call f n := by
  intro m ctx input out len
  constructor
  · rintro c bs hc rfl hb
    rw [hcall, slice_holds hb, Outcome.bind, deref_live hc, Outcome.bind]
    constructor
    · intro e he
      rw [he]
      rfl
    · intro res hr
      have hn := hf _ _ _ hr
      subst hn
      rw [hr]
      exact ⟨rfl, fun h => store_room h, fun h => store_no_room h⟩
  · intro h
    rw [hcall]
    by_cases hr : RoomAt m input len
    · obtain ⟨bs, rfl, hb⟩ := hr
      rw [slice_holds hb, Outcome.bind, deref_dead (h.resolve_right (not_not.2 ⟨bs, rfl, hb⟩))]
      rfl
    · rw [slice_no_room hr]
      rfl

theorem toBytes_length {p : Point} {bs : List Byte} (h : p.toBytes = .ok bs) : bs.length = 32 := by
  unfold Proj.toBytes at h
  cases ha : p.toAffine with
  | error e => rw [ha] at h; cases h
  | ok a =>
    rw [ha] at h
    injection h with h
    rw [← h, List.length_reverse, serFq_length]

theorem copyTo_length {n : ℕ} {a bs : List Byte} (h : copyTo n a = .ok bs) : bs.length = n := by
  unfold copyTo at h
  split at h
  · cases h
  · rename_i hn
    injection h with h
    rw [← h]
    exact not_not.1 hn

theorem res_bind_ok {α β : Type} {x : Res α} {f : α → Res β} {b : β} (h : (x >>= f) = .ok b) : ∃ a, x = .ok a ∧ f a = .ok b := by
  cases x with
  | error e => cases h
  | ok a => exact ⟨a, rfl, h⟩

/-- **C82** (C, commitments): `multi_scalar_mul` on memory does what it does on byte strings (C60). -/
theorem C82_multi_scalar_mul : ActsAs Raw.multiScalarMul (fun c => cMultiScalarMul c.1) 32 := by
  refine actsAs (fun _ _ _ _ _ => rfl) fun c bs r h => ?_
  unfold cMultiScalarMul at h
  obtain ⟨x, -, h⟩ := res_bind_ok h
  obtain ⟨y, -, h⟩ := res_bind_ok h
  exact toBytes_length h

section
variable (K : Ark) (H : List Byte → ZMod r)

/-- **C82** (C, proofs): `create_proof` on memory does what it does on byte strings (C59). -/
theorem C82_create_proof (S : Sqrt (ZMod Bander.q)) (order : List ℕ → List ℕ) :
    ActsAs (Raw.createProof K H S order) (fun c => cCreateProof K H c.2 S order) 576 := by
  refine actsAs (fun _ _ _ _ _ => rfl) fun c bs r h => ?_
  unfold cCreateProof at h
  split at h
  · cases h
  · obtain ⟨x, -, h⟩ := res_bind_ok h
    obtain ⟨y, -, h⟩ := res_bind_ok h
    obtain ⟨z, -, h⟩ := res_bind_ok h
    exact copyTo_length h

/-- **C82** (C, uncompressed proofs): `create_proof_uncompressed` on memory does what it does on byte strings (C59). -/
theorem C82_create_proof_uncompressed (order : List ℕ → List ℕ) :
    ActsAs (Raw.createProofUncompressed K H order) (fun c => cCreateProofUncompressed K H c.2 order) 1120 := by
  refine actsAs (fun _ _ _ _ _ => rfl) fun c bs r h => ?_
  unfold cCreateProofUncompressed at h
  split at h
  · cases h
  · obtain ⟨x, -, h⟩ := res_bind_ok h
    obtain ⟨y, -, h⟩ := res_bind_ok h
    obtain ⟨z, -, h⟩ := res_bind_ok h
    exact copyTo_length h

/-- A panic or the answer of a function on byte strings. -/
def outcomeOf {α : Type} : Res α → Outcome α
  | .ok a => .done a
  | .error e => .abort e

theorem lift_eq {α : Type} (x : Res α) : lift x = outcomeOf x := by cases x <;> rfl

/-- **C82** (C, verification): with a live context and `len` readable bytes the two verifiers give the answer of the functions on byte
strings (C59) and panic where those do; without the bytes, or with the bytes of a whole proof and no context, they are undefined. -/
theorem C82_verify (S : Sqrt (ZMod Bander.q)) (m : Machine) (ctx : Handle) (input : Ptr) (len : ℕ) :
    (∀ c bs, LiveCtx m ctx c → bs.length = len → HoldsAt m input bs →
      Raw.verifyProof K H S m ctx input len = outcomeOf (cVerifyProof K H c.2 S bs) ∧
      Raw.verifyProofUncompressed K H m ctx input len = outcomeOf (cVerifyProofUncompressed K H c.2 bs)) ∧
    (¬ RoomAt m input len → Raw.verifyProof K H S m ctx input len = .undefined ∧ Raw.verifyProofUncompressed K H m ctx input len = .undefined) ∧
    ((∀ c, ¬ LiveCtx m ctx c) → (576 ≤ len → Raw.verifyProof K H S m ctx input len = .undefined) ∧
      (1120 ≤ len → Raw.verifyProofUncompressed K H m ctx input len = .undefined)) := by
  have ev : Raw.verifyProof K H S m ctx input len =
      (slice m input len).bind fun s => (lift (split 576 s)).bind fun _ => (deref m ctx).bind fun c => lift (cVerifyProof K H c.2 S s) := rfl
  have eu : Raw.verifyProofUncompressed K H m ctx input len =
      (slice m input len).bind fun s => (lift (split 1120 s)).bind fun _ => (deref m ctx).bind fun c => lift (cVerifyProofUncompressed K H c.2 s) := rfl
  have hs : ∀ (n : ℕ) (bs : List Byte), n ≤ bs.length → ∃ x, split n bs = .ok x := by
    intro n bs hn
    unfold split
    rw [if_pos hn]
    exact ⟨_, rfl⟩
  refine ⟨?_, ?_, ?_⟩
  · rintro c bs hc rfl hb
    rw [ev, eu, slice_holds hb, deref_live hc]
    constructor
    · show (lift (split 576 bs)).bind (fun _ => lift (cVerifyProof K H c.2 S bs)) = _
      rw [← lift_eq]
      unfold cVerifyProof
      cases split 576 bs <;> rfl
    · show (lift (split 1120 bs)).bind (fun _ => lift (cVerifyProofUncompressed K H c.2 bs)) = _
      rw [← lift_eq]
      unfold cVerifyProofUncompressed
      cases split 1120 bs <;> rfl
  · intro h
    rw [ev, eu, slice_no_room h]
    exact ⟨rfl, rfl⟩
  · intro h
    by_cases hr : RoomAt m input len
    · obtain ⟨bs, rfl, hb⟩ := hr
      rw [ev, eu, slice_holds hb, deref_dead h]
      constructor
      · intro hn
        obtain ⟨x, hx⟩ := hs 576 bs hn
        show (lift (split 576 bs)).bind _ = _
        rw [hx]
        rfl
      · intro hn
        obtain ⟨x, hx⟩ := hs 1120 bs hn
        show (lift (split 1120 bs)).bind _ = _
        rw [hx]
        rfl
    · rw [ev, eu, slice_no_room hr]
      exact ⟨fun _ => rfl, fun _ => rfl⟩

end

/-! ### The Pedersen hash -/

/-- All contexts on the machine are those of `Context::default()`. -/
def CtxsOk (m : Machine) : Prop := ∀ a c, m.ctxs a = some c → Context.Ok c.1

/-- The hash of EIP-6800 of an address and an index. -/
noncomputable def treeHash (address index : Bytes 32) : List Byte :=
  (Eip.hash64 crypto codec ⟨address.1 ++ index.1, by rw [List.length_append, address.2, index.2]⟩).1

theorem treeHash_length (address index : Bytes 32) : (treeHash address index).length = 32 := (Eip.hash64 crypto codec _).2

/-- **C82** (C, Pedersen hash): with a null pointer nothing happens.  With a live context, 32 readable bytes at each of the inputs and 32 bytes of room
for the output, the hash is written and nothing else, also if the buffers overlap.  Otherwise the call is undefined. -/
theorem C82_pedersen {m : Machine} (hm : CtxsOk m) (ctx : Handle) (address index out : Ptr) :
    (ctx = none ∨ address = none ∨ index = none ∨ out = none → Raw.pedersenHash m ctx address index out = .done m) ∧
    (∀ (c : FullContext) (a i : Bytes 32), LiveCtx m ctx c → HoldsAt m address a.1 → HoldsAt m index i.1 → RoomAt m out 32 →
      ∃ m', Raw.pedersenHash m ctx address index out = .done m' ∧ OnlyWritten m m' out (treeHash a i)) ∧
    (¬ (ctx = none ∨ address = none ∨ index = none ∨ out = none) →
      (∀ c, ¬ LiveCtx m ctx c) ∨ ¬ RoomAt m address 32 ∨ ¬ RoomAt m index 32 ∨ ¬ RoomAt m out 32 →
      Raw.pedersenHash m ctx address index out = .undefined) := by
  have en : ¬ (ctx = none ∨ address = none ∨ index = none ∨ out = none) → Raw.pedersenHash m ctx address index out =
      (slice m address 32).bind fun s => (deref m ctx).bind fun c => (slice m index 32).bind fun t =>
        (array32 s).bind fun a => (array32 t).bind fun i => (lift (getTreeKeyHash c.1 a i)).bind fun hash => store m out hash := fun h => by
    unfold Raw.pedersenHash
    rw [if_neg h]
    rfl
  have ea : ∀ a : Bytes 32, array32 a.1 = .done a := fun a => by
    unfold array32
    rw [dif_pos a.2]
  have eh : ∀ (c : FullContext) (a i : Bytes 32), LiveCtx m ctx c → lift (getTreeKeyHash c.1 a i) = .done (treeHash a i) := by
    rintro c a i ⟨h, -, hc⟩
    obtain ⟨x, y, z, hash, -, -, -, -, h1, h2, -⟩ := C50_tree_key (hm _ _ hc) a i
    rw [h1, h2]
    rfl
  refine ⟨fun h => if_pos h, ?_, ?_⟩
  · intro c a i hc ha hi ho
    have hn : ¬ (ctx = none ∨ address = none ∨ index = none ∨ out = none) := by
      obtain ⟨_, rfl, -⟩ := hc
      obtain ⟨_, _, _, rfl, -⟩ := ha
      obtain ⟨_, _, _, rfl, -⟩ := hi
      obtain ⟨_, -, _, _, _, rfl, -⟩ := ho
      simp
    have h1 := slice_holds ha
    have h2 := slice_holds hi
    rw [a.2] at h1
    rw [i.2] at h2
    rw [en hn, h1, deref_live hc, h2]
    simp only [Outcome.bind, ea, eh c a i hc]
    exact store_room (by rw [treeHash_length]; exact ho)
  · intro hn hbad
    rw [en hn]
    by_cases ha : RoomAt m address 32
    swap
    · rw [slice_no_room ha]
      rfl
    by_cases hc : ∃ c, LiveCtx m ctx c
    swap
    · obtain ⟨a, ha', ha⟩ := ha
      have h1 := slice_holds ha
      rw [ha'] at h1
      rw [h1, Outcome.bind, deref_dead (not_exists.1 hc)]
      rfl
    by_cases hi : RoomAt m index 32
    swap
    · obtain ⟨a, ha', ha⟩ := ha
      obtain ⟨c, hc⟩ := hc
      have h1 := slice_holds ha
      rw [ha'] at h1
      rw [slice_no_room hi, h1, deref_live hc]
      rfl
    have ho : ¬ RoomAt m out 32 := by
      rcases hbad with h | h | h | h
      · exact absurd hc.choose_spec (h _)
      · exact absurd ha h
      · exact absurd hi h
      · exact h
    obtain ⟨a, ha', ha⟩ := ha
    obtain ⟨c, hc⟩ := hc
    obtain ⟨i, hi', hi⟩ := hi
    have h1 := slice_holds ha
    have h2 := slice_holds hi
    rw [ha'] at h1
    rw [hi'] at h2
    rw [h1, deref_live hc, h2]
    simp only [Outcome.bind, ea ⟨a, ha'⟩, ea ⟨i, hi'⟩, eh c ⟨a, ha'⟩ ⟨i, hi'⟩ hc]
    exact store_no_room (by rw [treeHash_length]; exact ho)

/-! ### The life of contexts -/

/-- **C82** (C, contexts): a new context is live and leaves the others alone; freeing a live one makes it and no other unusable; freeing null does
nothing; freeing twice is undefined. -/
theorem C82_contexts (m : Machine) :
    (∀ (c : FullContext) (fresh : ℕ), m.ctxs fresh = none → LiveCtx (contextNew c fresh m).1 (contextNew c fresh m).2 c ∧
      (contextNew c fresh m).1.mem = m.mem ∧ ∀ h c', LiveCtx m h c' → LiveCtx (contextNew c fresh m).1 h c') ∧
    contextFree m none = .done m ∧
    (∀ h c, LiveCtx m h c → ∃ m', contextFree m h = .done m' ∧ m'.mem = m.mem ∧ (∀ c', ¬ LiveCtx m' h c') ∧
      ∀ h' c', h' ≠ h → (LiveCtx m' h' c' ↔ LiveCtx m h' c')) ∧
    (∀ h, h ≠ none → (∀ c, ¬ LiveCtx m h c) → contextFree m h = .undefined) := by
  refine ⟨?_, rfl, ?_, ?_⟩
  · intro c fresh hf
    refine ⟨⟨fresh, rfl, Function.update_self ..⟩, rfl, ?_⟩
    rintro _ c' ⟨a, rfl, ha⟩
    refine ⟨a, rfl, ?_⟩
    show Function.update m.ctxs fresh (some c) a = _
    rw [Function.update_of_ne, ha]
    rintro rfl
    rw [hf] at ha
    cases ha
  · rintro _ c ⟨a, rfl, ha⟩
    refine ⟨{ m with ctxs := Function.update m.ctxs a none }, by simp only [contextFree, ha], rfl, ?_, ?_⟩
    · rintro c' ⟨a', he, ha'⟩
      injection he with he
      subst he
      have : (none : Option FullContext) = some c' := (Function.update_self a none m.ctxs).symm.trans ha'
      cases this
    · intro h' c' hne
      have key : ∀ a', h' = some a' → Function.update m.ctxs a none a' = m.ctxs a' := by
        rintro a' rfl
        exact Function.update_of_ne (fun h => hne (by rw [h])) ..
      constructor
      · rintro ⟨a', he, h⟩
        exact ⟨a', he, (key a' he).symm.trans h⟩
      · rintro ⟨a', he, h⟩
        exact ⟨a', he, (key a' he).trans h⟩
  · rintro (_ | a) hn hc
    · exact absurd rfl hn
    · cases ha : m.ctxs a with
      | none => simp only [contextFree, ha]
      | some c => exact absurd ⟨a, rfl, ha⟩ (hc c)

/-- C82: only `pedersen_hash` looks for null pointers: the others are undefined for a null pointer even if no byte is asked for. -/
theorem C82_null_unchecked (K : Ark) (H : List Byte → ZMod r) (S : Sqrt (ZMod Bander.q)) (order : List ℕ → List ℕ) (m : Machine) (ctx : Handle)
    (out : Ptr) : Raw.multiScalarMul m ctx none 0 out = .undefined ∧ Raw.createProof K H S order m ctx none 0 out = .undefined ∧
    Raw.createProofUncompressed K H order m ctx none 0 out = .undefined ∧ Raw.verifyProof K H S m ctx none 0 = .undefined ∧
    Raw.verifyProofUncompressed K H m ctx none 0 = .undefined :=
  ⟨rfl, rfl, rfl, rfl, rfl⟩

/-! ### The C# class -/

/-- What a program does with objects of the class, numbered in the order of their creation. -/
inductive CsEvent where
  | create
  | dispose (i : ℕ)
  | hash (i : ℕ) (address index out : Option ℕ)

/-- The machine and the objects. -/
structure CsState where
  m : Machine
  objs : List RustVerkle

/-- The executions of a program: it creates objects, disposes of them and hashes in any order, and between the calls it changes and allocates arrays
as it likes; the allocator gives any free address. -/
inductive CsReach (c : FullContext) : List CsEvent → CsState → Prop
  | start (mem : ℕ → Option (List Byte)) : CsReach c [] ⟨⟨mem, fun _ => none⟩, []⟩
  | create {l : List CsEvent} {s : CsState} (fresh : ℕ) : CsReach c l s → s.m.ctxs fresh = none →
    CsReach c (l ++ [.create]) ⟨(RustVerkle.new c fresh s.m).1, s.objs ++ [(RustVerkle.new c fresh s.m).2]⟩
  | dispose {l : List CsEvent} {s : CsState} {i : ℕ} {o o' : RustVerkle} {m' : Machine} : CsReach c l s → s.objs[i]? = some o →
    o.dispose s.m = .done (m', o') → CsReach c (l ++ [.dispose i]) ⟨m', s.objs.set i o'⟩
  | hash {l : List CsEvent} {s : CsState} {i : ℕ} {o : RustVerkle} {m' : Machine} {a x out : Option ℕ} : CsReach c l s → s.objs[i]? = some o →
    o.pedersenHash s.m a x out = .done m' → CsReach c (l ++ [.hash i a x out]) ⟨m', s.objs⟩
  | arrays {l : List CsEvent} {s : CsState} (mem : ℕ → Option (List Byte)) : CsReach c l s → CsReach c l ⟨{ s.m with mem := mem }, s.objs⟩

/-- The state of the contexts after the events. -/
structure CsInv (c : FullContext) (l : List CsEvent) (s : CsState) : Prop where
  live : ∀ (i : ℕ) (o : RustVerkle) (a : ℕ), s.objs[i]? = some o → o.context = some a → s.m.ctxs a = some c
  gone : ∀ (i : ℕ) (o : RustVerkle), s.objs[i]? = some o → (o.context = none ↔ CsEvent.dispose i ∈ l)
  known : ∀ i, CsEvent.dispose i ∈ l → i < s.objs.length
  own : ∀ (i j : ℕ) (o o' : RustVerkle) (a : ℕ), s.objs[i]? = some o → s.objs[j]? = some o' → o.context = some a → o'.context = some a → i = j
  tight : ∀ a c', s.m.ctxs a = some c' → ∃ (i : ℕ) (o : RustVerkle), s.objs[i]? = some o ∧ o.context = some a

theorem store_ctxs {m m' : Machine} {p : Ptr} {bs : List Byte} (h : store m p bs = .done m') : m'.ctxs = m.ctxs := by
  by_cases hr : RoomAt m p bs.length
  · obtain ⟨m₁, h1, h2⟩ := store_room hr
    rw [h] at h1
    injection h1 with h1
    rw [h1]
    exact h2.ctxs
  · rw [store_no_room hr] at h
    cases h

theorem bind_done {α β : Type} {x : Outcome α} {f : α → Outcome β} {b : β} (h : x.bind f = .done b) : ∃ a, x = .done a ∧ f a = .done b := by
  cases x with
  | done a => exact ⟨a, rfl, h⟩
  | abort e => cases h
  | undefined => cases h

theorem pedersen_ctxs {m m' : Machine} {h : Handle} {a x out : Ptr} (he : Raw.pedersenHash m h a x out = .done m') : m'.ctxs = m.ctxs := by
  unfold Raw.pedersenHash at he
  split at he
  · injection he with he
    rw [he]
  · obtain ⟨_, -, he⟩ := bind_done he
    obtain ⟨_, -, he⟩ := bind_done he
    obtain ⟨_, -, he⟩ := bind_done he
    obtain ⟨_, -, he⟩ := bind_done he
    obtain ⟨_, -, he⟩ := bind_done he
    obtain ⟨_, -, he⟩ := bind_done he
    exact store_ctxs he

theorem dispose_live {m : Machine} {o : RustVerkle} {a : ℕ} {c : FullContext} (ho : o.context = some a) (ha : m.ctxs a = some c) :
    o.dispose m = .done ({ m with ctxs := Function.update m.ctxs a none }, ⟨none⟩) := by
  unfold RustVerkle.dispose
  rw [ho, if_pos (by simp)]
  simp only [contextFree, ha]
  rfl

theorem dispose_gone {m : Machine} {o : RustVerkle} (ho : o.context = none) : o.dispose m = .done (m, o) := by
  unfold RustVerkle.dispose
  rw [if_neg (by simp [ho])]

theorem csInv {c : FullContext} {l : List CsEvent} {s : CsState} (h : CsReach c l s) : CsInv c l s := by
  induction h with
  | start mem => exact ⟨nofun, nofun, nofun, nofun, nofun⟩
  | @create l s fresh _ hf ih =>
    have hlast : ∀ {i : ℕ} {o : RustVerkle}, (s.objs ++ [(RustVerkle.new c fresh s.m).2])[i]? = some o →
        (s.objs[i]? = some o) ∨ (i = s.objs.length ∧ o = ⟨some fresh⟩) := by
      intro i o h
      rcases Nat.lt_trichotomy i s.objs.length with hi | hi | hi
      · rw [List.getElem?_append_left hi] at h
        exact .inl h
      · subst hi
        rw [List.getElem?_concat_length] at h
        injection h with h
        exact .inr ⟨rfl, h.symm⟩
      · rw [List.getElem?_eq_none (by simp; omega)] at h
        cases h
    have hne : ∀ {i : ℕ} {o : RustVerkle} {a : ℕ}, s.objs[i]? = some o → o.context = some a → a ≠ fresh := by
      rintro i o a ho ha rfl
      rw [ih.live i o a ho ha] at hf
      cases hf
    refine ⟨?_, ?_, ?_, ?_, ?_⟩
    · intro i o a ho ha
      show Function.update s.m.ctxs fresh (some c) a = _
      rcases hlast ho with ho | ⟨-, rfl⟩
      · rw [Function.update_of_ne (hne ho ha), ih.live i o a ho ha]
      · injection ha with ha
        rw [← ha, Function.update_self]
    · intro i o ho
      rw [List.mem_append, List.mem_singleton, or_iff_left (by simp)]
      rcases hlast ho with ho | ⟨rfl, rfl⟩
      · exact ih.gone i o ho
      · exact iff_of_false (by simp) fun h => absurd (ih.known _ h) (lt_irrefl _)
    · intro i hi
      rw [List.mem_append, List.mem_singleton, or_iff_left (by simp)] at hi
      rw [List.length_append]
      exact Nat.lt_add_right _ (ih.known i hi)
    · intro i j o o' a ho ho' ha ha'
      rcases hlast ho with ho | ⟨rfl, rfl⟩ <;> rcases hlast ho' with ho' | ⟨rfl, rfl⟩
      · exact ih.own i j o o' a ho ho' ha ha'
      · injection ha' with ha'
        exact absurd ha'.symm (hne ho ha)
      · injection ha with ha
        exact absurd ha.symm (hne ho' ha')
      · rfl
    · intro a c' ha
      by_cases he : a = fresh
      · subst he
        exact ⟨s.objs.length, ⟨some a⟩, List.getElem?_concat_length .., rfl⟩
      · have ha : Function.update s.m.ctxs fresh (some c) a = some c' := ha
        rw [Function.update_of_ne he] at ha
        obtain ⟨i, o, ho, hc⟩ := ih.tight a c' ha
        exact ⟨i, o, by rw [List.getElem?_append_left (List.getElem?_eq_some_iff.1 ho).1]; exact ho, hc⟩
  | @dispose l s i o o' m' _ ho hd ih =>
    have hi : i < s.objs.length := (List.getElem?_eq_some_iff.1 ho).1
    have hmem : ∀ j, CsEvent.dispose j ∈ l ++ [CsEvent.dispose i] ↔ CsEvent.dispose j ∈ l ∨ j = i := by
      intro j
      rw [List.mem_append, List.mem_singleton, CsEvent.dispose.injEq]
    have hset : ∀ {j : ℕ} {x : RustVerkle}, (s.objs.set i o')[j]? = some x → (j = i ∧ x = o') ∨ (j ≠ i ∧ s.objs[j]? = some x) := by
      intro j x h
      by_cases hj : j = i
      · subst hj
        rw [List.getElem?_set_self hi] at h
        injection h with h
        exact .inl ⟨rfl, h.symm⟩
      · rw [List.getElem?_set_ne (Ne.symm hj)] at h
        exact .inr ⟨hj, h⟩
    have hnone : o'.context = none ∧ (∀ a, o.context ≠ some a → m'.ctxs a = s.m.ctxs a) ∧ ∀ a, o.context = some a → m'.ctxs a = none := by
      cases hc : o.context with
      | none =>
        rw [dispose_gone hc] at hd
        injection hd with hd
        injection hd with h1 h2
        subst h1 h2
        exact ⟨hc, fun _ _ => rfl, nofun⟩
      | some a =>
        rw [dispose_live hc (ih.live i o a ho hc)] at hd
        injection hd with hd
        injection hd with h1 h2
        subst h1 h2
        refine ⟨rfl, fun b hb => Function.update_of_ne (fun h => hb (by rw [h])) .., fun b hb => ?_⟩
        injection hb with hb
        subst hb
        exact Function.update_self ..
    obtain ⟨h1, h2, h3⟩ := hnone
    refine ⟨?_, ?_, ?_, ?_, ?_⟩
    · intro j x a hx ha
      rcases hset hx with ⟨rfl, rfl⟩ | ⟨hj, hx⟩
      · rw [h1] at ha
        cases ha
      · show m'.ctxs a = _
        rw [h2 a fun h => hj (ih.own j i x o a hx ho ha h)]
        exact ih.live j x a hx ha
    · intro j x hx
      rw [hmem]
      rcases hset hx with ⟨rfl, rfl⟩ | ⟨hj, hx⟩
      · exact iff_of_true h1 (.inr rfl)
      · rw [or_iff_left hj]
        exact ih.gone j x hx
    · intro j hj
      rw [List.length_set]
      rcases (hmem j).1 hj with hj | rfl
      · exact ih.known j hj
      · exact hi
    · intro j k x y a hx hy ha hb
      rcases hset hx with ⟨rfl, rfl⟩ | ⟨hj, hx⟩
      · rw [h1] at ha
        cases ha
      rcases hset hy with ⟨rfl, rfl⟩ | ⟨hk, hy⟩
      · rw [h1] at hb
        cases hb
      exact ih.own j k x y a hx hy ha hb
    · intro a c' ha
      have hne : o.context ≠ some a := fun h => by
        rw [h3 a h] at ha
        cases ha
      have ha : m'.ctxs a = some c' := ha
      rw [h2 a hne] at ha
      obtain ⟨j, x, hx, hc⟩ := ih.tight a c' ha
      refine ⟨j, x, ?_, hc⟩
      rw [List.getElem?_set_ne]
      · exact hx
      · rintro rfl
        rw [ho] at hx
        injection hx with hx
        exact hne (by rw [hx]; exact hc)
  | @hash l s i o m' a x out _ ho hh ih =>
    have hc : m'.ctxs = s.m.ctxs := pedersen_ctxs hh
    have hmem : ∀ j, CsEvent.dispose j ∈ l ++ [CsEvent.hash i a x out] ↔ CsEvent.dispose j ∈ l := by
      intro j
      rw [List.mem_append, List.mem_singleton, or_iff_left (by simp)]
    refine ⟨fun j y b hy hb => (congrFun hc b).trans (ih.live j y b hy hb), fun j y hy => (ih.gone j y hy).trans (hmem j).symm,
      fun j hj => ih.known j ((hmem j).1 hj), ih.own, fun b c' hb => ih.tight b c' ((congrFun hc b).symm.trans hb)⟩
  | arrays mem _ ih => exact ⟨ih.live, ih.gone, ih.known, ih.own, ih.tight⟩

/-- The content of an array. -/
def ArrayIs (m : Machine) (a : Option ℕ) (bs : List Byte) : Prop := ∃ b, a = some b ∧ m.mem b = some bs

/-- The first 32 bytes. -/
def first32 (bs : List Byte) (h : 32 ≤ bs.length) : Bytes 32 := ⟨bs.take 32, by rw [List.length_take]; omega⟩

theorem fixed_holds {m : Machine} {a : Option ℕ} {bs : List Byte} (h : ArrayIs m a bs) (hl : 32 ≤ bs.length) :
    HoldsAt m (fixedPtr m a) (first32 bs hl).1 ∧ ∃ b, a = some b ∧ fixedPtr m a = some (b, 0) := by
  obtain ⟨b, rfl, hm⟩ := h
  have hp : fixedPtr m (some b) = some (b, 0) := by
    unfold fixedPtr
    dsimp only
    rw [if_neg]
    rw [hm]
    intro h
    injection h with h
    rw [h] at hl
    simp at hl
  refine ⟨⟨b, [], bs.drop 32, hp, ?_⟩, b, rfl, hp⟩
  rw [hm, List.nil_append]
  exact congrArg some (List.take_append_drop 32 bs).symm

theorem fixed_short {m : Machine} {a : Option ℕ} {bs : List Byte} (h : ArrayIs m a bs) (hl : bs.length < 32) : ¬ RoomAt m (fixedPtr m a) 32 := by
  obtain ⟨b, rfl, hm⟩ := h
  rw [room_iff]
  rintro ⟨b', o, l, hp, hl', hle⟩
  unfold fixedPtr at hp
  dsimp only at hp
  split at hp
  · cases hp
  · injection hp with hp
    injection hp with h1 h2
    subst h1 h2
    rw [hm] at hl'
    injection hl' with hl'
    subst hl'
    omega

theorem fixed_null {m : Machine} {a : Option ℕ} : fixedPtr m a = none ↔ a = none ∨ ArrayIs m a [] := by
  unfold fixedPtr ArrayIs
  cases a with
  | none => simp
  | some b =>
    dsimp only
    split <;> rename_i h <;> simp [h]

/-- **C82** (C#): whatever a program does with objects of the class, `Dispose` can always be called, contexts belong to one object each and are
freed once, and no context is left when all objects are disposed of.  `PedersenHash` of an object not disposed of writes the hash of the first
32 bytes of its arguments if all arrays have at least 32 bytes; if one is null or empty, or the object is disposed of, it does nothing; otherwise
it accesses memory outside of an array. -/
theorem C82_csharp_partial {c : FullContext} (hc : Context.Ok c.1) {l : List CsEvent} {s : CsState} (hs : CsReach c l s) :
    (∀ i o, s.objs[i]? = some o →
      (∃ m' o', o.dispose s.m = .done (m', o') ∧ m'.mem = s.m.mem ∧ o'.context = none) ∧
      ∀ a x out : Option ℕ,
        (CsEvent.dispose i ∉ l → ∀ (ab xb ob : List Byte) (ha : 32 ≤ ab.length) (hx : 32 ≤ xb.length), 32 ≤ ob.length → ArrayIs s.m a ab →
          ArrayIs s.m x xb → ArrayIs s.m out ob → ∃ m' b, out = some b ∧ o.pedersenHash s.m a x out = .done m' ∧
            OnlyWritten s.m m' (some (b, 0)) (treeHash (first32 ab ha) (first32 xb hx))) ∧
        (CsEvent.dispose i ∈ l ∨ (∃ y ∈ [a, x, out], y = none ∨ ArrayIs s.m y []) → o.pedersenHash s.m a x out = .done s.m) ∧
        (CsEvent.dispose i ∉ l → (∀ y ∈ [a, x, out], ∃ b bs, y = some b ∧ s.m.mem b = some bs ∧ bs ≠ []) →
          (∃ y ∈ [a, x, out], ∃ bs, ArrayIs s.m y bs ∧ bs.length < 32) → o.pedersenHash s.m a x out = .undefined)) ∧
    ((∀ i, i < s.objs.length → CsEvent.dispose i ∈ l) → ∀ a, s.m.ctxs a = none) := by
  have inv := csInv hs
  have hok : CtxsOk s.m := by
    intro a c' ha
    obtain ⟨i, o, ho, hoc⟩ := inv.tight a c' ha
    rw [inv.live i o a ho hoc] at ha
    injection ha with ha
    rw [← ha]
    exact hc
  refine ⟨fun i o ho => ⟨?_, fun a x out => ?_⟩, fun hall a => ?_⟩
  · cases hoc : o.context with
    | none => exact ⟨_, _, dispose_gone hoc, rfl, hoc⟩
    | some a => exact ⟨_, _, dispose_live hoc (inv.live i o a ho hoc), rfl, rfl⟩
  · obtain ⟨p1, p2, p3⟩ := C82_pedersen hok o.context (fixedPtr s.m a) (fixedPtr s.m x) (fixedPtr s.m out)
    have hlive : CsEvent.dispose i ∉ l → LiveCtx s.m o.context c := by
      intro h
      cases hoc : o.context with
      | none => exact absurd ((inv.gone i o ho).1 hoc) h
      | some b => exact ⟨b, rfl, inv.live i o b ho hoc⟩
    refine ⟨?_, ?_, ?_⟩
    · intro hd ab xb ob ha hx hob Ha Hx Ho
      obtain ⟨h3, b, rfl, hb⟩ := fixed_holds Ho hob
      obtain ⟨m', h1, h2⟩ := p2 c (first32 ab ha) (first32 xb hx) (hlive hd) (fixed_holds Ha ha).1 (fixed_holds Hx hx).1
        ⟨_, (first32 ob hob).2, h3⟩
      rw [hb] at h2
      exact ⟨m', b, rfl, h1, h2⟩
    · intro h
      apply p1
      rcases h with h | ⟨y, hy, h⟩
      · exact .inl ((inv.gone i o ho).2 h)
      · have := fixed_null.2 h
        simp only [List.mem_cons, List.not_mem_nil, or_false] at hy
        rcases hy with rfl | rfl | rfl
        · exact .inr (.inl this)
        · exact .inr (.inr (.inl this))
        · exact .inr (.inr (.inr this))
    · intro hd hne hshort
      have hp : ∀ y ∈ [a, x, out], fixedPtr s.m y ≠ none := by
        intro y hy h
        obtain ⟨b, bs, rfl, hb, hbs⟩ := hne y hy
        rcases fixed_null.1 h with h | ⟨b', h, h'⟩
        · cases h
        · injection h with h
          subst h
          rw [hb] at h'
          injection h' with h'
          exact hbs h'
      refine p3 ?_ (.inr ?_)
      · rintro (h | h | h | h)
        · exact hd ((inv.gone i o ho).1 h)
        · exact hp a (by simp) h
        · exact hp x (by simp) h
        · exact hp out (by simp) h
      · obtain ⟨y, hy, bs, hb, hl⟩ := hshort
        have := fixed_short hb hl
        simp only [List.mem_cons, List.not_mem_nil, or_false] at hy
        rcases hy with rfl | rfl | rfl
        · exact .inl this
        · exact .inr (.inl this)
        · exact .inr (.inr this)
  · cases ha : s.m.ctxs a with
    | none => rfl
    | some c' =>
      obtain ⟨i, o, ho, hoc⟩ := inv.tight a c' ha
      have := (inv.gone i o ho).2 (hall i (List.getElem?_eq_some_iff.1 ho).1)
      rw [this] at hoc
      cases hoc

/-- Three arrays: an address of 20 bytes, as Ethereum has them, an index of 32 bytes and room for the hash. -/
def twentyBytes : ℕ → Option (List Byte)
  | 0 => some (List.replicate 20 1)
  | 1 => some (List.replicate 32 0)
  | 2 => some (List.replicate 32 0)
  | 3 => some (List.replicate 32 1)
  | _ => none

/-- C82: the C# method can be made to access memory outside of the arrays, by an address of 20 bytes or by an array of 20 bytes for the hash, and after
`Dispose` it returns without having written a hash. -/
theorem C82_csharp_full_claim_false {c : FullContext} (hc : Context.Ok c.1) :
    (∃ s o, CsReach c [.create] s ∧ s.objs[0]? = some o ∧ s.m.mem = twentyBytes ∧ o.pedersenHash s.m (some 0) (some 1) (some 2) = .undefined ∧
      o.pedersenHash s.m (some 3) (some 1) (some 0) = .undefined ∧ ∃ m', o.pedersenHash s.m (some 3) (some 1) (some 2) = .done m') ∧
    ∃ s o, CsReach c [.create, .dispose 0] s ∧ s.objs[0]? = some o ∧ s.m.mem = twentyBytes ∧
      o.pedersenHash s.m (some 3) (some 1) (some 2) = .done s.m := by
  have r1 := CsReach.create (c := c) 7 (CsReach.start twentyBytes) rfl
  have h20 : ∀ m : Machine, m.mem = twentyBytes → ArrayIs m (some 0) (List.replicate 20 1) := fun m h => ⟨0, rfl, by rw [h]; rfl⟩
  have h1 : ∀ m : Machine, m.mem = twentyBytes → ArrayIs m (some 1) (List.replicate 32 0) := fun m h => ⟨1, rfl, by rw [h]; rfl⟩
  have h2 : ∀ m : Machine, m.mem = twentyBytes → ArrayIs m (some 2) (List.replicate 32 0) := fun m h => ⟨2, rfl, by rw [h]; rfl⟩
  have h3 : ∀ m : Machine, m.mem = twentyBytes → ArrayIs m (some 3) (List.replicate 32 1) := fun m h => ⟨3, rfl, by rw [h]; rfl⟩
  have full : ∀ (k : ℕ) (b : Byte) (m : Machine) (y : Option ℕ), 0 < k → ArrayIs m y (List.replicate k b) →
      ∃ b bs, y = some b ∧ m.mem b = some bs ∧ bs ≠ [] := by
    rintro k b m y hk ⟨b', rfl, h⟩
    exact ⟨b', _, rfl, h, by
      intro he
      have := congrArg List.length he
      rw [List.length_replicate] at this
      exact absurd this hk.ne'⟩
  constructor
  · obtain ⟨-, p⟩ := (C82_csharp_partial hc r1).1 0 _ rfl
    have nd : CsEvent.dispose 0 ∉ ([] ++ [CsEvent.create] : List CsEvent) := by simp
    refine ⟨_, _, r1, rfl, rfl, ?_, ?_, ?_⟩
    · refine (p (some 0) (some 1) (some 2)).2.2 nd ?_ ⟨some 0, by simp, _, h20 _ rfl, by simp⟩
      intro y hy
      simp only [List.mem_cons, List.not_mem_nil, or_false] at hy
      rcases hy with rfl | rfl | rfl
      · exact full _ _ _ _ (by norm_num) (h20 _ rfl)
      · exact full _ _ _ _ (by norm_num) (h1 _ rfl)
      · exact full _ _ _ _ (by norm_num) (h2 _ rfl)
    · refine (p (some 3) (some 1) (some 0)).2.2 nd ?_ ⟨some 0, by simp, _, h20 _ rfl, by simp⟩
      intro y hy
      simp only [List.mem_cons, List.not_mem_nil, or_false] at hy
      rcases hy with rfl | rfl | rfl
      · exact full _ _ _ _ (by norm_num) (h3 _ rfl)
      · exact full _ _ _ _ (by norm_num) (h1 _ rfl)
      · exact full _ _ _ _ (by norm_num) (h20 _ rfl)
    · obtain ⟨m', b, -, h, -⟩ := (p (some 3) (some 1) (some 2)).1 nd _ _ _ (by simp) (by simp) (by simp) (h3 _ rfl) (h1 _ rfl) (h2 _ rfl)
      exact ⟨m', h⟩
  · have r2 := CsReach.dispose (i := 0) r1 rfl (dispose_live (a := 7) (c := c) rfl (show Function.update (fun _ => none) 7 (some c) 7 = some c from Function.update_self ..))
    obtain ⟨-, p⟩ := (C82_csharp_partial hc r2).1 0 _ rfl
    exact ⟨_, _, r2, rfl, rfl, (p _ _ _).2.1 (.inl (by simp))⟩

/-! ### The hypotheses can be met -/

/-- A machine with one context and two buffers; hashing in place. -/
example : ∃ (c : FullContext) (m : Machine), CtxsOk m ∧ LiveCtx m (some 5) c ∧ ∃ m', Raw.pedersenHash m (some 5) (some (0, 4)) (some (0, 4)) (some (0, 10)) = .done m' ∧
    ∃ h, OnlyWritten m m' (some (0, 10)) h := by
  obtain ⟨ctx, h, -⟩ := exists_context
  obtain ⟨pc, -⟩ := C59_context
  let m : Machine := ⟨fun b => if b = 0 then some (List.replicate 64 3) else none, fun a => if a = 5 then some (ctx, pc) else none⟩
  have ok : CtxsOk m := by
    intro a c' ha
    by_cases h5 : a = 5
    · subst h5
      injection ha with ha
      rw [← ha]
      exact h
    · have : m.ctxs a = none := if_neg h5
      rw [this] at ha
      cases ha
  have live : LiveCtx m (some 5) (ctx, pc) := ⟨5, rfl, rfl⟩
  have at4 : HoldsAt m (some (0, 4)) (List.replicate 32 3) := ⟨0, List.replicate 4 3, List.replicate 28 3, rfl, rfl⟩
  have at10 : HoldsAt m (some (0, 10)) (List.replicate 32 3) := ⟨0, List.replicate 10 3, List.replicate 22 3, rfl, rfl⟩
  obtain ⟨m', h1, h2⟩ := (C82_pedersen ok (some 5) (some (0, 4)) (some (0, 4)) (some (0, 10))).2.1 (ctx, pc) ⟨List.replicate 32 3, rfl⟩
    ⟨List.replicate 32 3, rfl⟩ live at4 at4 ⟨_, rfl, at10⟩
  exact ⟨(ctx, pc), m, ok, live, m', h1, _, h2⟩

/-- A commitment to the vector with the one entry five is written. -/
example : ∃ (m m' : Machine), Raw.multiScalarMul m (some 5) (some (0, 0)) 32 (some (1, 0)) = .done m' ∧
    OnlyWritten m m' (some (1, 0)) (codec.encE (Spec.commit crypto (padded [5]))) := by
  obtain ⟨ctx, h, -⟩ := exists_context
  obtain ⟨pc, -⟩ := C59_context
  have hl : (([5] : List (ZMod r)).flatMap codec.encS).length = 32 := by simp [codec.encS_len]
  let m : Machine := ⟨fun b => if b = 0 then some (([5] : List (ZMod r)).flatMap codec.encS) else if b = 1 then some (List.replicate 32 0) else none,
    fun a => if a = 5 then some (ctx, pc) else none⟩
  have at0 : HoldsAt m (some (0, 0)) (([5] : List (ZMod r)).flatMap codec.encS) := ⟨0, [], [], rfl, by
    show some _ = some _
    rw [List.nil_append, List.append_nil]⟩
  have at1 : RoomAt m (some (1, 0)) 32 := ⟨List.replicate 32 0, rfl, 1, [], [], rfl, rfl⟩
  have hf := (C60_msm_partial h (([5] : List (ZMod r)).flatMap codec.encS)).1 [5] [] (by simp) (List.append_nil _).symm
  obtain ⟨m', h1, h2⟩ := ((((C82_multi_scalar_mul m (some 5) (some (0, 0)) (some (1, 0)) 32).1 (ctx, pc) _ ⟨5, rfl, rfl⟩ hl at0).2 _ hf).2).1 at1
  exact ⟨m, m', h1, h2⟩

example : ∃ c : FullContext, Context.Ok c.1 := by
  obtain ⟨ctx, h, -⟩ := exists_context
  obtain ⟨pc, -⟩ := C59_context
  exact ⟨(ctx, pc), h⟩

end Verif.Props
