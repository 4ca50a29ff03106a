import Verif.Ffi.CBind

/-!
# The C binding on memory, and the C# class

Sources: `/repo/bindings/c/src/lib.rs`, `/repo/bindings/csharp/csharp_code/Verkle.Bindings/RustVerkle.cs` with the imports of `native_methods.g.cs`
in the same directory.

`Ffi/CBind.lean` takes a pointer with a length as a byte string.  Here pointers point into allocations of the caller, and an access
outside of them, through a null pointer or to a freed context is undefined behaviour, an outcome of its own.  A panic inside of an
`extern "C"` function does not return to the caller; that is the outcome `abort`.  Simplifications: one thread; the memory of contexts is
apart from the memory of the caller's buffers; `context_new` does not run out of memory.
-/

set_option autoImplicit false

namespace Verif.Ffi.Raw
open Wire Proof Ipa Bander

/-- How a foreign call ends. -/
inductive Outcome (α : Type) where
  | done (a : α)
  | abort (m : String)
  | undefined

/-- Continue after a call that returned. -/
def Outcome.bind {α β : Type} : Outcome α → (α → Outcome β) → Outcome β
  | .done a, f => f a
  | .abort m, _ => .abort m
  | .undefined, _ => .undefined

instance : Monad Outcome where
  pure := .done
  bind := Outcome.bind

/-- A panic inside of the call. -/
def lift {α : Type} : Res α → Outcome α
  | .ok a => .done a
  | .error m => .abort m

/-- A pointer to bytes: null, or an offset into an allocation. -/
abbrev Ptr := Option (ℕ × ℕ)

/-- A pointer to a context: null, or an address handed out by `context_new`. -/
abbrev Handle := Option ℕ

/-- What `Context` (`/repo/ffi_interface/src/lib.rs:33-38`) contains: the part for commitments and the part for proofs. -/
abbrev FullContext := Context × ProofContext

/-- The allocations of the caller and the boxed contexts. -/
structure Machine where
  mem : ℕ → Option (List Byte)
  ctxs : ℕ → Option FullContext

/-- `std::slice::from_raw_parts(p, len)` and reading all of it. -/
def slice (m : Machine) (p : Ptr) (len : ℕ) : Outcome (List Byte) :=
  match p with
  | none => .undefined
  | some (b, o) =>
    match m.mem b with
    | none => .undefined
    | some bs => if o + len ≤ bs.length then .done ((bs.drop o).take len) else .undefined

/-- `std::slice::from_raw_parts_mut(p, new.len()).copy_from_slice(new)`. -/
def store (m : Machine) (p : Ptr) (new : List Byte) : Outcome Machine :=
  match p with
  | none => .undefined
  | some (b, o) =>
    match m.mem b with
    | none => .undefined
    | some bs =>
      if o + new.length ≤ bs.length then
        .done { m with mem := Function.update m.mem b (some (bs.take o ++ new ++ bs.drop (o + new.length))) }
      else .undefined

/-- `&*ctx`. -/
def deref (m : Machine) (ctx : Handle) : Outcome FullContext :=
  match ctx with
  | none => .undefined
  | some h =>
    match m.ctxs h with
    | none => .undefined
    | some c => .done c

/-- `context_new`, `lib.rs:13-16`; the allocator gives the free address `fresh`, and `c` is `Context::default()`. -/
def contextNew (c : FullContext) (fresh : ℕ) (m : Machine) : Machine × Handle :=
  ({ m with ctxs := Function.update m.ctxs fresh (some c) }, some fresh)

/-- `context_free`, `lib.rs:20-27`. -/
def contextFree (m : Machine) (ctx : Handle) : Outcome Machine :=
  match ctx with
  | none => .done m
  | some h =>
    match m.ctxs h with
    | none => .undefined
    | some _ => .done { m with ctxs := Function.update m.ctxs h none }

/-- `<[u8; 32]>::try_from(slice).unwrap()`. -/
def array32 (bs : List Byte) : Outcome (Bytes 32) :=
  if h : bs.length = 32 then .done ⟨bs, h⟩ else .abort "called unwrap on Err"

/-- `pedersen_hash`, `lib.rs:32-63`. -/
noncomputable def pedersenHash (m : Machine) (ctx : Handle) (address treeIndexLe out : Ptr) : Outcome Machine :=
  if ctx = none ∨ address = none ∨ treeIndexLe = none ∨ out = none then .done m
  else do
    let addSlice ← slice m address 32
    let c ← deref m ctx
    let indexSlice ← slice m treeIndexLe 32
    let hash ← lift (getTreeKeyHash c.1 (← array32 addSlice) (← array32 indexSlice))
    store m out hash

/-- `multi_scalar_mul`, `lib.rs:67-92`. -/
noncomputable def multiScalarMul (m : Machine) (ctx : Handle) (scalars : Ptr) (len : ℕ) (out : Ptr) : Outcome Machine := do
  let s ← slice m scalars len
  let c ← deref m ctx
  let hash ← lift (cMultiScalarMul c.1 s)
  store m out hash

section
variable (K : Ark) (H : List Byte → ZMod r)

/-- `create_proof`, `lib.rs:96-142`.  (The length of the proof is compared with that of the destination inside of `cCreateProof`; proofs of
256 generators always have it, so that the order of this comparison and of the access to `out` does not matter.) -/
noncomputable def createProof (S : Sqrt (ZMod q)) (order : List ℕ → List ℕ) (m : Machine) (ctx : Handle) (input : Ptr) (len : ℕ) (out : Ptr) :
    Outcome Machine := do
  let s ← slice m input len
  let c ← deref m ctx
  let proof ← lift (cCreateProof K H c.2 S order s)
  store m out proof

/-- `create_proof_uncompressed`, `lib.rs:146-200`; as `createProof`. -/
noncomputable def createProofUncompressed (order : List ℕ → List ℕ) (m : Machine) (ctx : Handle) (input : Ptr) (len : ℕ) (out : Ptr) :
    Outcome Machine := do
  let s ← slice m input len
  let c ← deref m ctx
  let proof ← lift (cCreateProofUncompressed K H c.2 order s)
  store m out proof

/-- `verify_proof`, `lib.rs:204-252`; `split_at` (`:211`), which may panic, comes before the access to the context. -/
noncomputable def verifyProof (S : Sqrt (ZMod q)) (m : Machine) (ctx : Handle) (input : Ptr) (len : ℕ) : Outcome Bool := do
  let s ← slice m input len
  let _ ← lift (split 576 s)
  let c ← deref m ctx
  lift (cVerifyProof K H c.2 S s)

/-- `verify_proof_uncompressed`, `lib.rs:256-309`. -/
noncomputable def verifyProofUncompressed (m : Machine) (ctx : Handle) (input : Ptr) (len : ℕ) : Outcome Bool := do
  let s ← slice m input len
  let _ ← lift (split 1120 s)
  let c ← deref m ctx
  lift (cVerifyProofUncompressed K H c.2 s)

end

/-! ### The C# class -/

/-- `RustVerkle`, `RustVerkle.cs:8-10`: the field `_context`. -/
structure RustVerkle where
  context : Handle

/-- The constructor: the initialiser of `_context`, `RustVerkle.cs:10`. -/
def RustVerkle.new (c : FullContext) (fresh : ℕ) (m : Machine) : Machine × RustVerkle :=
  let r := contextNew c fresh m
  (r.1, ⟨r.2⟩)

/-- `Dispose`, `RustVerkle.cs:12-19`. -/
def RustVerkle.dispose (m : Machine) (o : RustVerkle) : Outcome (Machine × RustVerkle) :=
  if o.context ≠ none then do
    let m' ← contextFree m o.context
    .done (m', ⟨none⟩)
  else .done (m, o)

/-- `fixed (byte* p = array)`: a reference to an array is null or names an allocation; for null and for an array without elements the pointer is
null (C# specification), else it points to the first element, and the array does not move during the call. -/
def fixedPtr (m : Machine) (array : Option ℕ) : Ptr :=
  match array with
  | none => none
  | some b => if m.mem b = some [] then none else some (b, 0)

/-- `PedersenHash`, `RustVerkle.cs:21-29`. -/
noncomputable def RustVerkle.pedersenHash (m : Machine) (o : RustVerkle) (address treeIndexLe outHash : Option ℕ) : Outcome Machine :=
  Raw.pedersenHash m o.context (fixedPtr m address) (fixedPtr m treeIndexLe) (fixedPtr m outHash)

end Verif.Ffi.Raw
