import Verif.Eip.Lemmas
import Verif.Props.Wire

/-!
# C41–C46: tree keys and code chunks
-/

set_option autoImplicit false

namespace Verif.Props
open Eip Wire Proof

/-! ### C41, C42, C45 -/

/-- The things one account stores. -/
inductive Item where
  | version | balance | nonce | codeKeccak | codeSize
  | storage (slot : ℕ)
  | code (chunk : ℕ)
deriving DecidableEq

/-- The tree key derived for an item. -/
def itemKey (H : Hash64) (a : Bytes 32) : Item → Res Key
  | .version => (Header.new H a).map Header.version
  | .balance => (Header.new H a).map Header.balance
  | .nonce => (Header.new H a).map Header.nonce
  | .codeKeccak => (Header.new H a).map Header.codeKeccak
  | .codeSize => (Header.new H a).map Header.codeSize
  | .storage s => storageKey H a s
  | .code c => codeKey H a c

/-- The items for which the claim is made: slots below `2²⁵⁶ - 2²⁴⁸`, chunks below `2²⁴⁸ - 64`. -/
def Item.Valid : Item → Prop
  | .storage s => s < 2 ^ 256 - 2 ^ 248
  | .code c => c < 2 ^ 248 - 64
  | _ => True

/-- The place of an item: tree index and sub index. -/
def Item.place : Item → ℕ × Byte
  | .version => (0, 0)
  | .balance => (0, 1)
  | .nonce => (0, 2)
  | .codeKeccak => (0, 3)
  | .codeSize => (0, 4)
  | .storage s => if s < 64 then (0, Fin.ofNat 256 (64 + s)) else (2 ^ 240 + s / 256, Fin.ofNat 256 s)
  | .code c => ((128 + c) / 256, Fin.ofNat 256 (128 + c))

theorem swap_ok (k : Key) {b : ℕ} (hb : b < 256) : swapLastByte k b = .ok (mkKey k.stem (Fin.ofNat 256 b)) := by
  rw [swapLastByte, if_neg (by omega), dif_pos hb]
  congr 2
  apply Fin.ext
  simp [Nat.mod_eq_of_lt hb]

theorem add_ok {x y : ℕ} (h : x + y < 2 ^ 256) : addU256 x y = .ok (x + y) := if_pos h

theorem add_err {x y : ℕ} (h : ¬ x + y < 2 ^ 256) : addU256 x y = .error "arithmetic operation overflow" := if_neg h

theorem main_eq : mainStorageOffset = 2 ^ 248 := by
  unfold mainStorageOffset
  norm_num

theorem storage_place (H : Hash64) (a : Bytes 32) {s : ℕ} (h : s < 2 ^ 256 - 2 ^ 248) :
    storageKey H a s = .ok (mkKey (hashAddrInt H a (Item.storage s).place.1).stem (Item.storage s).place.2) := by
  by_cases h1 : s < 64
  · rw [storageKey, if_pos (by simp only [codeOffset, headerStorageOffset]; omega),
      add_ok (by simp only [headerStorageOffset]; omega)]
    simp only [bind, Except.bind, verkleNodeWidth, headerStorageOffset]
    rw [swap_ok _ (by omega), show (64 + s) / 256 = 0 by omega, Nat.mod_eq_of_lt (by omega), Item.place, if_pos h1]
  · rw [storageKey, if_neg (by simp only [codeOffset, headerStorageOffset]; omega), add_ok (by rw [main_eq]; omega), main_eq]
    simp only [bind, Except.bind, verkleNodeWidth]
    rw [swap_ok _ (by omega), Item.place, if_neg h1, show (2 ^ 248 + s) / 256 = 2 ^ 240 + s / 256 by omega]
    congr 2
    apply Fin.ext
    simp only [Fin.val_ofNat]
    omega

theorem code_place (H : Hash64) (a : Bytes 32) {c : ℕ} (h : 128 + c < 2 ^ 256) :
    codeKey H a c = .ok (mkKey (hashAddrInt H a (Item.code c).place.1).stem (Item.code c).place.2) := by
  rw [codeKey, add_ok (by simp only [codeOffset]; omega)]
  simp only [bind, Except.bind, verkleNodeWidth, codeOffset]
  rw [swap_ok _ (by omega), Item.place]
  congr 2
  apply Fin.ext
  simp only [Fin.val_ofNat]
  omega

theorem header_new (H : Hash64) (a : Bytes 32) : Header.new H a =
    .ok ⟨mkKey (hashAddrInt H a 0).stem 1, mkKey (hashAddrInt H a 0).stem 0, mkKey (hashAddrInt H a 0).stem 4,
      mkKey (hashAddrInt H a 0).stem 2, mkKey (hashAddrInt H a 0).stem 3⟩ := by
  unfold Header.new Header.withTreeIndex
  simp only [versionLeafKey, balanceLeafKey, nonceLeafKey, codeKeccakLeafKey, codeSizeLeafKey]
  rw [swap_ok _ (by norm_num), swap_ok _ (by norm_num), swap_ok _ (by norm_num), swap_ok _ (by norm_num), swap_ok _ (by norm_num)]
  rfl

/-- C41.  Every item has one place, whatever hash and address, and different items have different places. -/
theorem C41_places_disjoint :
    (∀ (H : Hash64) (a : Bytes 32) (i : Item), i.Valid →
      itemKey H a i = .ok (mkKey (hashAddrInt H a i.place.1).stem i.place.2)) ∧
    ∀ i j : Item, i.Valid → j.Valid → i.place = j.place → i = j := by
  constructor
  · intro H a i hi
    cases i with
    | storage s => exact storage_place H a hi
    | code c => exact code_place H a (by simp only [Item.Valid] at hi; omega)
    | _ => simp only [itemKey, header_new, Except.map]; rfl
  · intro i j hi hj h
    have hc : ∀ i : Item, i.Valid → (i.place.1 = 0 ∧ i.place.2.val < 128 ∧ (i.place.2.val < 64 →
        (i = .version ∧ i.place.2.val = 0) ∨ (i = .balance ∧ i.place.2.val = 1) ∨ (i = .nonce ∧ i.place.2.val = 2) ∨
        (i = .codeKeccak ∧ i.place.2.val = 3) ∨ (i = .codeSize ∧ i.place.2.val = 4)) ∧
        (64 ≤ i.place.2.val → i = .storage (i.place.2.val - 64))) ∨
        (2 ^ 248 + 64 ≤ 256 * i.place.1 + i.place.2.val ∧ i = .storage (256 * (i.place.1 - 2 ^ 240) + i.place.2.val)) ∨
        (256 * i.place.1 + i.place.2.val < 2 ^ 248 + 64 ∧ 128 ≤ 256 * i.place.1 + i.place.2.val ∧ i = .code (256 * i.place.1 + i.place.2.val - 128)) := by
      intro i hi
      cases i with
      | storage s =>
        simp only [Item.place, Item.Valid] at hi ⊢
        by_cases hs : s < 64
        · left
          simp only [if_pos hs, Fin.val_ofNat]
          refine ⟨trivial, by omega, fun h => by omega, fun _ => ?_⟩
          congr 1
          omega
        · right; left
          simp only [if_neg hs, Fin.val_ofNat]
          refine ⟨by omega, ?_⟩
          congr 1
          omega
      | code c =>
        simp only [Item.place, Item.Valid] at hi ⊢
        right; right
        simp only [Fin.val_ofNat]
        refine ⟨by omega, by omega, ?_⟩
        have : c = 256 * ((128 + c) / 256) + (128 + c) % 256 - 128 := by omega
        exact congrArg Item.code this
      | _ => left; simp [Item.place]
    have e1 := hc i hi
    have e2 := hc j hj
    rw [h] at e1
    generalize j.place.1 = n at e1 e2
    generalize j.place.2.val = b at e1 e2
    rcases e1 with ⟨a1, a2, a3, a4⟩ | ⟨a1, a2⟩ | ⟨a1, a2, a3⟩ <;> rcases e2 with ⟨b1, b2, b3, b4⟩ | ⟨b1, b2⟩ | ⟨b1, b2, b3⟩ <;>
      try omega
    · rcases Nat.lt_or_ge b 64 with hb | hb
      · rcases a3 hb with ⟨rfl, q⟩ | ⟨rfl, q⟩ | ⟨rfl, q⟩ | ⟨rfl, q⟩ | ⟨rfl, q⟩ <;>
          rcases b3 hb with ⟨rfl, q'⟩ | ⟨rfl, q'⟩ | ⟨rfl, q'⟩ | ⟨rfl, q'⟩ | ⟨rfl, q'⟩ <;> first | rfl | omega
      · rw [a4 hb, b4 hb]
    · rw [a2, b2]
    · rw [a3, b3]

theorem place_lt {i : Item} (hi : i.Valid) : i.place.1 < 2 ^ 256 := by
  cases i with
  | storage s =>
    simp only [Item.place, Item.Valid] at hi ⊢
    split
    · norm_num
    · simp only
      omega
  | code c =>
    simp only [Item.place, Item.Valid] at hi ⊢
    omega
  | _ => simp [Item.place]

/-- C41, in terms of keys: the keys of two different items of one account coincide only if the hash gives the same stem for
two different tree indices. -/
theorem C41_keys_differ (H : Hash64) (a : Bytes 32) {i j : Item} (hi : i.Valid) (hj : j.Valid) (hne : i ≠ j) {k k' : Key}
    (h : itemKey H a i = .ok k) (h' : itemKey H a j = .ok k') :
    k ≠ k' ∨ ∃ n n' : ℕ, n < 2 ^ 256 ∧ n' < 2 ^ 256 ∧ n ≠ n' ∧ (hashAddrInt H a n).stem = (hashAddrInt H a n').stem := by
  rw [C41_places_disjoint.1 H a i hi] at h
  rw [C41_places_disjoint.1 H a j hj] at h'
  simp only [Except.ok.injEq] at h h'
  subst h h'
  by_cases e : mkKey (hashAddrInt H a i.place.1).stem i.place.2 = mkKey (hashAddrInt H a j.place.1).stem j.place.2
  · right
    rw [mkKey_inj] at e
    refine ⟨_, _, place_lt hi, place_lt hj, fun hp => hne ?_, e.1⟩
    exact C41_places_disjoint.2 i j hi hj (Prod.ext hp e.2)
  · exact Or.inl e

/-- C41: the bound on chunk numbers is sharp, the next chunk shares its key with storage slot 64. -/
theorem C41_bound_sharp (H : Hash64) (a : Bytes 32) : itemKey H a (.code (2 ^ 248 - 64)) = itemKey H a (.storage 64) := by
  simp only [itemKey]
  rw [storage_place H a (by norm_num), code_place H a (by norm_num)]
  have e : (Item.code (2 ^ 248 - 64)).place = (Item.storage 64).place := by
    simp only [Item.place]
    norm_num
    decide +kernel
  rw [e]

/-- C42.  Keys derived from the same base hash agree on their first 31 bytes and are equal exactly when their sub indices
are. -/
theorem C42_same_stem (k : Key) {b b' : ℕ} (hb : b < 256) (hb' : b' < 256) : ∃ x y, swapLastByte k b = .ok x ∧
    swapLastByte k b' = .ok y ∧ x.1.take 31 = y.1.take 31 ∧ (x = y ↔ b = b') := by
  refine ⟨_, _, swap_ok k hb, swap_ok k hb', ?_, ?_⟩
  · simp [mkKey, k.stem.2]
  · rw [mkKey_inj, Fin.ext_iff]
    simp only [Fin.val_ofNat, Nat.mod_eq_of_lt hb, Nat.mod_eq_of_lt hb', true_and]

/-- C42.  Header fields, the first 64 slots and the first 128 chunks live under the header stem. -/
theorem C42_header_group (H : Hash64) (a : Bytes 32) (i : Item)
    (h : match i with | .storage s => s < 64 | .code c => c < 128 | _ => True) :
    ∃ k, itemKey H a i = .ok k ∧ k.stem = (H ⟨a.1 ++ List.replicate 32 0, by simp [a.2]⟩).stem := by
  have hz : hashAddrInt H a 0 = H ⟨a.1 ++ List.replicate 32 0, by simp [a.2]⟩ := by
    unfold hashAddrInt
    congr 2
  have hv : i.Valid := by
    cases i <;> simp only [Item.Valid] <;> omega
  refine ⟨_, C41_places_disjoint.1 H a i hv, ?_⟩
  rw [mkKey_stem, ← hz]
  congr 2
  cases i <;> simp only [Item.place] <;> simp only at h
  · rw [if_pos h]
  · omega

/-- C42.  Slots of the same 256-slot page, and chunks of the same page, share a stem. -/
theorem C42_pages (H : Hash64) (a : Bytes 32) {i j : Item} (hi : i.Valid) (hj : j.Valid)
    (h : match i, j with
      | .storage s, .storage s' => 64 ≤ s ∧ 64 ≤ s' ∧ s / 256 = s' / 256
      | .code c, .code c' => (128 + c) / 256 = (128 + c') / 256
      | _, _ => False) :
    ∃ k k', itemKey H a i = .ok k ∧ itemKey H a j = .ok k' ∧ k.1.take 31 = k'.1.take 31 := by
  refine ⟨_, _, C41_places_disjoint.1 H a i hi, C41_places_disjoint.1 H a j hj, ?_⟩
  have : i.place.1 = j.place.1 := by
    cases i <;> cases j <;> simp only at h <;> simp only [Item.place]
    · rw [if_neg (by omega), if_neg (by omega)]
      simp only [h.2.2]
    · exact h
  rw [this]
  simp [mkKey, (hashAddrInt H a j.place.1).stem.2]

/-- C45 (partial).  The derivation succeeds exactly below these bounds; the claim for every 256-bit number is false
(`C45_full_claim_false`). -/
theorem C45_derivation_total_partial (H : Hash64) (a : Bytes 32) (n : ℕ) (hn : n < 2 ^ 256) :
    ((∃ k, storageKey H a n = .ok k) ↔ n < 2 ^ 256 - 2 ^ 248) ∧ ((∃ k, codeKey H a n = .ok k) ↔ n < 2 ^ 256 - 128) := by
  constructor
  · constructor
    · rintro ⟨k, h⟩
      by_contra hlt
      rw [storageKey, if_neg (by simp only [codeOffset, headerStorageOffset]; omega), add_err (by rw [main_eq]; omega)] at h
      simp [bind, Except.bind] at h
    · intro h
      exact ⟨_, storage_place H a h⟩
  · constructor
    · rintro ⟨k, h⟩
      by_contra hlt
      rw [codeKey, add_err (by simp only [codeOffset]; omega)] at h
      simp [bind, Except.bind] at h
    · intro h
      exact ⟨_, code_place H a (by omega)⟩

/-- C45 is false as stated: the key of the last storage slot cannot be derived. -/
theorem C45_full_claim_false (H : Hash64) (a : Bytes 32) :
    storageKey H a (2 ^ 256 - 1) = .error "arithmetic operation overflow" ∧
    codeKey H a (2 ^ 256 - 1) = .error "arithmetic operation overflow" := by
  constructor
  · rw [storageKey, if_neg (by simp only [codeOffset, headerStorageOffset]; norm_num), add_err (by rw [main_eq]; norm_num)]
    rfl
  · rw [codeKey, add_err (by simp only [codeOffset]; norm_num)]
    rfl

/-! ### C43, C44 -/

/-- C43, C44: empty code panics. -/
theorem C43_empty_panics : chunkifyCode [] = .error "attempt to subtract with overflow" := rfl

/-- The padding chunk is added: a `PUSH32` sits on the last byte of the last chunk but one. -/
def Overhang (code : List Byte) : Prop :=
  ∃ q, q + 1 = 31 * ((code.length + 30) / 31 - 1) ∧ InstrAt code q ∧ (code.getD q 0).val = 127

/-- C43 (partial).  The chunks are 32 bytes long, their bytes `1 … 31` are the code followed by zeros, and there are
`⌈len / 31⌉` of them, or one more exactly in the case `Overhang`: then minimality fails (`C43_full_claim_false`). -/
theorem C43_chunking_partial {code : List Byte} (hne : code ≠ []) : ∃ out, chunkifyCode code = .ok out ∧
    (∀ c ∈ out, c.length = 32) ∧
    (∃ z, (out.map List.tail).flatten = code ++ List.replicate z 0) ∧
    (¬ Overhang code → out.length = (code.length + 30) / 31) ∧ (Overhang code → out.length = (code.length + 30) / 31 + 1) := by
  obtain ⟨out, over, h1, h2, h3, h4⟩ := chunkify_spec hne
  rw [next_eq_32] at h4
  refine ⟨_, h1, ?_, ?_, ?_, ?_⟩
  · have ho : ∀ c ∈ out, c.length = 32 := by
      intro c hc
      obtain ⟨k, hk⟩ := List.getElem?_of_mem hc
      obtain ⟨h, rest, rfl, hr, _⟩ := h3 k c hk
      simp [hr]
    intro c hc
    split at hc
    · simp only [List.mem_append, List.mem_singleton] at hc
      rcases hc with hc | rfl
      · exact ho c hc
      · exact List.length_replicate ..
    · exact ho c hc
  · have hkey : ∀ (n : ℕ) (out : List (List Byte)) (off : ℕ), out.length = n →
        (∀ k c, out[k]? = some c → ∃ h rest, c = h :: rest ∧ rest.length = 31 ∧
          ∀ j, j < 31 → rest.getD j 0 = code.getD (31 * (off + k) + j) 0) →
        (out.map List.tail).flatten = (List.range (31 * n)).map fun j => code.getD (31 * off + j) 0 := by
      intro n
      induction n with
      | zero =>
        intro out off hl _
        have := List.length_eq_zero_iff.mp hl
        subst this
        rfl
      | succ n ih =>
        intro out off hl hc
        cases out with
        | nil => simp at hl
        | cons c out =>
          obtain ⟨h, rest, rfl, hr, hg⟩ := hc 0 c rfl
          rw [List.map_cons, List.flatten_cons, List.tail_cons, ih out (off + 1) (by simpa using hl) (by
            intro k c hk
            obtain ⟨h', rest', e1, e2, e3⟩ := hc (k + 1) c (by simpa using hk)
            exact ⟨h', rest', e1, e2, fun j hj => by rw [e3 j hj]; congr 2; ring⟩)]
          rw [show 31 * (n + 1) = 31 + 31 * n by ring, List.range_add, List.map_append, List.map_map]
          congr 1
          · apply List.ext_getElem
            · simp [hr]
            · intro i hi1 hi2
              have := hg i (by omega)
              simp only [List.getElem_map, List.getElem_range]
              rw [← Nat.add_zero off, ← this]
              simp [hi1]
          · apply List.map_congr_left
            intro j _
            simp only [Function.comp_apply]
            congr 1
            ring
    have hflat := hkey _ out 0 h2 (by
      intro k c hk
      obtain ⟨h, rest, e1, e2, e3, _⟩ := h3 k c hk
      exact ⟨h, rest, e1, e2, fun j hj => by rw [Nat.zero_add]; exact e3 j hj⟩)
    have hcode : (List.range (31 * ((code.length + 30) / 31))).map (fun j => code.getD (31 * 0 + j) 0) =
        code ++ List.replicate (31 * ((code.length + 30) / 31) - code.length) 0 := by
      apply List.ext_getElem
      · simp only [List.length_map, List.length_range, List.length_append, List.length_replicate]
        omega
      · intro i hi1 hi2
        simp only [List.getElem_map, List.getElem_range, Nat.mul_zero, Nat.zero_add]
        rcases Nat.lt_or_ge i code.length with h | h
        · rw [List.getElem_append_left h]
          simp [h]
        · rw [List.getElem_append_right h]
          simp [h]
    rw [hcode] at hflat
    split
    · refine ⟨31 * ((code.length + 30) / 31) - code.length + 31, ?_⟩
      rw [List.map_append, List.flatten_append, hflat, List.replicate_add, List.append_assoc]
      rfl
    · exact ⟨_, hflat⟩
  · intro h
    rw [if_neg]
    · exact h2
    · rw [h4]; exact h
  · intro h
    rw [if_pos (h4.2 h), List.length_append, h2]
    rfl

/-- C44 (partial).  For each chunk of the code proper the first byte is the number of leading bytes that are push data
(positions at which the EVM's program counter never stands), capped at 31.  The chunk added in the case `Overhang` is excepted
(`C44_full_claim_false`). -/
theorem C44_headers_partial {code : List Byte} (hne : code ≠ []) : ∃ out, chunkifyCode code = .ok out ∧
    ∀ i, i < (code.length + 30) / 31 → ∃ h rest, out[i]? = some (h :: rest) ∧ h.val ≤ 31 ∧
      (∀ j, j < h.val → ¬ InstrAt code (31 * i + j)) ∧ (h.val < 31 → InstrAt code (31 * i + h.val)) := by
  obtain ⟨out, over, h1, h2, h3, h4⟩ := chunkify_spec hne
  refine ⟨_, h1, fun i hi => ?_⟩
  have hlt : i < out.length := by omega
  obtain ⟨h, rest, e1, e2, e3, e4⟩ := h3 i _ (List.getElem?_eq_getElem hlt)
  obtain ⟨m, hm⟩ := exists_next code (31 * i)
  have hv := e4 m hm
  refine ⟨h, rest, ?_, by omega, fun j hj => hm.2 j (by omega), fun hlt => ?_⟩
  · split
    · rw [List.getElem?_append_left hlt, List.getElem?_eq_getElem hlt, e1]
    · rw [List.getElem?_eq_getElem hlt, e1]
  · have : h.val = m := by omega
    rw [this]
    exact hm.1

/-- Thirty zero bytes, `PUSH32`, one byte of push data. -/
def overhangCode : List Byte := List.replicate 30 0 ++ [127, 1]

/-- C43 is false as stated: 32 bytes of code give three chunks although two pieces of 31 bytes cover them. -/
theorem C43_full_claim_false : ∃ out, chunkifyCode overhangCode = .ok out ∧ out.length = 3 ∧ (overhangCode.length + 30) / 31 = 2 := by
  refine ⟨_, rfl, by decide +kernel, by decide⟩

theorem overhangCode_pc (k : ℕ) (hk : k ≤ 30) : evmPc overhangCode k = k := by
  induction k with
  | zero => rfl
  | succ k ih =>
    rw [evmPc, ih (by omega)]
    have h0 : overhangCode.getD k 0 = 0 := by
      rw [overhangCode, List.getD_eq_getElem?_getD, List.getElem?_append_left (by simp; omega)]
      rw [List.getElem?_replicate, if_pos (by omega)]
      rfl
    rw [h0]
    rfl

/-- C44 is false as stated: in the case above the third chunk says that no push data leads it, although its first byte is
push data of the `PUSH32`. -/
theorem C44_full_claim_false : ∃ out, chunkifyCode overhangCode = .ok out ∧ out[2]? = some (List.replicate 32 0) ∧
    ¬ InstrAt overhangCode (31 * 2) := by
  refine ⟨_, rfl, by decide +kernel, fun h => ?_⟩
  have := InstrAt.gap (code := overhangCode) ⟨30, overhangCode_pc 30 (by norm_num)⟩ h (by norm_num)
  have e : pushLen (overhangCode.getD 30 0) = 32 := by decide +kernel
  omega

/-- C44, second part of the failure: the condition under which the extra chunk appears is exactly `Overhang`, and its header
is wrong each time. -/
theorem C44_extra_chunk_wrong {code : List Byte} (h : Overhang code) : ∃ out, chunkifyCode code = .ok out ∧
    out[(code.length + 30) / 31]? = some (List.replicate 32 0) ∧ ¬ InstrAt code (31 * ((code.length + 30) / 31)) := by
  have hne : code ≠ [] := by
    rintro rfl
    obtain ⟨q, h1, _⟩ := h
    simp at h1
  obtain ⟨out, over, h1, h2, h3, h4⟩ := chunkify_spec hne
  rw [next_eq_32] at h4
  refine ⟨_, h1, ?_, fun hI => ?_⟩
  · rw [if_pos (h4.2 h), ← h2, List.getElem?_append_right (le_refl _)]
    simp
  · obtain ⟨q, e1, e2, e3⟩ := h
    have hl : pushLen (code.getD q 0) = 32 := by rw [pushLen, e3]; norm_num
    have := e2.gap hI (by omega)
    omega

/-! ### C46 -/

theorem chunks_flatten {α : Type} (n : ℕ) (hn : 0 < n) (l : List α) : (chunks n l).flatten = l := by
  have key : ∀ (k : ℕ) (l : List α), l.length ≤ n * k → ((List.range k).map fun i => (l.drop (n * i)).take n).flatten = l := by
    intro k
    induction k with
    | zero =>
      intro l hl
      have : l = [] := List.length_eq_zero_iff.mp (by omega)
      simp [this]
    | succ k ih =>
      intro l hl
      rw [List.range_succ_eq_map, List.map_cons, List.flatten_cons, List.map_map]
      have := ih (l.drop n) (by rw [List.length_drop]; have : n * (k + 1) = n * k + n := by ring
                                omega)
      simp only [List.drop_drop] at this
      have e : ((fun i => (l.drop (n * i)).take n) ∘ Nat.succ) = fun i => (l.drop (n + n * i)).take n := by
        funext i
        simp only [Function.comp_apply, Nat.succ_eq_add_one]
        congr 2
        ring
      rw [e, this]
      simp
  apply key
  have := Nat.div_add_mod (l.length + n - 1) n
  have h2 := Nat.mod_lt (l.length + n - 1) hn
  omega

theorem chunks_len {n : ℕ} (hn : 0 < n) {l : List Byte} {k : ℕ} (hl : l.length = n * k) :
    (chunks n l).length = k ∧ ∀ c ∈ chunks n l, c.length = n := by
  have e : (l.length + n - 1) / n = k := by
    rw [hl]
    have : n * k + n - 1 = n - 1 + n * k := by omega
    rw [this, Nat.add_mul_div_left _ _ hn, Nat.div_eq_of_lt (by omega)]
    omega
  constructor
  · rw [chunks, List.length_map, List.length_range, e]
  · intro c hc
    simp only [chunks, List.mem_map, List.mem_range, e] at hc
    obtain ⟨i, hi, rfl⟩ := hc
    rw [List.length_take, List.length_drop, hl]
    have : n * (i + 1) ≤ n * k := Nat.mul_le_mul_left n hi
    have : n * (i + 1) = n * i + n := by ring
    omega

theorem map_leNat_inj {n : ℕ} : ∀ {l l' : List (List Byte)}, (∀ c ∈ l, c.length = n) → (∀ c ∈ l', c.length = n) →
    l.map leNat = l'.map leNat → l = l'
  | [], [], _, _, _ => rfl
  | [], _ :: _, _, _, h => by simp at h
  | _ :: _, [], _, _, h => by simp at h
  | c :: l, c' :: l', h1, h2, h => by
    simp only [List.map_cons, List.cons.injEq] at h
    have e : c = c' := by
      rw [← leBytes_leNat' (h1 c (by simp)), ← leBytes_leNat' (h2 c' (by simp)), h.1]
    rw [e, map_leNat_inj (fun x hx => h1 x (List.mem_cons_of_mem _ hx)) (fun x hx => h2 x (List.mem_cons_of_mem _ hx)) h.2]

/-- C46.  Different 64-byte inputs give different vectors of five numbers below `2¹²⁸`; in particular different pairs of
address and tree index do. -/
theorem C46_input_unambiguous :
    (∀ b : Bytes 64, (chunk64 b).length = 5 ∧ ∀ x ∈ chunk64 b, x < 2 ^ 128) ∧
    (∀ b b' : Bytes 64, chunk64 b = chunk64 b' ↔ b = b') ∧
    ∀ (a a' : Bytes 32) (n n' : ℕ), n < 2 ^ 256 → n' < 2 ^ 256 → ((a.1 ++ leBytes 32 n = a'.1 ++ leBytes 32 n') ↔ a = a' ∧ n = n') := by
  refine ⟨fun b => ?_, fun b b' => ⟨fun h => ?_, fun h => by rw [h]⟩, fun a a' n n' hn hn' => ?_⟩
  · obtain ⟨h1, h2⟩ := chunks_len (n := 16) (by norm_num) (k := 4) b.2
    refine ⟨by simp [chunk64, h1], ?_⟩
    intro x hx
    simp only [chunk64, List.mem_map, List.mem_cons] at hx
    obtain ⟨c, hc, rfl⟩ := hx
    have hl : c.length = 16 := by
      rcases hc with rfl | hc
      · exact leBytes_length 16 _
      · exact h2 c hc
    have := leNat_lt c
    rw [hl] at this
    calc leNat c < 256 ^ 16 := this
      _ = 2 ^ 128 := by norm_num
  · obtain ⟨_, h2⟩ := chunks_len (n := 16) (by norm_num) (k := 4) b.2
    obtain ⟨_, h2'⟩ := chunks_len (n := 16) (by norm_num) (k := 4) b'.2
    simp only [chunk64, List.map_cons, List.cons.injEq, true_and] at h
    have := map_leNat_inj h2 h2' h
    apply Subtype.ext
    rw [← chunks_flatten 16 (by norm_num) b.1, this, chunks_flatten 16 (by norm_num)]
  · constructor
    · intro h
      obtain ⟨h1, h2⟩ := List.append_inj h (by rw [a.2, a'.2])
      refine ⟨Subtype.ext h1, ?_⟩
      have := congrArg leNat h2
      rwa [leNat_leBytes, leNat_leBytes, Nat.mod_eq_of_lt (by norm_num; omega), Nat.mod_eq_of_lt (by norm_num; omega)] at this
    · rintro ⟨rfl, rfl⟩
      rfl

/-- C46: the 64 bytes hashed for an address and a tree index are determined by the two and determine them; addresses of 20
bytes stay different when padded. -/
theorem C46_layout : (∃ enc : Bytes 32 → ℕ → Bytes 64, (∀ H a n, hashAddrInt H a n = H (enc a n)) ∧
      (∀ a n, (enc a n).1.take 32 = a.1 ∧ ∀ j, j < 32 → ((enc a n).1.getD (32 + j) 0).val = n / 256 ^ j % 256) ∧
      ∀ a a' n n', n < 2 ^ 256 → n' < 2 ^ 256 → enc a n = enc a' n' → a = a' ∧ n = n') ∧
    ∀ a a' : Bytes 20, addr20to32 a = addr20to32 a' → a = a' := by
  refine ⟨⟨fun a n => ⟨a.1 ++ leBytes 32 n, by simp [a.2, leBytes_length]⟩, fun H a n => rfl, fun a n => ⟨?_, ?_⟩, ?_⟩, ?_⟩
  · simp [a.2]
  · intro j hj
    have key : ∀ k j n, j < k → ((leBytes k n).getD j 0).val = n / 256 ^ j % 256 := by
      intro k
      induction k with
      | zero => intro j n h; omega
      | succ k ih =>
        intro j n h
        cases j with
        | zero => simp [leBytes, asU8]
        | succ j =>
          rw [leBytes, List.getD_cons_succ, ih j (n / 256) (by omega), Nat.div_div_eq_div_mul, pow_succ']
    rw [← key 32 j n hj, List.getD_eq_getElem?_getD, List.getElem?_append_right (by rw [a.2]; omega), a.2,
      show 32 + j - 32 = j by omega, List.getD_eq_getElem?_getD]
  · intro a a' n n' hn hn' h
    exact (C46_input_unambiguous.2.2 a a' n n' hn hn').1 (congrArg Subtype.val h)
  · intro a a' h
    have := congrArg Subtype.val h
    simp only [addr20to32, List.append_cancel_left_eq] at this
    exact Subtype.ext this

/-- C46, the general encoder: it succeeds exactly for at most 4080 bytes, gives 256 numbers, agrees with the special one on 64
bytes (up to trailing zeros), and is injective across all lengths. -/
theorem C46_general_encoder :
    (∀ l : List Byte, (∃ v, chunkBytes l = .ok v ∧ v.length = 256) ↔ l.length ≤ 4080) ∧
    (∀ b : Bytes 64, chunkBytes b.1 = .ok (chunk64 b ++ List.replicate 251 0)) ∧
    ∀ l l' v, chunkBytes l = .ok v → chunkBytes l' = .ok v → l = l' := by
  have hok : ∀ l : List Byte, l.length ≤ 4080 → chunkBytes l = .ok ((chunks 16 (leBytes 16 (2 + 256 * l.length) ++ l ++
      List.replicate (255 * 16 - l.length) 0)).map leNat) ∧ (leBytes 16 (2 + 256 * l.length) ++ l ++
      List.replicate (255 * 16 - l.length) 0 : List Byte).length = 16 * 256 := by
    intro l hl
    have hlen : (leBytes 16 (2 + 256 * l.length) ++ l ++ List.replicate (255 * 16 - l.length) 0 : List Byte).length = 16 * 256 := by
      simp only [List.length_append, leBytes_length, List.length_replicate]
      omega
    refine ⟨?_, hlen⟩
    rw [chunkBytes, if_neg (by simp only [verkleNodeWidth]; omega), show (verkleNodeWidth - 1) * 16 = 255 * 16 from rfl]
    dsimp only
    have h2 := (chunks_len (n := 16) (by norm_num) hlen).2
    generalize chunks 16 (leBytes 16 (2 + 256 * l.length) ++ l ++ List.replicate (255 * 16 - l.length) 0) = cs at h2
    clear * - h2
    induction cs with
    | nil => rfl
    | cons c cs ih =>
      rw [List.mapM_cons, if_pos (h2 c (by simp)), ih fun x hx => h2 x (List.mem_cons_of_mem _ hx)]
      rfl
  have hbad : ∀ l : List Byte, ¬ l.length ≤ 4080 → ∃ e, chunkBytes l = .error e := by
    intro l hl
    rw [chunkBytes, if_pos (by simp only [verkleNodeWidth]; omega)]
    exact ⟨_, rfl⟩
  refine ⟨fun l => ⟨?_, fun h => ?_⟩, fun b => ?_, fun l l' v h h' => ?_⟩
  · rintro ⟨v, hv, _⟩
    by_contra hl
    obtain ⟨e, he⟩ := hbad l hl
    rw [hv] at he
    cases he
  · obtain ⟨h1, h2⟩ := hok l h
    exact ⟨_, h1, by rw [List.length_map, (chunks_len (by norm_num) h2).1]⟩
  · obtain ⟨h1, h2⟩ := hok b.1 (by rw [b.2]; norm_num)
    rw [h1]
    congr 1
    have hcs : ∀ (cs : List (List Byte)) (rest : List Byte) (k : ℕ), (∀ c ∈ cs, c.length = 16) → rest.length = 16 * k →
        chunks 16 (cs.flatten ++ rest) = cs ++ chunks 16 rest := by
      intro cs rest k hc hr
      have hfl : cs.flatten.length = 16 * cs.length := by
        rw [List.length_flatten]
        clear h1 h2
        induction cs with
        | nil => rfl
        | cons c cs ih =>
          rw [List.map_cons, List.sum_cons, ih fun x hx => hc x (List.mem_cons_of_mem _ hx), hc c (by simp), List.length_cons]
          ring
      have htot : (cs.flatten ++ rest).length = 16 * (cs.length + k) := by rw [List.length_append, hfl, hr]; ring
      obtain ⟨ha, hb⟩ := chunks_len (n := 16) (by norm_num) htot
      obtain ⟨ha', hb'⟩ := chunks_len (n := 16) (by norm_num) hr
      have : ∀ (x y : List (List Byte)), (∀ c ∈ x, c.length = 16) → (∀ c ∈ y, c.length = 16) → x.flatten = y.flatten → x = y := by
        intro x
        clear h1 h2
        induction x with
        | nil =>
          intro y _ hy he
          cases y with
          | nil => rfl
          | cons c y =>
            have := congrArg List.length he
            simp [hy c (by simp)] at this
            omega
        | cons c x ih =>
          intro y hx hy he
          cases y with
          | nil =>
            have := congrArg List.length he
            simp [hx c (by simp)] at this
          | cons c' y =>
            rw [List.flatten_cons, List.flatten_cons] at he
            obtain ⟨e1, e2⟩ := List.append_inj he (by rw [hx c (by simp), hy c' (by simp)])
            rw [e1, ih y (fun z hz => hx z (List.mem_cons_of_mem _ hz)) (fun z hz => hy z (List.mem_cons_of_mem _ hz)) e2]
      apply this
      · exact hb
      · intro c hcm
        rw [List.mem_append] at hcm
        rcases hcm with h | h
        · exact hc c h
        · exact hb' c h
      · rw [chunks_flatten 16 (by norm_num), List.flatten_append, chunks_flatten 16 (by norm_num)]
    obtain ⟨_, hb⟩ := chunks_len (n := 16) (by norm_num) (k := 4) b.2
    have := hcs (leBytes 16 (2 + 256 * 64) :: chunks 16 b.1) (List.replicate (255 * 16 - 64) 0) 251 (by
      intro c hc
      rw [List.mem_cons] at hc
      rcases hc with rfl | hc
      · exact leBytes_length 16 _
      · exact hb c hc) (by rw [List.length_replicate])
    rw [List.flatten_cons, chunks_flatten 16 (by norm_num)] at this
    have hz := chunks_len (n := 16) (by norm_num) (l := List.replicate (255 * 16 - 64) (0 : Byte)) (k := 251) (by rw [List.length_replicate])
    have hall : ∀ c ∈ chunks 16 (List.replicate (255 * 16 - 64) (0 : Byte)), leNat c = 0 := by
      intro c hc
      have hm : ∀ x ∈ c, x = (0 : Byte) := by
        intro x hx
        have : x ∈ (chunks 16 (List.replicate (255 * 16 - 64) (0 : Byte))).flatten := List.mem_flatten.2 ⟨c, hc, hx⟩
        rw [chunks_flatten 16 (by norm_num)] at this
        exact List.eq_of_mem_replicate this
      clear * - hm
      induction c with
      | nil => rfl
      | cons x c ih =>
        rw [leNat, hm x (by simp), ih fun y hy => hm y (List.mem_cons_of_mem _ hy)]
        rfl
    have hrep : (chunks 16 (List.replicate (255 * 16 - 64) (0 : Byte))).map leNat = List.replicate 251 0 := by
      rw [List.eq_replicate_iff]
      refine ⟨by rw [List.length_map, hz.1], ?_⟩
      intro x hx
      obtain ⟨c, hc, rfl⟩ := List.mem_map.1 hx
      exact hall c hc
    rw [b.2, this, List.map_append, hrep]
    exact congrArg (· ++ List.replicate 251 0) rfl
  · by_cases hl : l.length ≤ 4080
    · by_cases hl' : l'.length ≤ 4080
      · obtain ⟨h1, h2⟩ := hok l hl
        obtain ⟨h1', h2'⟩ := hok l' hl'
        rw [h] at h1
        rw [h'] at h1'
        have e := Except.ok.inj (h1.symm.trans h1')
        have e2 := map_leNat_inj (chunks_len (by norm_num) h2).2 (chunks_len (by norm_num) h2').2 e
        have e3 := congrArg List.flatten e2
        rw [chunks_flatten 16 (by norm_num), chunks_flatten 16 (by norm_num), List.append_assoc, List.append_assoc] at e3
        obtain ⟨e4, e5⟩ := List.append_inj e3 (by rw [leBytes_length, leBytes_length])
        have e6 := congrArg leNat e4
        rw [leNat_leBytes, leNat_leBytes, Nat.mod_eq_of_lt (by omega), Nat.mod_eq_of_lt (by omega)] at e6
        exact (List.append_inj e5 (by omega)).1
      · obtain ⟨e, he⟩ := hbad l' hl'
        rw [h'] at he
        cases he
    · obtain ⟨e, he⟩ := hbad l hl
      rw [h] at he
      cases he

section
variable {F G : Type} [Field F] [AddCommGroup G] [Module F G]

/-- The commitment to the five scalars of an input. -/
def inputCommitment (C : Crypto F G) (v : List ℕ) : G := ((v.map fun x : ℕ => (x : F)).mapIdx fun i x => x • C.g i).sum

/-- C46.  In a field in which numbers below `2¹²⁸` are distinct, two different inputs with the same hash give a collision: two
different vectors of scalars with the same commitment, or two different commitments mapped to the same scalar. -/
theorem C46_hash_collision (C : Crypto F G) (K : WireCodec F G)
    (hF : ∀ x y : ℕ, x < 2 ^ 128 → y < 2 ^ 128 → (x : F) = (y : F) → x = y) (b b' : Bytes 64) (hne : b ≠ b')
    (h : hash64 C K b = hash64 C K b') :
    ((chunk64 b).map (fun x : ℕ => (x : F)) ≠ (chunk64 b').map (fun x : ℕ => (x : F)) ∧
      inputCommitment C (chunk64 b) = inputCommitment C (chunk64 b')) ∨
    (inputCommitment C (chunk64 b) ≠ inputCommitment C (chunk64 b') ∧
      C.h (inputCommitment C (chunk64 b)) = C.h (inputCommitment C (chunk64 b'))) := by
  have hh : C.h (inputCommitment C (chunk64 b)) = C.h (inputCommitment C (chunk64 b')) := by
    have h1 := congrArg Subtype.val h
    have h2 := K.dec_encS (C.h (inputCommitment C (chunk64 b)))
    have h3 := K.dec_encS (C.h (inputCommitment C (chunk64 b')))
    have : K.encS (C.h (inputCommitment C (chunk64 b))) = K.encS (C.h (inputCommitment C (chunk64 b'))) := h1
    rw [this, h3] at h2
    exact (Option.some.inj h2).symm
  by_cases hc : inputCommitment C (chunk64 b) = inputCommitment C (chunk64 b')
  · left
    refine ⟨fun e => hne ?_, hc⟩
    rw [← C46_input_unambiguous.2.1]
    have h1 := (C46_input_unambiguous.1 b).2
    have h2 := (C46_input_unambiguous.1 b').2
    generalize chunk64 b = l at *
    generalize chunk64 b' = l' at *
    clear * - e h1 h2 hF
    induction l generalizing l' with
    | nil =>
      cases l' with
      | nil => rfl
      | cons x l' => simp at e
    | cons x l ih =>
      cases l' with
      | nil => simp at e
      | cons y l' =>
        rw [List.map_cons, List.map_cons, List.cons.injEq] at e
        rw [hF x y (h1 x (by simp)) (h2 y (by simp)) e.1,
          ih (fun z hz => h1 z (List.mem_cons_of_mem _ hz)) l' (fun z hz => h2 z (List.mem_cons_of_mem _ hz)) e.2]
  · exact Or.inr ⟨hc, hh⟩

end

/-! ### Concrete cases -/

example : (Item.storage 1000).Valid ∧ (Item.code 7).Valid ∧ Item.storage 1000 ≠ Item.code 7 ∧
    (Item.storage 1000).place = (2 ^ 240 + 3, 232) ∧ (Item.code 200).place = (1, 72) := by
  refine ⟨by simp [Item.Valid], by simp [Item.Valid], by decide, ?_, ?_⟩ <;> simp [Item.place]

/-- Code with and without the padding chunk. -/
example : Overhang overhangCode ∧ overhangCode ≠ [] ∧ ¬ Overhang [96, 1] := by
  refine ⟨⟨30, by decide, ⟨30, overhangCode_pc 30 (by norm_num)⟩, by decide +kernel⟩, by simp [overhangCode], ?_⟩
  rintro ⟨q, h, _⟩
  simp at h

/-- A chunked program: `PUSH4` on byte 29, so three bytes of push data lead the second chunk. -/
example : chunkifyCode (List.replicate 29 0 ++ [99, 1, 2, 3, 4, 5]) =
    .ok [0 :: (List.replicate 29 0 ++ [99, 1]), 3 :: [2, 3, 4, 5] ++ List.replicate 27 0] := by decide +kernel

/-- Two inputs with the same hash for the toy parameters, so the hypotheses of `C46_hash_collision` other than the size of the
field hold (a field that large with an explicit collision is not computed here). -/
example : ∃ b b' : Bytes 64, b ≠ b' ∧ hash64 toy toyWire b = hash64 toy toyWire b' := by
  refine ⟨⟨List.replicate 64 0, rfl⟩, ⟨101 :: List.replicate 63 0, rfl⟩, by decide, by decide +kernel⟩

end Verif.Props
