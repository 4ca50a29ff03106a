import Verif.Props.Concrete
import Verif.Bander.Seed

/-!
# C64: the default reference string is the one generated from its seed

Sources: `/repo/ipa-multipoint/src/crs.rs:12-30,61-115`, `/repo/ipa-multipoint/src/default_crs.rs`, `/repo/banderwagon/src/lib.rs:32-47`.
-/

set_option autoImplicit false

namespace Verif.Props
open Proof Bander

/-- `Element::prime_subgroup_generator`, `/repo/banderwagon/src/element.rs:110-112`: the coordinates of arkworks' generator. -/
def arkGenerator : Proj (ZMod Bander.q) :=
  ⟨(18886178867200960497001835917649091219057080094937609519140440539760939937304 : ℕ),
    (19188667384257783945677642223292697773471335439753913231509108946878080696678 : ℕ),
    (18886178867200960497001835917649091219057080094937609519140440539760939937304 : ℕ) *
      (19188667384257783945677642223292697773471335439753913231509108946878080696678 : ℕ), 1⟩

theorem arkGenerator_last : arkGenerator = entryProj lastHex := by
  have h1 : entryX lastHex = 18886178867200960497001835917649091219057080094937609519140440539760939937304 := by decide +kernel
  have h2 : entryY lastHex = 19188667384257783945677642223292697773471335439753913231509108946878080696678 := by decide +kernel
  rw [entryProj, h1, h2]
  rfl

/-- Positive numbers of the kind found in the table. -/
theorem isPositive_nat {y : ℕ} (hy : y < Bander.q) (h : Bander.q - y < y) : isPositive (y : ZMod Bander.q) = true := by
  unfold isPositive
  rw [ZMod.neg_val', ZMod.val_natCast, Nat.mod_eq_of_lt hy, Nat.mod_eq_of_lt (by omega)]
  simpa using h

/-- `try_reduce_to_element` of a hash, through the number it stands for. -/
theorem tryReduce_seed (S : Sqrt (ZMod Bander.q)) (i : ℕ) :
    tryReduce coeffA coeffD S (Sha256.hash (crsSeed ++ (Wire.leBytes 8 i).reverse)) =
      fromBytes coeffA coeffD S (serFq ((seedX i : ℕ) : ZMod Bander.q)).reverse := by
  unfold tryReduce seedX
  rw [ZMod.natCast_mod]

theorem deFq_ser (x : ZMod Bander.q) : deFq (q := Bander.q) (serFq x).reverse.reverse = some x := by
  rw [List.reverse_reverse]
  have := deFq_serFq q_lt x []
  rwa [List.append_nil] at this

theorem fromBytes_some (S : Sqrt (ZMod Bander.q)) {x y : ZMod Bander.q} (hon : OnCurve coeffA coeffD x y) (hsq : IsSquare (1 - coeffA * x ^ 2))
    (hp : isPositive y = true) : fromBytes coeffA coeffD S (serFq x).reverse = .ok (some ⟨x, y, x * y, 1⟩) := by
  rcases fromBytes_cases good S (serFq x).reverse with ⟨x', y', h1, h2, h3, -, h5⟩ | ⟨-, h⟩
  · rw [deFq_ser, Option.some.injEq] at h1
    subst h1
    rw [h5]
    have h6 : y' = y := by
      have e1 := Good.u_eq h2
      rw [Good.u_eq hon] at e1
      have e2 := mul_right_cancel₀ (good.v_ne _) e1
      rcases sq_eq_sq_iff_eq_or_eq_neg.1 e2.symm with e | e
      · exact e
      · rw [e, isPositive_neg good (good.y_ne hon), hp] at h3
        cases h3
    rw [h6]
  · exact absurd hsq (h _ _ (deFq_ser x) hon)

theorem fromBytes_none (S : Sqrt (ZMod Bander.q)) {x : ZMod Bander.q} (h : ∀ y, OnCurve coeffA coeffD x y → ¬ IsSquare (1 - coeffA * x ^ 2)) :
    fromBytes coeffA coeffD S (serFq x).reverse = .ok none := by
  rcases fromBytes_cases good S (serFq x).reverse with ⟨x', y, h1, h2, -, h4, -⟩ | ⟨h1, -⟩
  · rw [deFq_ser, Option.some.injEq] at h1
    subst h1
    exact absurd h4 (h y h2)
  · exact h1

theorem seed_hit (S : Sqrt (ZMod Bander.q)) {i n : ℕ} (hn : n ∈ crsHex) (hx : seedX i = entryX n) (hp : Bander.q - entryY n < entryY n) :
    tryReduce coeffA coeffD S (Sha256.hash (crsSeed ++ (Wire.leBytes 8 i).reverse)) = .ok (some (entryProj n)) := by
  have hok := crs_entry hn
  have hy : entryY n < Bander.q := by
    simp only [entryOk, Bool.and_eq_true, decide_eq_true_eq] at hok
    exact hok.1.1.2
  rw [tryReduce_seed, hx]
  exact fromBytes_some S (entryPt _ _ hok).on (entryPt _ _ hok).sq (isPositive_nat hy hp)

theorem not_sq {s v : ℕ} (hs : s % Bander.q ≠ 0) (hv : v % Bander.q = dN * s ^ 2 % Bander.q) : ¬ IsSquare (v : ZMod Bander.q) := by
  have h := (ZMod.natCast_eq_natCast_iff' _ _ _).2 hv
  rw [h]
  rintro ⟨w, hw⟩
  have hs0 : (s : ZMod Bander.q) ≠ 0 := by
    intro h0
    rw [ZMod.natCast_eq_zero_iff] at h0
    exact hs (Nat.mod_eq_zero_of_dvd h0)
  refine good.hd ⟨w / s, ?_⟩
  have hd : coeffD = (dN : ZMod Bander.q) := rfl
  push_cast at hw
  rw [hd]
  field_simp
  rw [hw, pow_two]

theorem seed_offCurve (S : Sqrt (ZMod Bander.q)) {i s : ℕ} (hs : s % Bander.q ≠ 0)
    (h : ((Bander.q - 5) * seedX i ^ 2 + (Bander.q - 1)) * (dN * seedX i ^ 2 + (Bander.q - 1)) % Bander.q = dN * s ^ 2 % Bander.q) :
    tryReduce coeffA coeffD S (Sha256.hash (crsSeed ++ (Wire.leBytes 8 i).reverse)) = .ok none := by
  rw [tryReduce_seed]
  refine fromBytes_none S fun y hy _ => not_sq hs h ⟨y * (1 - coeffD * ((seedX i : ℕ) : ZMod Bander.q) ^ 2), ?_⟩
  have h5 : 5 ≤ Bander.q := by decide +kernel
  have h1 : 1 ≤ Bander.q := by decide +kernel
  have hu := Good.u_eq hy
  have hd : coeffD = (dN : ZMod Bander.q) := rfl
  have ha : coeffA = -5 := rfl
  push_cast [Nat.cast_sub h5, Nat.cast_sub h1]
  rw [ZMod.natCast_self]
  rw [hd, ha] at hu
  rw [hd]
  linear_combination (1 - (dN : ZMod Bander.q) * ((seedX i : ℕ) : ZMod Bander.q) ^ 2) * hu

theorem seed_offGroup (S : Sqrt (ZMod Bander.q)) {i s : ℕ} (hs : s % Bander.q ≠ 0)
    (h : (1 + 5 * seedX i ^ 2) % Bander.q = dN * s ^ 2 % Bander.q) :
    tryReduce coeffA coeffD S (Sha256.hash (crsSeed ++ (Wire.leBytes 8 i).reverse)) = .ok none := by
  rw [tryReduce_seed]
  refine fromBytes_none S fun y _ hsq => not_sq hs h ?_
  have ha : coeffA = -5 := rfl
  rw [ha] at hsq
  push_cast
  have e : (1 + 5 * ((seedX i : ℕ) : ZMod Bander.q) ^ 2) = 1 - -5 * ((seedX i : ℕ) : ZMod Bander.q) ^ 2 := by ring
  rw [e]
  exact hsq

theorem generateFrom_zero (S : Sqrt (ZMod Bander.q)) (sha : List Byte → List Byte) (seed : List Byte) (fuel i : ℕ) :
    generateFrom coeffA coeffD S sha seed fuel i 0 = .ok [] := by cases fuel <;> rfl

/-- A checked stretch of candidates. -/
theorem seed_run {S : Sqrt (ZMod Bander.q)} {sha : List Byte → List Byte} {seed : List Byte} {fuel m : ℕ}
    (H1 : ∀ i n, n ∈ crsHex → seedX i = entryX n → Bander.q - entryY n < entryY n →
      tryReduce coeffA coeffD S (sha (seed ++ (Wire.leBytes 8 i).reverse)) = .ok (some (entryProj n)))
    (H2 : ∀ i s, s % Bander.q ≠ 0 → ((Bander.q - 5) * seedX i ^ 2 + (Bander.q - 1)) * (dN * seedX i ^ 2 + (Bander.q - 1)) % Bander.q = dN * s ^ 2 % Bander.q →
      tryReduce coeffA coeffD S (sha (seed ++ (Wire.leBytes 8 i).reverse)) = .ok none)
    (H3 : ∀ i s, s % Bander.q ≠ 0 → (1 + 5 * seedX i ^ 2) % Bander.q = dN * s ^ 2 % Bander.q →
      tryReduce coeffA coeffD S (sha (seed ++ (Wire.leBytes 8 i).reverse)) = .ok none) :
    ∀ (cs : List SeedCert) (i : ℕ) (ns : List ℕ), (∀ n ∈ ns, n ∈ crsHex) → seedCheck i cs ns = true →
    ∀ (l : List (Proj (ZMod Bander.q))), generateFrom coeffA coeffD S sha seed fuel (i + cs.length) m = .ok l →
      generateFrom coeffA coeffD S sha seed (fuel + cs.length) i (ns.length + m) = .ok (ns.map entryProj ++ l) := by
  intro cs
  induction cs with
  | nil =>
    intro i ns _ h l hl
    cases ns with
    | nil =>
      simp only [List.length_nil, Nat.zero_add, Nat.add_zero] at hl ⊢
      exact hl
    | cons n ns => simp [seedCheck] at h
  | cons c cs ih =>
    intro i ns hmem h l hl
    rw [List.length_cons, Nat.add_comm cs.length 1, ← Nat.add_assoc] at hl
    cases c with
    | hit =>
      cases ns with
      | nil => simp [seedCheck] at h
      | cons n ns =>
        simp only [seedCheck, Bool.and_eq_true, beq_iff_eq, decide_eq_true_eq] at h
        have ih := ih (i + 1) ns (fun x hx => hmem x (by simp [hx])) h.2 l hl
        rw [List.length_cons, ← Nat.add_assoc, List.length_cons, Nat.add_right_comm ns.length 1 m, generateFrom, H1 i n (hmem n (by simp)) h.1.1 h.1.2]
        simp only [bind, Except.bind, ih, List.map_cons, List.cons_append]
    | offCurve s =>
      simp only [seedCheck, Bool.and_eq_true, beq_iff_eq, bne_iff_ne, Sha256.force_eq] at h
      have ih := ih (i + 1) ns hmem h.2 l hl
      rw [List.length_cons, ← Nat.add_assoc]
      rcases hk : ns.length + m with _ | k
      · have h1 : ns = [] := List.length_eq_zero_iff.1 (by omega)
        have h2 : m = 0 := by omega
        subst h1 h2
        rw [generateFrom_zero] at hl ⊢
        exact hl
      · rw [hk] at ih
        rw [generateFrom, H2 i s h.1.2 h.1.1]
        simp only [bind, Except.bind]
        exact ih
    | offGroup s =>
      simp only [seedCheck, Bool.and_eq_true, beq_iff_eq, bne_iff_ne, Sha256.force_eq] at h
      have ih := ih (i + 1) ns hmem h.2 l hl
      rw [List.length_cons, ← Nat.add_assoc]
      rcases hk : ns.length + m with _ | k
      · have h1 : ns = [] := List.length_eq_zero_iff.1 (by omega)
        have h2 : m = 0 := by omega
        subst h1 h2
        rw [generateFrom_zero] at hl ⊢
        exact hl
      · rw [hk] at ih
        rw [generateFrom, H3 i s h.1.2 h.1.1]
        simp only [bind, Except.bind]
        exact ih

/-- The generators: for every square root function, the candidates give the table. -/
theorem seed_generate (S : Sqrt (ZMod Bander.q)) :
    generateRandomElements coeffA coeffD S Sha256.hash 256 crsSeed = .ok (crsHex.dropLast.map entryProj) := by
  have hm : ∀ k m, ∀ n ∈ (crsHex.drop k).take m, n ∈ crsHex := fun k m n hn => List.drop_subset _ _ (List.take_subset _ _ hn)
  have hl : ∀ k m, k + m ≤ 257 → ((crsHex.drop k).take m).length = m := by
    intro k m h
    rw [List.length_take, List.length_drop, crs_len]
    omega
  have step : ∀ {cs : List SeedCert} {i k m c fuel : ℕ}, seedCheck i cs ((crsHex.drop k).take m) = true → cs.length = c → k + m ≤ 256 →
      generateFrom coeffA coeffD S Sha256.hash crsSeed fuel (i + c) (256 - (k + m)) = .ok ((crsHex.dropLast.drop (k + m)).map entryProj) →
      generateFrom coeffA coeffD S Sha256.hash crsSeed (fuel + c) i (256 - k) = .ok ((crsHex.dropLast.drop k).map entryProj) := by
    intro cs i k m c fuel h hc hkm hg
    subst hc
    have := seed_run (fun _ _ h1 h2 h3 => seed_hit S h1 h2 h3) (fun _ _ h1 h2 => seed_offCurve S h1 h2) (fun _ _ h1 h2 => seed_offGroup S h1 h2) cs i _ (hm k m) h _ hg
    rw [hl k m (by omega), show m + (256 - (k + m)) = 256 - k by omega] at this
    rw [this, ← List.map_append]
    congr 2
    have hd : (crsHex.drop k).take m = (crsHex.dropLast.drop k).take m := by
      rw [List.dropLast_eq_take, crs_len, List.drop_take, List.take_take, Nat.min_eq_left (by omega)]
    rw [hd, ← List.drop_drop, List.take_append_drop]
  have h8 : ∀ f, generateFrom coeffA coeffD S Sha256.hash crsSeed f 1061 (256 - 256) = .ok ((crsHex.dropLast.drop 256).map entryProj) := by
    intro f
    rw [generateFrom_zero, List.drop_of_length_le (by rw [List.length_dropLast, crs_len])]
    rfl
  have h := step seed0 seed0_length (by norm_num) (step seed1 seed1_length (by norm_num) (step seed2 seed2_length (by norm_num)
    (step seed3 seed3_length (by norm_num) (step seed4 seed4_length (by norm_num) (step seed5 seed5_length (by norm_num)
    (step seed6 seed6_length (by norm_num) (step seed7 seed7_length (by norm_num) (h8 (2 ^ 64 - 1061)))))))))
  exact h

theorem crsHex_ne : crsHex ≠ [] := fun h => by
  have := crs_len
  rw [h] at this
  cases this

/-- What reading the table gives. -/
theorem crs_read : Crs.fromBytes (crsHex.map hexBytes) = .ok ⟨256, crsHex.dropLast.map entryProj, entryProj lastHex⟩ := by
  have hlast : (crsHex.map hexBytes).getLast? = some (hexBytes (crsHex.getLast crsHex_ne)) := by
    rw [List.getLast?_map, List.getLast?_eq_some_getLast crsHex_ne]
    rfl
  have hG : (crsHex.map hexBytes).dropLast.mapM (fromBytesUnchecked (q := Bander.q)) = .ok (crsHex.dropLast.map entryProj) := by
    rw [← List.map_dropLast, ← mapM_all (f := fun n => fromBytesUnchecked (hexBytes n)) (fun n hn => entry_read (List.dropLast_subset _ hn))]
    rw [List.mapM_map]
    rfl
  have hlen : crsHex.dropLast.length = 256 := by rw [List.length_dropLast, crs_len]
  unfold Crs.fromBytes
  rw [hlast]
  dsimp only
  rw [entry_read (List.getLast_mem crsHex_ne), last_eq crsHex_ne]
  simp only [bind, Except.bind]
  rw [hG]
  simp only [List.length_map, hlen]

theorem entry_write {n : ℕ} (h : n ∈ crsHex) : (entryProj n).toBytesUncompressed = .ok (hexBytes n) := by
  have he := crs_entry h
  simp only [entryOk, Bool.and_eq_true, decide_eq_true_eq] at he
  have hl : (hexBytes n).length = 64 := by rw [hexBytes, List.length_reverse, Wire.leBytes_length]
  have ser : ∀ l : List Byte, l.length = 32 → leNat l < Bander.q → serFq ((leNat l : ℕ) : ZMod Bander.q) = l := by
    intro l h1 h2
    rw [serFq, ZMod.val_natCast, Nat.mod_eq_of_lt h2, ← h1, Wire.leBytes_leNat]
  rw [Proj.toBytesUncompressed, (entry_rep h).1.toAffine]
  simp only [bind, Except.bind, entryProj, Proj.aff, div_one]
  rw [show entryX n = leNat ((hexBytes n).take 32) from rfl, show entryY n = leNat ((hexBytes n).drop 32) from rfl,
    ser _ (by rw [List.length_take, hl]; rfl) he.1.1.1, ser _ (by rw [List.length_drop, hl]) he.1.1.2, List.take_append_drop]

theorem assertDedup_ok : ∀ (l : List (Proj (ZMod Bander.q))) (es : List BElem) (seen : List (List Byte)),
    List.Forall₂ (fun p e => Bander.Represents p e) l es → es.Nodup → (∀ e ∈ es, e.enc ∉ seen) → assertDedup seen l = .ok ()
  | _, _, _, .nil, _, _ => rfl
  | p :: l, e :: es, seen, .cons h1 h2, hn, hs => by
    rw [List.nodup_cons] at hn
    rw [assertDedup, h1.toBytes]
    simp only [bind, Except.bind]
    rw [if_neg (hs e (by simp))]
    refine assertDedup_ok l es _ h2 hn.2 fun e' he' hm => ?_
    rcases List.mem_cons.1 hm with h | h
    · exact hn.1 (Elem.enc_inj q_lt h ▸ he')
    · exact hs e' (by simp [he']) h

/-- **C64**: the reference string generated from the seed `eth_verkle_oct_2021` is the table of the source, byte for byte, and reading the
table gives the same points; generation does not panic.  This holds whichever of the two square roots the field returns. -/
theorem C64_seed (S : Sqrt (ZMod Bander.q)) : ∃ crs : Crs Bander.q, Crs.new coeffA coeffD S Sha256.hash arkGenerator 256 crsSeed = .ok crs ∧
    crs.toBytes = .ok (crsHex.map hexBytes) ∧ Crs.fromBytes (crsHex.map hexBytes) = .ok crs := by
  obtain ⟨crs, h1, -, -, h4, h5, -, -⟩ := C53_default
  rw [crs_read] at h1
  injection h1 with h1
  subst h1
  have hd : assertDedup [] (crsHex.dropLast.map entryProj) = .ok () := by
    have h6 := List.forall₂_take 256 h4
    rw [List.take_left' (by rw [List.length_map, List.length_dropLast, crs_len])] at h6
    exact assertDedup_ok _ _ _ h6 (h5.sublist (List.take_sublist _ _)) (by simp)
  refine ⟨_, ?_, ?_, crs_read⟩
  · unfold Crs.new
    rw [seed_generate]
    simp only [bind, Except.bind, hd, arkGenerator_last]
  · have hG : (crsHex.dropLast.map entryProj).mapM (fun point => point.toBytesUncompressed) = .ok (crsHex.dropLast.map hexBytes) := by
      rw [List.mapM_map]
      exact mapM_all fun n hn => entry_write (List.dropLast_subset _ hn)
    have hQ : (entryProj lastHex).toBytesUncompressed = .ok (hexBytes lastHex) := entry_write (last_eq crsHex_ne ▸ List.getLast_mem crsHex_ne)
    unfold Crs.toBytes
    simp only [hG, hQ, bind, Except.bind]
    rw [← last_eq crsHex_ne, ← List.map_singleton (f := hexBytes), ← List.map_append, List.dropLast_append_getLast]

/-- A case of the hypothesis: square roots exist. -/
example : Nonempty (Sqrt (ZMod Bander.q)) := ⟨someSqrt _⟩

end Verif.Props
