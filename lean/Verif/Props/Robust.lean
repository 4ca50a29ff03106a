import Verif.Props.Separate
import Verif.Props.Chosen

/-!
# C86: nobody can make the honest prover fail

C68, C83 and C85 say that honest proofs are accepted for almost every hash when trie and keys are fixed before the hash is drawn.  Whoever
writes to the state, or chooses what a proof is asked for, may know the hash.  Here a program that asks the hash chooses the openings, or the
contents of a trie and the keys, and the honest prover, asking the same hash, fails for at most the part `9 · 256 (N + 13) / 2²⁵⁶` of the
hashes - unless the program found a break of the commitments, or asks for two equal halves of a stem.
-/

set_option autoImplicit false
set_option linter.unusedSectionVars false
set_option linter.constructorNameAsVariable false

namespace Verif.Props
open Verif Verif.Spec Verif.Trie Verif.Proof Verif.Ipa Verif.Wire Verif.Ffi Verif.Eip Verif.Bander
open scoped Classical

section
variable {F α β : Type}

/-- A program that asks at most `N` questions is followed by a function of its output that asks at most `n`.  The function has a property for
all hashes but the part `(N + n) c |B| / |E|` if it has it for the hashes with no challenge in `B`. -/
theorem adaptive_of {E : Type} [Fintype E] {red : E → F} {c : ℕ} (hred : Spread red c) {N n b : ℕ} (A : Prog (List Byte) E β) (hA : A.Within N)
    {f : β → (List Byte → F) → α} (hf : ∀ o, Asks n b (f o)) (B : Finset F) (P : β → α → Prop) (hn : 0 < n)
    (h : ∀ o H, (∀ s, H s ∉ B) → P o (f o H)) (H₀ : List Byte → E) (D : Finset (List Byte)) (hD : ∀ s : List Byte, s.length ≤ b → s ∈ D)
    (Lose : (D → E) → Prop) [Fintype {H // Lose H}]
    (hl : ∀ H, P (A.run (over H₀ H)) (f (A.run (over H₀ H)) fun s => red (over H₀ H s)) → ¬ Lose H) :
    Fintype.card E * Fintype.card {H : D → E // Lose H} ≤ (N + n) * (c * B.card) * Fintype.card E ^ D.card := by
  choose R hR hR' using hf
  have hpre := hred.preimage B
  by_cases hB : ∃ x, x ∉ B
  · obtain ⟨x, hx⟩ := hB
    have hall := hits_all (D := D) H₀ (Finset.univ.filter fun e => red e ∈ B) (Prog.Within.bind (fun o => (hR o).lift red) hA) Lose fun H hH => ?_
    · refine le_trans ?_ (hall.trans (Nat.mul_le_mul_right _ (Nat.mul_le_mul_left _ hpre)))
      apply le_of_eq
      congr!
    by_contra hnot
    push Not at hnot
    refine hl H ?_ hH
    let o := A.run (over H₀ H)
    let H₁ : List Byte → F := fun s => red (over H₀ H s)
    let H' : List Byte → F := fun s => if H₁ s ∈ B then x else H₁ s
    have e : (R o).run H₁ = (R o).run H' := run_congr fun s hs => by
      simp only [H']
      rw [if_neg]
      intro hb
      refine hnot s ?_ (hD s ((hR' o _).2 s hs)) (Finset.mem_filter.mpr ⟨Finset.mem_univ _, hb⟩)
      rw [Prog.asked_bind, List.mem_append, Prog.lift_asked]
      exact Or.inr hs
    show P o (f o H₁)
    rw [← (hR' o _).1]
    refine (congrArg (P o) (e.trans (hR' o _).1)).mpr (h o H' fun s => ?_)
    simp only [H']
    split
    · exact hx
    · assumption
  · push Not at hB
    have hu : (Finset.univ.filter fun e => red e ∈ B) = (Finset.univ : Finset E) := Finset.filter_true_of_mem fun e _ => hB _
    rw [hu, Finset.card_univ] at hpre
    have : Fintype.card {H : D → E // Lose H} ≤ Fintype.card E ^ D.card :=
      (Fintype.card_subtype_le _).trans (by simp)
    calc _ ≤ Fintype.card E * Fintype.card E ^ D.card := Nat.mul_le_mul_left _ this
      _ ≤ _ := Nat.mul_le_mul_right _ (hpre.trans (Nat.le_mul_of_pos_left _ (by omega)))

end

section
variable {F G : Type} [Field F] [DecidableEq F] [AddCommGroup G] [DecidableEq G] [Module F G]

/-- The openings are true, at least one and at most `m`, in some order of their points, and the proof made for them is not accepted. -/
def FailsOpenings (K : WireCodec F G) (crs : CRS G) (W : Weights F) (t₀ : Transcript) (m : ℕ) (o : List (ProverQuery F G) × List ℕ)
    (R : List Byte → F) : Prop :=
  o.1 ≠ [] ∧ o.1.length ≤ m ∧ (∀ q ∈ o.1, TrueOpening crs q) ∧ IsOrder o.1 o.2 ∧
    ¬ ∃ π t', openMulti ⟨K, R⟩ crs W t₀ o.1 o.2 = .ok (π, t') ∧
      checkMulti ⟨K, R⟩ π crs W (o.1.map ProverQuery.toVerifier) t₀ = .ok (true, t')

/-- True openings chosen by a program that asks the hash at most `N` times: the proof that `open` makes for them is accepted by `check` for all
hashes but the part `(N + k + 5) 2ᵏ c / |E|`. -/
theorem openings_adaptive_of {E : Type} [Fintype E] {red : E → F} {c : ℕ} (hred : Spread red c) {k : ℕ} {crs : CRS G} (hk : k ≤ 31)
    (hn : crs.n = 2 ^ k) (hg : crs.gens.length = 2 ^ k) (hF : Distinct F crs.n) {W : Weights F} (hW : Weights.new F crs.n = .ok W)
    (K : WireCodec F G) (t₀ : Transcript) {N m : ℕ} (A : Prog (List Byte) E (List (ProverQuery F G) × List ℕ)) (hA : A.Within N)
    (H₀ : List Byte → E) (D : Finset (List Byte)) (hD : ∀ s : List Byte, s.length ≤ t₀.length + 99 * m + 190 → s ∈ D) :
    Fintype.card E * Fintype.card {H : D → E // FailsOpenings K crs W t₀ m (A.run (over H₀ H)) fun s => red (over H₀ H s)} ≤
      (N + (k + 5)) * (c * 2 ^ k) * Fintype.card E ^ D.card := by
  let B : Finset F := (Finset.range crs.n).image fun i : ℕ => (i : F)
  have hB : B.card ≤ 2 ^ k := by
    have := Finset.card_image_le (s := Finset.range crs.n) (f := fun (p : ℕ) => (p : F))
    rw [Finset.card_range] at this
    exact this.trans hn.le
  have hmem : ∀ i : ℕ, i < crs.n → (i : F) ∈ B := fun i hi => Finset.mem_image.2 ⟨i, by simpa using hi, rfl⟩
  have hpos : 0 < crs.n := by rw [hn]; exact Nat.two_pow_pos k
  have hclog : Nat.clog 2 crs.gens.length = k := by rw [hg]; exact Nat.clog_pow 2 k (by norm_num)
  let gOf : Res (MultiProof F G × Transcript) → G := fun o => match o with | .ok r => r.1.gx | .error _ => 0
  let Good : List (ProverQuery F G) × List ℕ → Prop := fun o =>
    o.1 ≠ [] ∧ o.1.length ≤ m ∧ (∀ q ∈ o.1, TrueOpening crs q) ∧ IsOrder o.1 o.2
  let f : List (ProverQuery F G) × List ℕ → (List Byte → F) → Res (MultiProof F G × Transcript) × F := fun o H =>
    if Good o then (openMulti ⟨K, H⟩ crs W t₀ o.1 o.2,
      challengeT ⟨K, H⟩ t₀ (o.1.map ProverQuery.toVerifier) (gOf (openMulti ⟨K, H⟩ crs W t₀ o.1 o.2))) else (.error "", 0)
  have hf : ∀ o, Asks (k + 5) (t₀.length + 99 * m + 190) (f o) := by
    intro o
    by_cases hgood : Good o
    · have hask := (open_asks K crs W t₀ o.1 o.2 (c := t₀.length + 99 * m + 190) (by have := hgood.2.1; omega)).bind
        (fun x H => (x, challengeT ⟨K, H⟩ t₀ (o.1.map ProverQuery.toVerifier) (gOf x)))
        fun x => (challengeT_asks K t₀ (o.1.map ProverQuery.toVerifier) (gOf x) (c := t₀.length + 99 * m + 190)
          (by rw [List.length_map]; have := hgood.2.1; omega)).map fun y => (x, y)
      rw [hclog] at hask
      obtain ⟨P, hP, hP'⟩ := hask
      refine ⟨P, hP.mono (by omega), fun H => ⟨?_, (hP' H).2⟩⟩
      rw [(hP' H).1]
      simp only [f, if_pos hgood]
    · have : f o = fun _ => (.error "", 0) := by
        funext H
        simp only [f, if_neg hgood]
      rw [this]
      exact Asks.const _ _ _
  refine (adaptive_of hred A hA hf B (fun o x => Good o → (∃ r, x.1 = .ok r) ∧ x.2 ∉ B) (by omega) (fun o H hH hgood => ?_) H₀ D hD _
    (fun H hP hlose => ?_)).trans (Nat.mul_le_mul_right _ (Nat.mul_le_mul_left _ (Nat.mul_le_mul_left _ hB)))
  · simp only [f, if_pos hgood]
    refine ⟨?_, hH _⟩
    exact C32_creation_total ⟨K, H⟩ hk hn hg hF hW hgood.1 hgood.2.2.1 hgood.2.2.2 t₀ fun s e => hH s (by
      rw [show (⟨K, H⟩ : Oracle F G).H s = H s from rfl] at e
      rw [e]; simpa using hmem 0 hpos)
  · obtain ⟨g1, g2, g3, g4, hno⟩ := hlose
    have hgood : Good (A.run (over H₀ H)) := ⟨g1, g2, g3, g4⟩
    obtain ⟨⟨⟨π, t'⟩, h1⟩, h2⟩ := hP hgood
    simp only [f, if_pos hgood] at h1 h2
    refine hno ⟨π, t', h1, ?_⟩
    rw [h1] at h2
    exact C32_completeness ⟨K, fun s => red (over H₀ H s)⟩ hk hn hg hF hW g1 g3 g4 h1 fun i hi e => h2 (by
      simp only [gOf]; rw [e]; exact hmem i hi)

/-- The queries of the prover for a history and keys. -/
noncomputable def queriesOf (C : Crypto F G) (l : List (Key × Value)) (keys : List Key) : List (ProverQuery F G) :=
  match createProverQueries (specDb C (lastWrite l)) keys with
  | .ok (qs, _) => qs
  | .error _ => []

/-- The opening argument of the trie succeeds for the queries of the prover, when history and keys are chosen by a program. -/
theorem opener_adaptive_of {E : Type} [Fintype E] {red : E → F} {c : ℕ} (hred : Spread red c) (hF : Distinct F 256) (K : WireCodec F G) (C : Crypto F G)
    (Q : G) {order : List (ProverQuery F G) → List ℕ} (ho : ∀ qs, IsOrder qs (order qs)) {β : Type} {N n : ℕ} (A : Prog (List Byte) E β)
    (hA : A.Within N) (hist : β → List (Key × Value)) (keys : β → List Key)
    (H₀ : List Byte → E) (D : Finset (List Byte)) (hD : ∀ s : List Byte, s.length ≤ 99 * (36 * n) + 192 → s ∈ D)
    (Lose : (D → E) → Prop) [Fintype {H // Lose H}]
    (hl : ∀ H, Lose H → keys (A.run (over H₀ H)) ≠ [] ∧ (keys (A.run (over H₀ H))).length ≤ n ∧
      ¬ ∀ qs hint, createProverQueries (specDb C (lastWrite (hist (A.run (over H₀ H))))) (keys (A.run (over H₀ H))) = .ok (qs, hint) →
        ∃ pf : MultiProof F G, (multiOpener ⟨K, fun s => red (over H₀ H s)⟩ C Q order).openAll qs = .ok pf ∧ pf.openProof.L.length = 8 ∧
          pf.openProof.R.length = 8 ∧
          (multiOpener ⟨K, fun s => red (over H₀ H s)⟩ C Q order).check pf (qs.map ProverQuery.toVerifier) = .ok true) :
    Fintype.card E * Fintype.card {H : D → E // Lose H} ≤ (N + 13) * (c * 256) * Fintype.card E ^ D.card := by
  obtain ⟨W, hW, -⟩ := new_good hF (by norm_num)
  have hg : (crsOf C Q).gens.length = 2 ^ 8 := by simp [crsOf]
  let A' : Prog (List Byte) E (List (ProverQuery F G) × List ℕ) := A.bind fun o =>
    .ret (queriesOf C (hist o) (keys o), order (queriesOf C (hist o) (keys o)))
  have hA' : A'.Within N := by
    have hr : ∀ o, (Prog.ret (queriesOf C (hist o) (keys o), order (queriesOf C (hist o) (keys o))) :
        Prog (List Byte) E (List (ProverQuery F G) × List ℕ)).Within 0 := fun _ => trivial
    exact Prog.Within.bind hr hA
  have := openings_adaptive_of hred (k := 8) (crs := crsOf C Q) (by norm_num) rfl hg hF hW K (newTranscript (lbl "vt")) (m := 36 * n) A' hA' H₀ D
    fun s hs => hD s (by
      have : (newTranscript (lbl "vt")).length = 2 := rfl
      omega)
  refine le_trans (Nat.mul_le_mul_left _ (Fintype.card_subtype_mono _ _ fun H hH => ?_)) this
  obtain ⟨hk, hkn, hno⟩ := hl H hH
  have hrun : A'.run (over H₀ H) = (queriesOf C (hist (A.run (over H₀ H))) (keys (A.run (over H₀ H))),
      order (queriesOf C (hist (A.run (over H₀ H))) (keys (A.run (over H₀ H))))) := by
    simp only [A', Prog.run_bind]
    rfl
  have hb := build_eq C (hist (A.run (over H₀ H)))
  obtain ⟨q, qs, hint, h1, -, ht, -, -⟩ := honest_run C (hist (A.run (over H₀ H))) hb hk root_of_build
  have hq : queriesOf C (hist (A.run (over H₀ H))) (keys (A.run (over H₀ H))) = q :: qs := by rw [queriesOf, h1]
  have hlen := queries_length C _ hb hk h1
  rw [hrun, hq]
  refine ⟨by simp, hlen.trans (Nat.mul_le_mul_left 36 hkn), fun q hq => (ht q hq).opening Q, ho _, fun hex => hno fun qs' hint' h4 => ?_⟩
  obtain ⟨π, t', h2, h3⟩ := hex
  rw [h1] at h4
  cases h4
  obtain ⟨hL, hR⟩ := openMulti_length _ h2
  rw [hg, Nat.clog_pow 2 8 (by norm_num)] at hL hR
  exact ⟨π, by simp only [multiOpener, hW, bind, Except.bind, h2], hL, hR, by simp only [multiOpener, hW, bind, Except.bind, h3]⟩

/-- For the trie made of writes and keys - at least one, at most `n`, not two equal halves of a stem - the proof that the prover makes is not
written, read back and accepted with the values of the trie. -/
def FailsProof (K : WireCodec F G) (C : Crypto F G) (Q : G) (order : List (ProverQuery F G) → List ℕ) (n : ℕ)
    (o : List (Key × Value) × List Key) (R : List Byte → F) : Prop :=
  o.2 ≠ [] ∧ o.2.length ≤ n ∧ ¬ TwinHalves (lastWrite o.1) (· ∈ o.2) ∧ ∃ db root, build C o.1 = .ok db ∧ Trie.rootCommitment db = .ok root ∧
    ¬ ∃ (p : VerkleProof G (MultiProof F G)) (bs : List Byte) (uh : UpdateHint G),
      createVerkleProof (multiOpener ⟨K, R⟩ C Q order) db o.2 = .ok (.ok p) ∧ writeProof K p = .ok bs ∧ readProof K bs = .ok (some p) ∧
      check C (multiOpener ⟨K, R⟩ C Q order) p o.2 (o.2.map (Trie.get db)) root = .ok (true, some uh)

/-- For the trie made of writes, distinct keys and new values - at least one, at most `n`, not two equal halves of a stem, the places of the written
keys taken - the updater, given the proof that the prover makes and the values of the trie, does not return the root after the new writes. -/
def FailsUpdate (K : WireCodec F G) (C : Crypto F G) (Q : G) (order : List (ProverQuery F G) → List ℕ) (ord : Path → List Stem → List Stem) (n : ℕ)
    (o : List (Key × Value) × List Key × List (Option Value)) (R : List Byte → F) : Prop :=
  o.2.1 ≠ [] ∧ o.2.1.length ≤ n ∧ o.2.1.Nodup ∧ o.2.2.length = o.2.1.length ∧ ¬ TwinHalves (lastWrite o.1) (· ∈ o.2.1) ∧
    (∀ kv ∈ writes o.2.1 o.2.2, PlaceTaken (lastWrite o.1) kv.1.stem) ∧ ∃ db root db' root', build C o.1 = .ok db ∧
    Trie.rootCommitment db = .ok root ∧ Trie.insert C db (writes o.2.1 o.2.2) = .ok db' ∧ Trie.rootCommitment db' = .ok root' ∧
    ¬ ∃ p : VerkleProof G (MultiProof F G), createVerkleProof (multiOpener ⟨K, R⟩ C Q order) db o.2.1 = .ok (.ok p) ∧
      verifyAndUpdate C (multiOpener ⟨K, R⟩ C Q order) ord p root o.2.1 (o.2.1.map (Trie.get db)) o.2.2 = .ok (.ok root')

/-- For the state made of writes to accounts and a list of items - at least one, at most `n`, no two in different halves of a group, none of the items
used colliding - the proof that the prover makes is not accepted with the values last written. -/
def FailsState (K : WireCodec F G) (C : Crypto F G) (Q : G) (order : List (ProverQuery F G) → List ℕ) (P : Hash64) (n : ℕ)
    (o : List (Slot × Value) × List Slot) (R : List Byte → F) : Prop :=
  o.2 ≠ [] ∧ o.2.length ≤ n ∧ (∀ x ∈ o.1, x.1.2.Valid) ∧ (∀ s ∈ o.2, s.2.Valid) ∧ OneHalf o.2 ∧
    ¬ Collides P (fun s => s ∈ o.2 ∨ Written o.1 s) ∧ ∃ l db root, stateWrites P o.1 = .ok l ∧ build C l = .ok db ∧
    Trie.rootCommitment db = .ok root ∧
    ¬ ∃ (keys : List Key) (p : VerkleProof G (MultiProof F G)) (bs : List Byte) (uh : UpdateHint G),
      o.2.mapM (fun s => itemKey P s.1 s.2) = .ok keys ∧ createVerkleProof (multiOpener ⟨K, R⟩ C Q order) db keys = .ok (.ok p) ∧
      writeProof K p = .ok bs ∧ readProof K bs = .ok (some p) ∧
      check C (multiOpener ⟨K, R⟩ C Q order) p keys (o.2.map (lastState o.1)) root = .ok (true, some uh)

theorem fails_of {E : Type} [Fintype E] {red : E → F} {c : ℕ} (hred : Spread red c) (hF : Distinct F 256) (K : WireCodec F G) (C : Crypto F G)
    (Q : G) {order : List (ProverQuery F G) → List ℕ} (ho : ∀ qs, IsOrder qs (order qs)) {β : Type} {N n : ℕ} (A : Prog (List Byte) E β)
    (hA : A.Within N) (hist : β → List (Key × Value)) (keys : β → List Key) (Fails : β → (List Byte → F) → Prop)
    (hfail : ∀ o R, Fails o R → keys o ≠ [] ∧ (keys o).length ≤ n ∧ (¬ SelfBreak C (lastWrite (hist o)) →
      ¬ ∀ qs hint, createProverQueries (specDb C (lastWrite (hist o))) (keys o) = .ok (qs, hint) →
        ∃ pf : MultiProof F G, (multiOpener ⟨K, R⟩ C Q order).openAll qs = .ok pf ∧ pf.openProof.L.length = 8 ∧
          pf.openProof.R.length = 8 ∧ (multiOpener ⟨K, R⟩ C Q order).check pf (qs.map ProverQuery.toVerifier) = .ok true))
    (H₀ : List Byte → E) (D : Finset (List Byte)) (hD : ∀ s : List Byte, s.length ≤ 99 * (36 * n) + 192 → s ∈ D)
    (h : (N + 13) * (c * 256) * Fintype.card E ^ D.card <
      Fintype.card E * Fintype.card {H : D → E // Fails (A.run (over H₀ H)) fun s => red (over H₀ H s)}) :
    ∃ H : D → E, Fails (A.run (over H₀ H)) (fun s => red (over H₀ H s)) ∧ SelfBreak C (lastWrite (hist (A.run (over H₀ H)))) := by
  by_contra hno
  push Not at hno
  refine absurd (opener_adaptive_of hred hF K C Q ho A hA hist keys H₀ D hD
    (fun H => Fails (A.run (over H₀ H)) fun s => red (over H₀ H s)) fun H hH => ?_) (not_le.2 h)
  obtain ⟨h1, h2, h3⟩ := hfail _ _ hH
  exact ⟨h1, h2, h3 (hno H hH)⟩

theorem FailsProof.opener (hF : BigField F) {K : WireCodec F G} {C : Crypto F G} {Q : G} {order : List (ProverQuery F G) → List ℕ} {n : ℕ}
    (hn : 36 * n < 2 ^ 32) {o : List (Key × Value) × List Key} {R : List Byte → F} (h : FailsProof K C Q order n o R) :
    o.2 ≠ [] ∧ o.2.length ≤ n ∧ (¬ SelfBreak C (lastWrite o.1) →
      ¬ ∀ qs hint, createProverQueries (specDb C (lastWrite o.1)) o.2 = .ok (qs, hint) →
        ∃ pf : MultiProof F G, (multiOpener ⟨K, R⟩ C Q order).openAll qs = .ok pf ∧ pf.openProof.L.length = 8 ∧
          pf.openProof.R.length = 8 ∧ (multiOpener ⟨K, R⟩ C Q order).check pf (qs.map ProverQuery.toVerifier) = .ok true) := by
  obtain ⟨h1, h2, ht, db, root, hb, hr, hno⟩ := h
  refine ⟨h1, h2, fun hsb hO => hno ?_⟩
  have hb' := hb
  rw [build_iff] at hb'
  subst hb'
  exact proof_accepted K C Q order R o.1 hb h1 (by omega) hr (separated_of hF hsb ht) hO

theorem FailsUpdate.opener (hF : BigField F) {K : WireCodec F G} {C : Crypto F G} {Q : G} {order : List (ProverQuery F G) → List ℕ}
    {ord : Path → List Stem → List Stem} (hord : ∀ p l, (ord p l).Perm l) {n : ℕ}
    {o : List (Key × Value) × List Key × List (Option Value)} {R : List Byte → F} (h : FailsUpdate K C Q order ord n o R) :
    o.2.1 ≠ [] ∧ o.2.1.length ≤ n ∧ (¬ SelfBreak C (lastWrite o.1) →
      ¬ ∀ qs hint, createProverQueries (specDb C (lastWrite o.1)) o.2.1 = .ok (qs, hint) →
        ∃ pf : MultiProof F G, (multiOpener ⟨K, R⟩ C Q order).openAll qs = .ok pf ∧ pf.openProof.L.length = 8 ∧
          pf.openProof.R.length = 8 ∧ (multiOpener ⟨K, R⟩ C Q order).check pf (qs.map ProverQuery.toVerifier) = .ok true) := by
  obtain ⟨h1, h2, hnd, hlen, ht, hp, db, root, db', root', hb, hr, hi, hr', hno⟩ := h
  refine ⟨h1, h2, fun hsb hO => hno ?_⟩
  have hb' := hb
  rw [build_iff] at hb'
  subst hb'
  exact update_accepted K C Q order R hord o.1 hb h1 hnd hlen hr (separated_of hF hsb ht) hp hi hr' hO

theorem FailsState.opener (hF : BigField F) {K : WireCodec F G} {C : Crypto F G} {Q : G} {order : List (ProverQuery F G) → List ℕ} {P : Hash64} {n : ℕ}
    (hn : 36 * n < 2 ^ 32) {o : List (Slot × Value) × List Slot} {R : List Byte → F} (h : FailsState K C Q order P n o R) :
    o.2.map (slotKey P) ≠ [] ∧ (o.2.map (slotKey P)).length ≤ n ∧ (¬ SelfBreak C (lastWrite (stateHist P o.1)) →
      ¬ ∀ qs hint, createProverQueries (specDb C (lastWrite (stateHist P o.1))) (o.2.map (slotKey P)) = .ok (qs, hint) →
        ∃ pf : MultiProof F G, (multiOpener ⟨K, R⟩ C Q order).openAll qs = .ok pf ∧ pf.openProof.L.length = 8 ∧
          pf.openProof.R.length = 8 ∧ (multiOpener ⟨K, R⟩ C Q order).check pf (qs.map ProverQuery.toVerifier) = .ok true) := by
  obtain ⟨h1, h2, hw, hv, hone, hc, l, db, root, hl, hb, hr, hno⟩ := h
  refine ⟨by simpa using h1, by simpa using h2, fun hsb hO => hno ?_⟩
  have hs : stateHist P o.1 = l := by rw [stateHist, hl]
  rw [hs] at hsb hO
  have hb' := hb
  rw [build_iff] at hb'
  subst hb'
  obtain ⟨p, bs, uh, e1, e2, e3, e4⟩ := proof_accepted K C Q order R l hb (keys := o.2.map (slotKey P)) (by simpa using h1)
    (by rw [List.length_map]; omega) hr
    (separated_of hF hsb (oneHalf_keys (fun h => hc (collides_mono (fun _ => Or.inl) h)) hone)) hO
  refine ⟨_, p, bs, uh, Proof.mapM_ok _ _ _ fun s hs => slotKey_ok P (hv s hs), e1, e2, e3, ?_⟩
  rw [← e4, List.map_map]
  congr 1
  rw [stateWrites_ok P hw] at hl
  cases hl
  refine List.map_congr_left fun s hs => ?_
  exact (lastWrite_state hc hw (fun _ h => Or.inr h) (hv s hs) (Or.inl hs)).symm

/-! ### Chains of blocks -/

/-- Block `j` of a chain: the writes before it, its keys and its new values. -/
def blockAt : ℕ → List (Key × Value) → List (List Key × List (Option Value)) → List (Key × Value) × List Key × List (Option Value)
  | _, l, [] => (l, [], [])
  | 0, l, x :: _ => (l, x)
  | j + 1, l, x :: rest => blockAt j (l ++ writes x.1 x.2) rest

/-- For the trie made of writes and a chain of at most `b` blocks - each of at most `n` distinct keys, asking for no two equal halves of a stem, the
places of its written keys taken - the client that is sent the blocks made by the node does not end with the root after all writes. -/
def FailsChain (K : WireCodec F G) (C : Crypto F G) (Q : G) (order : List (ProverQuery F G) → List ℕ) (ord : Path → List Stem → List Stem) (n b : ℕ)
    (o : List (Key × Value) × List (List Key × List (Option Value))) (R : List Byte → F) : Prop :=
  o.2.length ≤ b ∧ Formed o.2 ∧ (∀ x ∈ o.2, x.1.length ≤ n) ∧ Servable o.1 o.2 ∧ ∃ db root db' root', build C o.1 = .ok db ∧
    Trie.rootCommitment db = .ok root ∧ Trie.insert C db (allWrites o.2) = .ok db' ∧ Trie.rootCommitment db' = .ok root' ∧
    ¬ ∃ bs : List (Block G (MultiProof F G)), serve C (multiOpener ⟨K, R⟩ C Q order) db o.2 = .ok (.ok (bs, db')) ∧
      followChain C (multiOpener ⟨K, R⟩ C Q order) ord root bs = .ok (.ok root')

/-- A chain none of whose blocks fails by itself is followed to its end. -/
theorem chain_followed {K : WireCodec F G} {C : Crypto F G} {Q : G} {order : List (ProverQuery F G) → List ℕ} {ord : Path → List Stem → List Stem}
    {n : ℕ} {R : List Byte → F} : ∀ {reqs : List (List Key × List (Option Value))} {l : List (Key × Value)} {db : MemoryDb F G} {root : G}
    (_ : build C l = .ok db) (_ : Trie.rootCommitment db = .ok root) (_ : Formed reqs) (_ : ∀ x ∈ reqs, x.1.length ≤ n) (_ : Servable l reqs)
    (_ : ∀ j < reqs.length, ¬ FailsUpdate K C Q order ord n (blockAt j l reqs) R),
    ∃ (bs : List (Block G (MultiProof F G))) (db' : MemoryDb F G) (root' : G), serve C (multiOpener ⟨K, R⟩ C Q order) db reqs = .ok (.ok (bs, db')) ∧
      Trie.insert C db (allWrites reqs) = .ok db' ∧ Trie.rootCommitment db' = .ok root' ∧
      followChain C (multiOpener ⟨K, R⟩ C Q order) ord root bs = .ok (.ok root')
  | [], l, db, root, _, hr, _, _, _, _ => ⟨[], db, root, rfl, rfl, hr, rfl⟩
  | (keys, updated) :: rest, l, db, root, hb, hr, hf, hn, hs, hno => by
    obtain ⟨hk, hnd, hlen⟩ := hf (keys, updated) (by simp)
    obtain ⟨ht, hp, hs'⟩ := hs
    have hb' := hb
    rw [build_iff] at hb'
    subst hb'
    have h2 := insert_spec C (writes keys updated) (lastWrite l)
    have hb1 := build_append hb h2
    have hb1' := hb1
    rw [build_iff] at hb1'
    have h3 : Trie.rootCommitment (specDb C (applyAll (lastWrite l) (writes keys updated))) =
        .ok (nodeComm C (lastWrite (l ++ writes keys updated)) []) := by rw [hb1']; exact root_of_build
    have h0 := hno 0 (by simp)
    simp only [blockAt, FailsUpdate] at h0
    push Not at h0
    obtain ⟨p, h1, h4⟩ := h0 hk (hn (keys, updated) (by simp)) hnd hlen ht hp _ _ _ _ hb hr h2 h3
    obtain ⟨bs, db', root', i1, i3, i4, i5⟩ := chain_followed hb1 h3 (fun x hx => hf x (by simp [hx])) (fun x hx => hn x (by simp [hx])) hs'
      (fun j hj => hno (j + 1) (by simpa using hj))
    refine ⟨⟨p, keys, keys.map (Trie.get (specDb C (lastWrite l))), updated⟩ :: bs, db', root', serve_step h1 h2 i1, ?_, i4, ?_⟩
    · rw [insert_spec] at i3 ⊢
      rw [← i3]
      simp only [allWrites, List.flatMap_cons, applyAll_append]
    · simp only [followChain, h4, i5]

theorem BreakOnWay.of_block {C : Crypto F G} : ∀ {reqs : List (List Key × List (Option Value))} {l : List (Key × Value)} {j : ℕ} (_ : j < reqs.length)
    (_ : SelfBreak C (lastWrite (blockAt j l reqs).1)), BreakOnWay C l reqs
  | _ :: _, _, 0, _, h => Or.inl h
  | _ :: _, _, _ + 1, hj, h => Or.inr (BreakOnWay.of_block (by simpa using hj) h)

theorem FailsChain.block {K : WireCodec F G} {C : Crypto F G} {Q : G} {order : List (ProverQuery F G) → List ℕ} {ord : Path → List Stem → List Stem}
    {n b : ℕ} {o : List (Key × Value) × List (List Key × List (Option Value))} {R : List Byte → F} (h : FailsChain K C Q order ord n b o R) :
    ∃ j < b, j < o.2.length ∧ FailsUpdate K C Q order ord n (blockAt j o.1 o.2) R := by
  obtain ⟨hb, hf, hn, hs, db, root, db', root', h1, h2, h3, h4, hno⟩ := h
  by_contra hex
  push Not at hex
  obtain ⟨bs, db₂, root₂, e1, e2, e3, e4⟩ := chain_followed (K := K) (Q := Q) (order := order) (ord := ord) h1 h2 hf hn hs
    fun j hj => hex j (hj.trans_le hb) hj
  rw [h3] at e2
  cases e2
  rw [h4] at e3
  cases e3
  exact hno ⟨bs, e1, e4⟩

/-- Block `j` fails, and the trie before it does not break the commitments. -/
def FailsBlock (K : WireCodec F G) (C : Crypto F G) (Q : G) (order : List (ProverQuery F G) → List ℕ) (ord : Path → List Stem → List Stem) (n j : ℕ)
    (o : List (Key × Value) × List (List Key × List (Option Value))) (R : List Byte → F) : Prop :=
  FailsUpdate K C Q order ord n (blockAt j o.1 o.2) R ∧ ¬ SelfBreak C (lastWrite (blockAt j o.1 o.2).1)

theorem chain_of {E : Type} [Fintype E] {red : E → F} {c : ℕ} (hred : Spread red c) (hF : Distinct F 256) (hBig : BigField F) (K : WireCodec F G)
    (C : Crypto F G) (Q : G) {order : List (ProverQuery F G) → List ℕ} (ho : ∀ qs, IsOrder qs (order qs)) {ord : Path → List Stem → List Stem}
    (hord : ∀ p l, (ord p l).Perm l) {N n b : ℕ} (A : Prog (List Byte) E (List (Key × Value) × List (List Key × List (Option Value))))
    (hA : A.Within N) (H₀ : List Byte → E) (D : Finset (List Byte)) (hD : ∀ s : List Byte, s.length ≤ 99 * (36 * n) + 192 → s ∈ D)
    (h : b * ((N + 13) * (c * 256)) * Fintype.card E ^ D.card <
      Fintype.card E * Fintype.card {H : D → E // FailsChain K C Q order ord n b (A.run (over H₀ H)) fun s => red (over H₀ H s)}) :
    ∃ H : D → E, FailsChain K C Q order ord n b (A.run (over H₀ H)) (fun s => red (over H₀ H s)) ∧
      BreakOnWay C (A.run (over H₀ H)).1 (A.run (over H₀ H)).2 := by
  by_contra hno
  push Not at hno
  let Bad : ℕ → (D → E) → Prop := fun j H => FailsBlock K C Q order ord n j (A.run (over H₀ H)) fun s => red (over H₀ H s)
  have hbad : ∀ j, Fintype.card E * Fintype.card {H : D → E // Bad j H} ≤ (N + 13) * (c * 256) * Fintype.card E ^ D.card := by
    intro j
    by_contra hlt
    obtain ⟨H, h1, h2⟩ := fails_of hred hF K C Q ho A hA (fun o => (blockAt j o.1 o.2).1) (fun o => (blockAt j o.1 o.2).2.1)
      (FailsBlock K C Q order ord n j)
      (fun o R hf => hf.1.opener hBig hord) H₀ D hD (not_le.1 hlt)
    exact h1.2 h2
  refine absurd ?_ (not_le.2 h)
  have hsub : (Finset.univ.filter fun H : D → E => FailsChain K C Q order ord n b (A.run (over H₀ H)) fun s => red (over H₀ H s)) ⊆
      (Finset.range b).biUnion fun j => Finset.univ.filter fun H => Bad j H := by
    intro H hH
    have hH := (Finset.mem_filter.1 hH).2
    obtain ⟨j, hj, hj', hf⟩ := hH.block
    exact Finset.mem_biUnion.2 ⟨j, Finset.mem_range.2 hj, Finset.mem_filter.2 ⟨Finset.mem_univ _, hf, fun hs => hno H hH (.of_block hj' hs)⟩⟩
  rw [Fintype.card_subtype]
  calc _ ≤ Fintype.card E * ∑ j ∈ Finset.range b, (Finset.univ.filter fun H => Bad j H).card :=
        Nat.mul_le_mul_left _ ((Finset.card_le_card hsub).trans Finset.card_biUnion_le)
    _ = ∑ j ∈ Finset.range b, Fintype.card E * (Finset.univ.filter fun H => Bad j H).card := Finset.mul_sum _ _ _
    _ ≤ ∑ _j ∈ Finset.range b, (N + 13) * (c * 256) * Fintype.card E ^ D.card := Finset.sum_le_sum fun j _ => by
        have := hbad j
        rwa [Fintype.card_subtype] at this
    _ = _ := by rw [Finset.sum_const, Finset.card_range, smul_eq_mul, mul_assoc b]

end

/-! ### Digests -/

section
variable {G : Type} [AddCommGroup G] [DecidableEq G] [Module (ZMod r) G]

/-- C86 for the multipoint argument: true openings chosen by a program that asks SHA-256 at most `N` times, seeing the digests.  The proof made
for them is accepted for all hashes but the part `9 · 2ᵏ (N + k + 5) / 2²⁵⁶`. -/
theorem C86_openings {k : ℕ} {crs : CRS G} (hk : k ≤ 31) (hn : crs.n = 2 ^ k) (hg : crs.gens.length = 2 ^ k) (hF : Distinct (ZMod r) crs.n)
    {W : Weights (ZMod r)} (hW : Weights.new (ZMod r) crs.n = .ok W) (K : WireCodec (ZMod r) G) (t₀ : Transcript) {N m : ℕ}
    (A : Prog (List Byte) Digest (List (ProverQuery (ZMod r) G) × List ℕ)) (hA : A.Within N) (H₀ : List Byte → Digest)
    (D : Finset (List Byte)) (hD : ∀ s : List Byte, s.length ≤ t₀.length + 99 * m + 190 → s ∈ D) :
    Fintype.card Digest * Fintype.card {H : D → Digest // FailsOpenings K crs W t₀ m (A.run (over H₀ H)) (chal (over H₀ H))} ≤
      (N + (k + 5)) * (9 * 2 ^ k) * Fintype.card Digest ^ D.card :=
  openings_adaptive_of C83_spread hk hn hg hF hW K t₀ A hA H₀ D hD

/-- C86 for tries.  A program that asks SHA-256 at most `N` times, seeing the digests, puts out the writes of a trie and keys of it.  If the
proof the prover makes for them fails for more than the part `9 · 256 (N + 13) / 2²⁵⁶` of the hashes, the program has put out a trie whose
nodes break the commitments. -/
theorem C86_proofs {N n : ℕ} (hn : 36 * n < 2 ^ 32) (K : WireCodec (ZMod r) G) (C : Crypto (ZMod r) G) (Q : G)
    {order : List (ProverQuery (ZMod r) G) → List ℕ} (ho : ∀ qs, IsOrder qs (order qs))
    (A : Prog (List Byte) Digest (List (Key × Value) × List Key)) (hA : A.Within N) (H₀ : List Byte → Digest) (D : Finset (List Byte))
    (hD : ∀ s : List Byte, s.length ≤ 99 * (36 * n) + 192 → s ∈ D)
    (h : (N + 13) * (9 * 256) * Fintype.card Digest ^ D.card <
      Fintype.card Digest * Fintype.card {H : D → Digest // FailsProof K C Q order n (A.run (over H₀ H)) (chal (over H₀ H))}) :
    ∃ H : D → Digest, FailsProof K C Q order n (A.run (over H₀ H)) (chal (over H₀ H)) ∧ SelfBreak C (lastWrite (A.run (over H₀ H)).1) :=
  fails_of C83_spread C52_scalar_field.2.1 K C Q ho A hA (fun o => o.1) (fun o => o.2) (FailsProof K C Q order n)
    (fun _ _ hf => hf.opener C52_scalar_field.1 hn) H₀ D hD h

/-- C86 for the stateless updater. -/
theorem C86_update {N n : ℕ} (K : WireCodec (ZMod r) G) (C : Crypto (ZMod r) G) (Q : G)
    {order : List (ProverQuery (ZMod r) G) → List ℕ} (ho : ∀ qs, IsOrder qs (order qs)) {ord : Path → List Stem → List Stem}
    (hord : ∀ p l, (ord p l).Perm l)
    (A : Prog (List Byte) Digest (List (Key × Value) × List Key × List (Option Value))) (hA : A.Within N) (H₀ : List Byte → Digest)
    (D : Finset (List Byte)) (hD : ∀ s : List Byte, s.length ≤ 99 * (36 * n) + 192 → s ∈ D)
    (h : (N + 13) * (9 * 256) * Fintype.card Digest ^ D.card <
      Fintype.card Digest * Fintype.card {H : D → Digest // FailsUpdate K C Q order ord n (A.run (over H₀ H)) (chal (over H₀ H))}) :
    ∃ H : D → Digest, FailsUpdate K C Q order ord n (A.run (over H₀ H)) (chal (over H₀ H)) ∧
      SelfBreak C (lastWrite (A.run (over H₀ H)).1) :=
  fails_of C83_spread C52_scalar_field.2.1 K C Q ho A hA (fun o => o.1) (fun o => o.2.1) (FailsUpdate K C Q order ord n)
    (fun _ _ hf => hf.opener C52_scalar_field.1 hord) H₀ D hD h

/-- C86 for the state of accounts: the program puts out writes to accounts and items to prove. -/
theorem C86_state {N n : ℕ} (hn : 36 * n < 2 ^ 32) (K : WireCodec (ZMod r) G) (C : Crypto (ZMod r) G) (Q : G)
    {order : List (ProverQuery (ZMod r) G) → List ℕ} (ho : ∀ qs, IsOrder qs (order qs)) (P : Hash64)
    (A : Prog (List Byte) Digest (List (Slot × Value) × List Slot)) (hA : A.Within N) (H₀ : List Byte → Digest) (D : Finset (List Byte))
    (hD : ∀ s : List Byte, s.length ≤ 99 * (36 * n) + 192 → s ∈ D)
    (h : (N + 13) * (9 * 256) * Fintype.card Digest ^ D.card <
      Fintype.card Digest * Fintype.card {H : D → Digest // FailsState K C Q order P n (A.run (over H₀ H)) (chal (over H₀ H))}) :
    ∃ H : D → Digest, FailsState K C Q order P n (A.run (over H₀ H)) (chal (over H₀ H)) ∧
      ∃ l, stateWrites P (A.run (over H₀ H)).1 = .ok l ∧ SelfBreak C (lastWrite l) := by
  obtain ⟨H, h1, h2⟩ := fails_of C83_spread C52_scalar_field.2.1 K C Q ho A hA (fun o => stateHist P o.1) (fun o => o.2.map (slotKey P))
    (FailsState K C Q order P n) (fun _ _ hf => hf.opener C52_scalar_field.1 hn) H₀ D hD h
  refine ⟨H, h1, _, ?_, h2⟩
  obtain ⟨-, -, -, -, -, -, l, _, _, hl, -⟩ := h1
  rw [stateHist, hl]

/-- C86 for chains of blocks.  A program that asks SHA-256 at most `N` times, seeing the digests, puts out the writes of a trie and a chain of at
most `b` blocks.  If the client that is sent the blocks made by the node does not end with the root of the trie after all writes, for more than
the part `9 · 256 b (N + 13) / 2²⁵⁶` of the hashes, a trie on the way breaks the commitments. -/
theorem C86_chain {N n b : ℕ} (K : WireCodec (ZMod r) G) (C : Crypto (ZMod r) G) (Q : G)
    {order : List (ProverQuery (ZMod r) G) → List ℕ} (ho : ∀ qs, IsOrder qs (order qs)) {ord : Path → List Stem → List Stem}
    (hord : ∀ p l, (ord p l).Perm l) (A : Prog (List Byte) Digest (List (Key × Value) × List (List Key × List (Option Value)))) (hA : A.Within N)
    (H₀ : List Byte → Digest) (D : Finset (List Byte)) (hD : ∀ s : List Byte, s.length ≤ 99 * (36 * n) + 192 → s ∈ D)
    (h : b * ((N + 13) * (9 * 256)) * Fintype.card Digest ^ D.card <
      Fintype.card Digest * Fintype.card {H : D → Digest // FailsChain K C Q order ord n b (A.run (over H₀ H)) (chal (over H₀ H))}) :
    ∃ H : D → Digest, FailsChain K C Q order ord n b (A.run (over H₀ H)) (chal (over H₀ H)) ∧
      BreakOnWay C (A.run (over H₀ H)).1 (A.run (over H₀ H)).2 :=
  chain_of C83_spread C52_scalar_field.2.1 C52_scalar_field.1 K C Q ho hord A hA H₀ D hD h

/-- The bounds in bits: with at most 2⁸⁰ questions the part is less than 2⁻¹⁶⁴. -/
theorem C86_bits {N X n : ℕ} (hN : N ≤ 2 ^ 80) (h : X < 2 ^ 164 * n) : (N + 13) * (9 * 256) * X < Fintype.card Digest * n := by
  have h1 : (N + 13) * (9 * 256) ≤ 2 ^ 92 := (Nat.mul_le_mul_right _ (Nat.add_le_add_right hN 13)).trans (by norm_num)
  rw [card_digest]
  calc _ ≤ 2 ^ 92 * X := Nat.mul_le_mul_right _ h1
    _ < 2 ^ 92 * (2 ^ 164 * n) := Nat.mul_lt_mul_of_pos_left h (by positivity)
    _ = 2 ^ 256 * n := by rw [← mul_assoc, ← pow_add]

/-- In bits: at most 2⁸⁰ questions, at most 2²⁰ keys, failure for more than the part 2⁻¹⁶⁴ of the hashes. -/
theorem C86_proofs_bits {N n : ℕ} (hN : N ≤ 2 ^ 80) (hn : n ≤ 2 ^ 20) (K : WireCodec (ZMod r) G) (C : Crypto (ZMod r) G) (Q : G)
    {order : List (ProverQuery (ZMod r) G) → List ℕ} (ho : ∀ qs, IsOrder qs (order qs))
    (A : Prog (List Byte) Digest (List (Key × Value) × List Key)) (hA : A.Within N) (H₀ : List Byte → Digest) (D : Finset (List Byte))
    (hD : ∀ s : List Byte, s.length ≤ 99 * (36 * n) + 192 → s ∈ D)
    (h : Fintype.card Digest ^ D.card <
      2 ^ 164 * Fintype.card {H : D → Digest // FailsProof K C Q order n (A.run (over H₀ H)) (chal (over H₀ H))}) :
    ∃ H : D → Digest, FailsProof K C Q order n (A.run (over H₀ H)) (chal (over H₀ H)) ∧ SelfBreak C (lastWrite (A.run (over H₀ H)).1) :=
  C86_proofs (by omega) K C Q ho A hA H₀ D hD (C86_bits hN h)

/-- In bits for the state of accounts. -/
theorem C86_state_bits {N n : ℕ} (hN : N ≤ 2 ^ 80) (hn : n ≤ 2 ^ 20) (K : WireCodec (ZMod r) G) (C : Crypto (ZMod r) G) (Q : G)
    {order : List (ProverQuery (ZMod r) G) → List ℕ} (ho : ∀ qs, IsOrder qs (order qs)) (P : Hash64)
    (A : Prog (List Byte) Digest (List (Slot × Value) × List Slot)) (hA : A.Within N) (H₀ : List Byte → Digest) (D : Finset (List Byte))
    (hD : ∀ s : List Byte, s.length ≤ 99 * (36 * n) + 192 → s ∈ D)
    (h : Fintype.card Digest ^ D.card <
      2 ^ 164 * Fintype.card {H : D → Digest // FailsState K C Q order P n (A.run (over H₀ H)) (chal (over H₀ H))}) :
    ∃ H : D → Digest, FailsState K C Q order P n (A.run (over H₀ H)) (chal (over H₀ H)) ∧
      ∃ l, stateWrites P (A.run (over H₀ H)).1 = .ok l ∧ SelfBreak C (lastWrite l) :=
  C86_state (by omega) K C Q ho P A hA H₀ D hD (C86_bits hN h)

end

/-! ### The hypotheses can be met -/

section
variable {F G : Type} [Field F] [DecidableEq F] [AddCommGroup G] [DecidableEq G] [Module F G]

/-- Useless parameters: every commitment is zero. -/
def flat (F G : Type) [Field F] [AddCommGroup G] : Crypto F G := ⟨fun _ => 0, fun _ => 0, rfl⟩

theorem flat_not_separated {m : KV} {keys : List Key} {k : Key} (hk : k ∈ keys) (hs : HasStem m k.stem) :
    ¬ Separated (flat F G) m (· ∈ keys) := by
  intro h
  have hc : ∀ p, nodeComm (flat F G) m p = 0 := fun p => by simp [nodeComm, commit, flat]
  have hT := termStem_self hs
  have h1 : Opened m (· ∈ keys) (termPath m k.stem ++ [halfIdx k.suffix]) := ⟨_, Label.low _ k hk hT⟩
  exact (h [] _ (opened_nil (List.ne_nil_of_mem hk)) h1 (by cases termPath m k.stem <;> rfl) (by rw [hc, hc])).1 rfl

/-- Where the opened nodes are not separated, no proof is accepted. -/
theorem check_fails (K : WireCodec F G) (C : Crypto F G) (Q : G) (order : List (ProverQuery F G) → List ℕ) (R : List Byte → F)
    (l : List (Key × Value)) {keys : List Key} (hk : keys ≠ []) (hs : ¬ Separated C (lastWrite l) (· ∈ keys))
    {p : VerkleProof G (MultiProof F G)} (hp : createVerkleProof (multiOpener ⟨K, R⟩ C Q order) (specDb C (lastWrite l)) keys = .ok (.ok p)) :
    check C (multiOpener ⟨K, R⟩ C Q order) p keys (keys.map (Trie.get (specDb C (lastWrite l)))) (nodeComm C (lastWrite l) []) =
      .error "assert commitments.len() == all_paths.len()" := by
  obtain ⟨q, qs, hint, h1, h2, -, -, h4⟩ := honest_run C l (build_eq C _) hk root_of_build
  simp only [createVerkleProof, if_neg hk, h1, bind, Except.bind] at hp
  split at hp
  · cases hp
  · cases hp
    rw [h2]
    simp only [check, h4 hs, bind, Except.bind]

/-- With such parameters the proof for `proofKeys` fails for every hash. -/
theorem flat_fails (K : WireCodec F G) (Q : G) (order : List (ProverQuery F G) → List ℕ) (R : List Byte → F) :
    FailsProof K (flat F G) Q order 7 (proofHist, proofKeys) R := by
  refine ⟨by simp [proofKeys], by simp [proofKeys], proofKeys_no_twin, _, _, build_eq _ _, root_of_build, ?_⟩
  rintro ⟨p, bs, uh, h1, -, -, h2⟩
  have hs : ¬ Separated (flat F G) (lastWrite proofHist) (· ∈ proofKeys) :=
    flat_not_separated (k := keyOf [9, 9] 0) (by simp [proofKeys]) ⟨0, by decide +kernel⟩
  rw [check_fails K (flat F G) Q order R proofHist (by simp [proofKeys]) hs h1] at h2
  cases h2

/-- With such parameters no client follows the chain `twoBlocks`. -/
theorem flat_chain_fails (K : WireCodec F G) (Q : G) (order : List (ProverQuery F G) → List ℕ) (ord : Path → List Stem → List Stem) (R : List Byte → F) :
    FailsChain K (flat F G) Q order ord 6 2 (proofHist, twoBlocks) R := by
  refine ⟨by simp [twoBlocks], twoBlocks_formed, by simp [twoBlocks, updKeys], twoBlocks_served.servable, _, _, _, _, build_eq _ _, root_of_build,
    insert_spec _ _ _, root_of_build, ?_⟩
  rintro ⟨bs, h1, h2⟩
  have hs : ¬ Separated (flat F G) (lastWrite proofHist) (· ∈ updKeys) :=
    flat_not_separated (k := keyOf [9, 9] 0) (by simp [updKeys]) ⟨0, by decide +kernel⟩
  simp only [twoBlocks, serve, bind, Except.bind] at h1
  split at h1
  · cases h1
  · rename_i x hx
    split at h1
    · cases h1
    · rename_i p
      split at h1
      · cases h1
      · split at h1
        · cases h1
        · split at h1
          · cases h1
          · cases h1
            simp only [followChain, verifyAndUpdate, check_fails K (flat F G) Q order R proofHist (by simp [updKeys]) hs hx, bind, Except.bind] at h2
            cases h2

end

/-- The hypotheses of `C86_chain` are met by a program that puts out that chain. -/
example {G : Type} [AddCommGroup G] [DecidableEq G] [Module (ZMod r) G] (K : WireCodec (ZMod r) G) (Q : G)
    {order : List (ProverQuery (ZMod r) G) → List ℕ} (ho : ∀ qs, IsOrder qs (order qs)) (H₀ : List Byte → Digest) :
    ∃ (A : Prog (List Byte) Digest (List (Key × Value) × List (List Key × List (Option Value)))) (D : Finset (List Byte)), A.Within 1 ∧
      2 * ((1 + 13) * (9 * 256)) * Fintype.card Digest ^ D.card < Fintype.card Digest * Fintype.card {H : D → Digest //
        FailsChain K (flat (ZMod r) G) Q order (fun _ l => l) 6 2 (A.run (over H₀ H)) (chal (over H₀ H))} ∧
      BreakOnWay (flat (ZMod r) G) proofHist twoBlocks := by
  let A : Prog (List Byte) Digest (List (Key × Value) × List (List Key × List (Option Value))) := .ask [] fun _ => .ret (proofHist, twoBlocks)
  have hA : A.Within 1 := fun _ => trivial
  have hfail : ∀ (D : Finset (List Byte)) (H : D → Digest),
      FailsChain K (flat (ZMod r) G) Q order (fun _ l => l) 6 2 (A.run (over H₀ H)) (chal (over H₀ H)) := fun D H => flat_chain_fails K Q order _ _
  have hcard : 2 * ((1 + 13) * (9 * 256)) * Fintype.card Digest ^ (shortStrings (99 * (36 * 6) + 192)).card < Fintype.card Digest *
      Fintype.card {H : shortStrings (99 * (36 * 6) + 192) → Digest //
        FailsChain K (flat (ZMod r) G) Q order (fun _ l => l) 6 2 (A.run (over H₀ H)) (chal (over H₀ H))} := by
    have hc : Fintype.card (shortStrings (99 * (36 * 6) + 192) → Digest) = Fintype.card Digest ^ (shortStrings (99 * (36 * 6) + 192)).card := by
      rw [Fintype.card_fun (β := Digest), Fintype.card_coe]
    rw [Fintype.card_congr (Equiv.subtypeUnivEquiv (hfail _)), hc]
    refine Nat.mul_lt_mul_of_pos_right ?_ (pow_pos ?_ _) <;> rw [card_digest] <;> norm_num
  obtain ⟨H, -, h⟩ := C86_chain K (flat (ZMod r) G) Q ho (fun _ l => List.Perm.refl l) A hA H₀ _ (fun _ h => mem_shortStrings h) hcard
  exact ⟨A, _, hA, hcard, h⟩

/-- The hypotheses of `C86_proofs` are met by a program that puts out that trie: with the parameters `flat` it fails for every hash, and indeed
nodes break the commitments. -/
example {G : Type} [AddCommGroup G] [DecidableEq G] [Module (ZMod r) G] (K : WireCodec (ZMod r) G) (Q : G)
    {order : List (ProverQuery (ZMod r) G) → List ℕ} (ho : ∀ qs, IsOrder qs (order qs)) (H₀ : List Byte → Digest) :
    ∃ (A : Prog (List Byte) Digest (List (Key × Value) × List Key)) (D : Finset (List Byte)), A.Within 1 ∧
      (1 + 13) * (9 * 256) * Fintype.card Digest ^ D.card < Fintype.card Digest *
        Fintype.card {H : D → Digest // FailsProof K (flat (ZMod r) G) Q order 7 (A.run (over H₀ H)) (chal (over H₀ H))} ∧
      SelfBreak (flat (ZMod r) G) (lastWrite proofHist) := by
  let A : Prog (List Byte) Digest (List (Key × Value) × List Key) := .ask [] fun _ => .ret (proofHist, proofKeys)
  have hA : A.Within 1 := fun _ => trivial
  have hfail : ∀ (D : Finset (List Byte)) (H : D → Digest),
      FailsProof K (flat (ZMod r) G) Q order 7 (A.run (over H₀ H)) (chal (over H₀ H)) := fun D H => flat_fails K Q order _
  have hcard : (1 + 13) * (9 * 256) * Fintype.card Digest ^ (shortStrings (99 * (36 * 7) + 192)).card < Fintype.card Digest *
      Fintype.card {H : shortStrings (99 * (36 * 7) + 192) → Digest //
        FailsProof K (flat (ZMod r) G) Q order 7 (A.run (over H₀ H)) (chal (over H₀ H))} := by
    have hc : Fintype.card (shortStrings (99 * (36 * 7) + 192) → Digest) = Fintype.card Digest ^ (shortStrings (99 * (36 * 7) + 192)).card := by
      rw [Fintype.card_fun (β := Digest), Fintype.card_coe]
    rw [Fintype.card_congr (Equiv.subtypeUnivEquiv (hfail _)), hc]
    refine Nat.mul_lt_mul_of_pos_right ?_ (pow_pos ?_ _) <;> rw [card_digest] <;> norm_num
  obtain ⟨H, -, h⟩ := C86_proofs (by norm_num) K (flat (ZMod r) G) Q ho A hA H₀ _ (fun _ h => mem_shortStrings h) hcard
  exact ⟨A, _, hA, hcard, h⟩

end Verif.Props
