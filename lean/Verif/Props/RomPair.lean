import Verif.Props.OneStem
import Verif.Props.Agree

/-!
# C71 and C79 against a random hash

A program outputs a root of its choice and two proofs.  The runs from which the first proof's openings are not found are few, and so are
those for the second, so there is a winning run for which both are found.
-/

set_option autoImplicit false
set_option linter.unusedSectionVars false

namespace Verif.Props
open Verif Verif.Spec Verif.Trie Verif.Proof Verif.Ipa Verif.Wire Verif.Eip
open scoped Classical

section
variable {F G : Type} [Field F] [AddCommGroup G] [Module F G]

/-- The leaves of a tree are runs of the program that win, all with the queries `qs`, and the tree's messages and challenges are those of the
runs.  The hash has values in `E`, which `red` turns into challenges. -/
def LeavesRun {E : Type} (red : E → F) (K : WireCodec F G) (C : Crypto F G) {β : Type} (A : Prog (List Byte) E β) (rootOf : β → G)
    (out : β → VerkleProof G (MultiProof F G) × List Key × List (Option Value)) (Win : (List Byte → E) → Prop) (H₀ : List Byte → E)
    (D : Finset (List Byte)) (qs : List (VerifierQuery F G)) (X : MultiTree F G qs.length (255 + qs.length) 8) : Prop :=
  ∀ i j u, ∀ p ∈ (X.ipa i j u).leaves, ∃ H : D → E, Win (over H₀ H) ∧
    MakesQueries C (rootOf (A.run (over H₀ H))) (out (A.run (over H₀ H))) qs ∧ (out (A.run (over H₀ H))).1.proof = ⟨p.2, X.D i⟩ ∧
    drawn ⟨K, fun s => red (over H₀ H s)⟩ (newTranscript (lbl "vt")) ⟨p.2, X.D i⟩ qs = (X.r i, X.t i j, X.w i j u, p.1)

/-- Openings of the queries `qs` are found by running the program again. -/
def Found {E : Type} (red : E → F) (K : WireCodec F G) (C : Crypto F G) (Q : G) {β : Type} (A : Prog (List Byte) E β) (rootOf : β → G)
    (out : β → VerkleProof G (MultiProof F G) × List Key × List (Option Value)) (Win : (List Byte → E) → Prop) (H₀ : List Byte → E)
    (D : Finset (List Byte)) (qs : List (VerifierQuery F G)) : Prop :=
  ∃ X : MultiTree F G qs.length (255 + qs.length) 8, X.Distinct 256 ∧ LeavesRun red K C A rootOf out Win H₀ D qs X ∧
    ((∃ ρ ∈ X.rels qs.get 256, ρ ≠ 0 ∧ ∑ i : Fin 256, ρ.1 i • C.g i + ρ.2 • Q = 0) ∨ Extracts C (vecOf qs X) qs)

/-- A run that wins although openings of its queries are not found. -/
def Missed {E : Type} (red : E → F) (K : WireCodec F G) (C : Crypto F G) (Q : G) {β : Type} (A : Prog (List Byte) E β) (rootOf : β → G)
    (out : β → VerkleProof G (MultiProof F G) × List Key × List (Option Value)) (Win : (List Byte → E) → Prop) (H₀ : List Byte → E)
    (D : Finset (List Byte)) (R : List Byte → E) : Prop :=
  Win R ∧ ¬ ∃ qs, MakesQueries C (rootOf (A.run R)) (out (A.run R)) qs ∧ Found red K C Q A rootOf out Win H₀ D qs

/-- The runs that win although the openings of their queries are not found are at most the part
`(N + 11) (513 + q + 2 (N + 11)) B / |E|` of all. -/
theorem rom_most {E : Type} [Fintype E] {red : E → F} {B : ℕ} (hred : Spread red B) {β : Type} {N qmax : ℕ} (hF : BigField F) (K : WireCodec F G) (C : Crypto F G) (Q : G)
    (order : List (ProverQuery F G) → List ℕ) (A : Prog (List Byte) E β)
    (hA : A.Within N) (rootOf : β → G)
    (out : β → VerkleProof G (MultiProof F G) × List Key × List (Option Value)) (Win : (List Byte → E) → Prop)
    (hwin : ∀ H, Win H → ∃ qs uh, createVerifierQueries C (out (A.run H)).1.hint (out (A.run H)).1.comms (out (A.run H)).2.1
        (out (A.run H)).2.2 (rootOf (A.run H)) = .ok (some (qs, uh)) ∧ qs.length ≤ qmax ∧
      (∃ uh, check C (multiOpener ⟨K, fun s => red (H s)⟩ C Q order) (out (A.run H)).1 (out (A.run H)).2.1 (out (A.run H)).2.2 (rootOf (A.run H)) =
        .ok (true, uh)))
    (H₀ : List Byte → E) (D : Finset (List Byte)) (hD : ∀ s : List Byte, s.length ≤ 99 * qmax + 192 → s ∈ D) :
    Fintype.card E * Fintype.card {H : D → E // Missed red K C Q A rootOf out Win H₀ D (over H₀ H)} ≤
      (N + 11) * (B * (513 + qmax + 2 * (N + 11))) * Fintype.card E ^ D.card := by
  by_contra hlt
  obtain ⟨qs, X, hX, hleaf, ⟨H, ⟨_, hH⟩, hask⟩, hc⟩ := rom_extract_of hred hF K C Q order A hA rootOf out
    (Missed red K C Q A rootOf out Win H₀ D)
    (fun R hR => hwin R hR.1) H₀ D hD (not_le.1 hlt)
  refine hH ⟨qs, hask, X, hX, fun i j u p hp => ?_, hc⟩
  obtain ⟨R, h1, h2⟩ := hleaf i j u p hp
  exact ⟨R, h1.1, h2⟩

/-- The output of a program, a root and a proof for at most `n` keys, is accepted. -/
def AcceptsAt (K : WireCodec F G) (C : Crypto F G) (Q : G) (order : List (ProverQuery F G) → List ℕ) (n : ℕ)
    (A : Prog (List Byte) F (G × VerkleProof G (MultiProof F G) × List Key × List (Option Value))) (H : List Byte → F) : Prop :=
  (A.run H).2.2.1.length ≤ n ∧
  ∃ uh, check C (multiOpener ⟨K, H⟩ C Q order) (A.run H).2.1 (A.run H).2.2.1 (A.run H).2.2.2 (A.run H).1 = .ok (true, uh)

/-- What `C66_accepted_found` says, for a hash with values in `E` that `red` turns into challenges, each from at most `B` values.  The
output of a run, `.ret (A.run H)`, is accepted for the challenges of the run. -/
theorem rom_found_of {E : Type} [Fintype E] {red : E → F} {B : ℕ} (hred : Spread red B) {N n : ℕ} (hF : BigField F) (K : WireCodec F G) (C : Crypto F G) (Q : G)
    (order : List (ProverQuery F G) → List ℕ) (A : Prog (List Byte) E (G × VerkleProof G (MultiProof F G) × List Key × List (Option Value)))
    (hA : A.Within N) (H₀ : List Byte → E) (D : Finset (List Byte)) (hD : ∀ s : List Byte, s.length ≤ 99 * (36 * n) + 192 → s ∈ D) :
    Fintype.card E * Fintype.card {H : D → E // Missed red K C Q A (·.1) (·.2) (fun H => AcceptsAt K C Q order n (.ret (A.run H)) (fun s => red (H s))) H₀ D (over H₀ H)} ≤
      (N + 11) * (B * (513 + 36 * n + 2 * (N + 11))) * Fintype.card E ^ D.card :=
  rom_most hred hF K C Q order A hA (·.1) (·.2) _ (fun H hH => by
    obtain ⟨hn, uh, hacc⟩ := hH
    obtain ⟨qs, uh', hq⟩ := accepted_queries hacc
    exact ⟨qs, uh', hq, (C74_bounded_partial hq).1.trans (Nat.mul_le_mul_left _ ((List.toFinset_card_le _).trans hn)), uh, hacc⟩) H₀ D hD

/-- C66 for single outputs.  A program asks the hash at most `N` times and outputs a root and a proof for at most `n` keys.  For all but the part
`(N + 11) (513 + 36 n + 2 (N + 11)) / |F|` of the hashes: if the proof is accepted, there are runs of the program with the same queries from
which openings of just these queries, or a non-trivial relation between the generators and `Q`, are computed. -/
theorem C66_accepted_found [Fintype F] {N n : ℕ} (hF : BigField F) (K : WireCodec F G) (C : Crypto F G) (Q : G)
    (order : List (ProverQuery F G) → List ℕ) (A : Prog (List Byte) F (G × VerkleProof G (MultiProof F G) × List Key × List (Option Value)))
    (hA : A.Within N) (H₀ : List Byte → F) (D : Finset (List Byte)) (hD : ∀ s : List Byte, s.length ≤ 99 * (36 * n) + 192 → s ∈ D) :
    Fintype.card F * Fintype.card {H : D → F // Missed id K C Q A (·.1) (·.2) (AcceptsAt K C Q order n A) H₀ D (over H₀ H)} ≤
      (N + 11) * (513 + 36 * n + 2 * (N + 11)) * Fintype.card F ^ D.card := by
  have h := rom_found_of spread_id hF K C Q order A hA H₀ D hD
  rw [one_mul] at h
  exact h

/-- A root and two proofs with keys and values. -/
abbrev PairClaim (F G : Type) := G × (VerkleProof G (MultiProof F G) × List Key × List (Option Value)) ×
  VerkleProof G (MultiProof F G) × List Key × List (Option Value)

/-- A program's output, a root and two proofs for at most `n` keys each: both proofs are accepted, and for some key, whose stem has the same
depth in both, they make undisputed claims that differ. -/
def ForgesPair (K : WireCodec F G) (C : Crypto F G) (Q : G) (order : List (ProverQuery F G) → List ℕ) (n : ℕ)
    (A : Prog (List Byte) F (PairClaim F G)) (H : List Byte → F) : Prop :=
  let root := (A.run H).1
  let o := (A.run H).2.1
  let o' := (A.run H).2.2
  o.2.1.length = o.2.2.length ∧ o'.2.1.length = o'.2.2.length ∧ o.2.1.length ≤ n ∧ o'.2.1.length ≤ n ∧
  (∃ uh, check C (multiOpener ⟨K, H⟩ C Q order) o.1 o.2.1 o.2.2 root = .ok (true, uh)) ∧
  (∃ uh, check C (multiOpener ⟨K, H⟩ C Q order) o'.1 o'.2.1 o'.2.2 root = .ok (true, uh)) ∧
  ∃ k v v' e e' d, (k, v) ∈ o.2.1.zip o.2.2 ∧ (k, v') ∈ o'.2.1.zip o'.2.2 ∧ Undisputed o.1.hint o.2.1 o.2.2 k v ∧
    Undisputed o'.1.hint o'.2.1 o'.2.2 k v' ∧ HintEntry o.1.hint o.2.1 k.stem e d ∧ HintEntry o'.1.hint o'.2.1 k.stem e' d ∧ v ≠ v'

/-- What `C79_random_hash` says, for a hash with values in `E` that `red` turns into challenges, each from at most `B` values.  The
output of a run, `.ret (A.run H)`, wins for the challenges of the run. -/
theorem rom_pair_of {E : Type} [Fintype E] {red : E → F} {B : ℕ} (hred : Spread red B) {N n : ℕ} (hF : BigField F) (K : WireCodec F G) (C : Crypto F G) (Q : G)
    (order : List (ProverQuery F G) → List ℕ) (A : Prog (List Byte) E (PairClaim F G)) (hA : A.Within N)
    (H₀ : List Byte → E) (D : Finset (List Byte)) (hD : ∀ s : List Byte, s.length ≤ 99 * (36 * n) + 192 → s ∈ D)
    (h : 2 * ((N + 11) * (B * (513 + 36 * n + 2 * (N + 11)))) * Fintype.card E ^ D.card <
      Fintype.card E * Fintype.card {H : D → E // ForgesPair K C Q order n (.ret (A.run (over H₀ H))) (fun s => red (over H₀ H s))}) :
    ∃ (H : D → E) (qs qs' : List (VerifierQuery F G)) (X : MultiTree F G qs.length (255 + qs.length) 8)
      (X' : MultiTree F G qs'.length (255 + qs'.length) 8), ForgesPair K C Q order n (.ret (A.run (over H₀ H))) (fun s => red (over H₀ H s)) ∧
      MakesQueries C (A.run (over H₀ H)).1 (A.run (over H₀ H)).2.1 qs ∧ MakesQueries C (A.run (over H₀ H)).1 (A.run (over H₀ H)).2.2 qs' ∧
      X.Distinct 256 ∧ X'.Distinct 256 ∧
      LeavesRun red K C A (·.1) (·.2.1) (fun H => ForgesPair K C Q order n (.ret (A.run H)) (fun s => red (H s))) H₀ D qs X ∧
      LeavesRun red K C A (·.1) (·.2.2) (fun H => ForgesPair K C Q order n (.ret (A.run H)) (fun s => red (H s))) H₀ D qs' X' ∧
      ((∃ ρ ∈ X.rels qs.get 256 ++ X'.rels qs'.get 256, ρ ≠ 0 ∧ ∑ i : Fin 256, ρ.1 i • C.g i + ρ.2 • Q = 0) ∨
      PairBreak C (vecOf qs X) (vecOf qs' X') qs qs') := by
  have hbound : ∀ {p : VerkleProof G (MultiProof F G)} {keys : List Key} {values : List (Option Value)} {root : G} {qs uh},
      keys.length ≤ n → createVerifierQueries C p.hint p.comms keys values root = .ok (some (qs, uh)) → qs.length ≤ 36 * n :=
    fun hn hq => (C74_bounded_partial hq).1.trans (Nat.mul_le_mul_left _ ((List.toFinset_card_le _).trans hn))
  have h1 := rom_most hred hF K C Q order A hA (·.1) (·.2.1) (fun H => ForgesPair K C Q order n (.ret (A.run H)) (fun s => red (H s))) (fun H hH => by
    obtain ⟨_, _, hn, _, ⟨uh, hacc⟩, _⟩ := hH
    obtain ⟨qs, uh', hq⟩ := accepted_queries hacc
    exact ⟨qs, uh', hq, hbound hn hq, uh, hacc⟩) H₀ D hD
  have h2 := rom_most hred hF K C Q order A hA (·.1) (·.2.2) (fun H => ForgesPair K C Q order n (.ret (A.run H)) (fun s => red (H s))) (fun H hH => by
    obtain ⟨_, _, _, hn, _, ⟨uh, hacc⟩, _⟩ := hH
    obtain ⟨qs, uh', hq⟩ := accepted_queries hacc
    exact ⟨qs, uh', hq, hbound hn hq, uh, hacc⟩) H₀ D hD
  obtain ⟨H, hH, ⟨qs, hq, X, hX, hl, hc⟩, qs', hq', X', hX', hl', hc'⟩ : ∃ H : D → E, ForgesPair K C Q order n (.ret (A.run (over H₀ H))) (fun s => red (over H₀ H s)) ∧
      (∃ qs, MakesQueries C (A.run (over H₀ H)).1 (A.run (over H₀ H)).2.1 qs ∧
        Found red K C Q A (·.1) (·.2.1) (fun H => ForgesPair K C Q order n (.ret (A.run H)) (fun s => red (H s))) H₀ D qs) ∧
      ∃ qs, MakesQueries C (A.run (over H₀ H)).1 (A.run (over H₀ H)).2.2 qs ∧
        Found red K C Q A (·.1) (·.2.2) (fun H => ForgesPair K C Q order n (.ret (A.run H)) (fun s => red (H s))) H₀ D qs := by
    by_contra hno
    have hle := (Fintype.card_subtype_mono (fun H : D → E => ForgesPair K C Q order n (.ret (A.run (over H₀ H))) (fun s => red (over H₀ H s)))
      (fun H => Missed red K C Q A (·.1) (·.2.1) (fun H => ForgesPair K C Q order n (.ret (A.run H)) (fun s => red (H s))) H₀ D (over H₀ H) ∨
        Missed red K C Q A (·.1) (·.2.2) (fun H => ForgesPair K C Q order n (.ret (A.run H)) (fun s => red (H s))) H₀ D (over H₀ H)) fun H hH => by
      by_cases h3 : ∃ qs, MakesQueries C (A.run (over H₀ H)).1 (A.run (over H₀ H)).2.1 qs ∧
          Found red K C Q A (·.1) (·.2.1) (fun H => ForgesPair K C Q order n (.ret (A.run H)) (fun s => red (H s))) H₀ D qs
      · exact Or.inr ⟨hH, fun h4 => hno ⟨H, hH, h3, h4⟩⟩
      · exact Or.inl ⟨hH, h3⟩).trans (Fintype.card_subtype_or _ _)
    have := Nat.mul_le_mul_left (Fintype.card E) hle
    rw [Nat.mul_add] at this
    have h5 := lt_of_lt_of_le h (this.trans (Nat.add_le_add h1 h2))
    rw [← two_mul, mul_assoc] at h5
    exact lt_irrefl _ h5
  refine ⟨H, qs, qs', X, X', hH, hq, hq', hX, hX', hl, hl', ?_⟩
  rcases hc with ⟨ρ, hρ, hρ'⟩ | hext
  · exact Or.inl ⟨ρ, List.mem_append_left _ hρ, hρ'⟩
  rcases hc' with ⟨ρ, hρ, hρ'⟩ | hext'
  · exact Or.inl ⟨ρ, List.mem_append_right _ hρ, hρ'⟩
  refine Or.inr ?_
  by_contra hnb
  obtain ⟨hlen, hlen', _, _, _, _, k, v, v', e, e', d, hkv, hkv', hud, hud', he, he', hne⟩ := hH
  obtain ⟨u, hq⟩ := hq
  obtain ⟨u', hq'⟩ := hq'
  obtain ⟨_, _, _, _, g1, g2, g3, _⟩ := claims_agree_or_pass hF hq hq' hlen hlen' hext hext' hnb hkv hkv' hud hud' hne
  obtain ⟨_, rfl⟩ := entry_unique g1 he
  obtain ⟨_, rfl⟩ := entry_unique g2 he'
  rcases g3 with g3 | g3 <;> exact absurd g3.1 (lt_irrefl _)

/-- C79 against a random hash.  Let a program ask the hash at most `N` times and output a root and two proofs for at most `n` keys each.  If for
more than the part `2 (N + 11) (513 + 36 n + 2 (N + 11)) / |F|` of the hashes both are accepted and make contradictory claims at the same
depth, there is a run whose two proofs have queries `qs` and `qs'`, and there are runs of the program with these queries from which a
non-trivial relation between the generators and `Q` or vectors breaking the commitments are computed. -/
theorem C79_random_hash [Fintype F] {N n : ℕ} (hF : BigField F) (K : WireCodec F G) (C : Crypto F G) (Q : G)
    (order : List (ProverQuery F G) → List ℕ) (A : Prog (List Byte) F (PairClaim F G)) (hA : A.Within N)
    (H₀ : List Byte → F) (D : Finset (List Byte)) (hD : ∀ s : List Byte, s.length ≤ 99 * (36 * n) + 192 → s ∈ D)
    (h : 2 * ((N + 11) * (513 + 36 * n + 2 * (N + 11))) * Fintype.card F ^ D.card <
      Fintype.card F * Fintype.card {H : D → F // ForgesPair K C Q order n A (over H₀ H)}) :
    ∃ (H : D → F) (qs qs' : List (VerifierQuery F G)) (X : MultiTree F G qs.length (255 + qs.length) 8)
      (X' : MultiTree F G qs'.length (255 + qs'.length) 8), ForgesPair K C Q order n A (over H₀ H) ∧
      MakesQueries C (A.run (over H₀ H)).1 (A.run (over H₀ H)).2.1 qs ∧ MakesQueries C (A.run (over H₀ H)).1 (A.run (over H₀ H)).2.2 qs' ∧
      X.Distinct 256 ∧ X'.Distinct 256 ∧
      LeavesRun id K C A (·.1) (·.2.1) (ForgesPair K C Q order n A) H₀ D qs X ∧
      LeavesRun id K C A (·.1) (·.2.2) (ForgesPair K C Q order n A) H₀ D qs' X' ∧
      ((∃ ρ ∈ X.rels qs.get 256 ++ X'.rels qs'.get 256, ρ ≠ 0 ∧ ∑ i : Fin 256, ρ.1 i • C.g i + ρ.2 • Q = 0) ∨
      PairBreak C (vecOf qs X) (vecOf qs' X') qs qs') :=
  rom_pair_of spread_id hF K C Q order A hA H₀ D hD (by rw [one_mul]; exact h)

/-! ### A program that forges if all generators are zero -/

/-- What the root holds above the stem. -/
noncomputable def oneRoot (C : Crypto F G) (v : Value) : Byte → F :=
  fun i => if i = 1 then C.h (stemComm C (lastWrite [(soloKey, v)]) soloKey.stem) else 0

/-- The openings of a trie with one key. -/
noncomputable def oneQueries (C : Crypto F G) (v : Value) : List (ProverQuery F G) :=
  [vecQuery C (oneRoot C v) 1, vecQuery C (stemVec C (lastWrite [(soloKey, v)]) soloKey.stem) 0,
    vecQuery C (stemVec C (lastWrite [(soloKey, v)]) soloKey.stem) 1, vecQuery C (stemVec C (lastWrite [(soloKey, v)]) soloKey.stem) 2,
    vecQuery C (suffixVec (lastWrite [(soloKey, v)]) soloKey.stem 0 F) 10, vecQuery C (suffixVec (lastWrite [(soloKey, v)]) soloKey.stem 0 F) 11]

theorem oneQueries_true (C : Crypto F G) (v : Value) : ∀ q ∈ oneQueries C v, TrueQuery C q := by
  intro q hq
  simp only [oneQueries, List.mem_cons, List.not_mem_nil, or_false] at hq
  rcases hq with rfl | rfl | rfl | rfl | rfl | rfl <;> exact vecQuery_true _ _ _

theorem one_queries (C : Crypto F G) (v : Value) : createVerifierQueries C ⟨[1], [.present], []⟩
    [stemComm C (lastWrite [(soloKey, v)]) soloKey.stem, suffixComm C (lastWrite [(soloKey, v)]) soloKey.stem 0] [soloKey]
    [some v] (commit C (oneRoot C v)) = .ok (some ((oneQueries C v).map ProverQuery.toVerifier,
    ⟨[(soloKey.stem, (.present, 1))], [([], commit C (oneRoot C v)),
    ([1], stemComm C (lastWrite [(soloKey, v)]) soloKey.stem), ([1, 2], suffixComm C (lastWrite [(soloKey, v)]) soloKey.stem 0)], []⟩)) := by
  simp only [oneQueries, List.map_cons, List.map_nil, vecQuery, ProverQuery.toVerifier]
  have e : oneRoot C v 1 = C.h (stemComm C (lastWrite [(soloKey, v)]) soloKey.stem) := rfl
  have e0 : stemVec C (lastWrite [(soloKey, v)]) soloKey.stem 0 = 1 := rfl
  have e1 : stemVec C (lastWrite [(soloKey, v)]) soloKey.stem 1 = frLe F soloKey.stem.1 := rfl
  have e2 : stemVec C (lastWrite [(soloKey, v)]) soloKey.stem 2 = C.h (suffixComm C (lastWrite [(soloKey, v)]) soloKey.stem 0) := rfl
  have e3 : suffixVec (lastWrite [(soloKey, v)]) soloKey.stem 0 F 10 = (valueHalves F (some v)).1 := rfl
  have e4 : suffixVec (lastWrite [(soloKey, v)]) soloKey.stem 0 F 11 = (valueHalves F (some v)).2 := rfl
  rw [e, e0, e1, e2, e3, e4, ← stemComm_eq_commit, ← suffixComm_eq_commit]
  generalize commit C (oneRoot C v) = r
  generalize stemComm C (lastWrite [(soloKey, v)]) soloKey.stem = c
  generalize suffixComm C (lastWrite [(soloKey, v)]) soloKey.stem 0 = c'
  rfl

/-- What `forges_pair` says, for a hash with values in `E` that `red` turns into challenges, each from at most `c` values. -/
theorem forges_pair_of {E : Type} [Fintype E] {red : E → F} {c : ℕ} (hred : Spread red c) (hF : BigField F) (C : Crypto F G) (hC : ∀ i, C.g i = 0) (K : WireCodec F G) (Q : G)
    (order : List (ProverQuery F G) → List ℕ) (H₀ : List Byte → E) (hbig : c * 50000 < Fintype.card E) :
    ∃ (A : Prog (List Byte) F (PairClaim F G)) (D : Finset (List Byte)), A.Within 22 ∧
      (∀ s : List Byte, s.length ≤ 99 * (36 * 1) + 192 → s ∈ D) ∧
      2 * ((22 + 11) * (c * (513 + 36 * 1 + 2 * (22 + 11)))) * Fintype.card E ^ D.card <
        Fintype.card E * Fintype.card {H : D → E // ForgesPair K C Q order 1 A (fun s => red (over H₀ H s))} := by
  have hD : Ipa.Distinct F 256 := fun i j hi hj h => hF i j (hi.trans (by norm_num)) (hj.trans (by norm_num)) h
  obtain ⟨W, hW, _⟩ := new_good hD (by norm_num)
  have hz : ∀ v, commit C (oneRoot C v) = 0 := fun v => Finset.sum_eq_zero fun i _ => by rw [hC, smul_zero]
  have honest := fun v => honest_wins_of hred (k := 8) (qmax := 36 * 1) (crs := crsOf C Q) (by norm_num) rfl (by simp [crsOf]) hD hW K
    (newTranscript (lbl "vt")) (qs := oneQueries C v) (by simp [oneQueries]) (by simp [oneQueries])
    (fun q hq => (oneQueries_true C v q hq).opening Q)
  obtain ⟨A, hA, hA', hw⟩ := honest (valOf 7)
  obtain ⟨B, hB, hB', hw'⟩ := honest (valOf 8)
  let mk : Value → MultiProof F G → VerkleProof G (MultiProof F G) × List Key × List (Option Value) := fun v π =>
    (⟨⟨[1], [.present], []⟩, [stemComm C (lastWrite [(soloKey, v)]) soloKey.stem, suffixComm C (lastWrite [(soloKey, v)]) soloKey.stem 0], π⟩,
      [soloKey], [some v])
  let g : MultiProof F G → List (VerifierQuery F G) × MultiProof F G → Prog (List Byte) F (PairClaim F G) := fun π o =>
    .ret (0, mk (valOf 7) π, mk (valOf 8) o.2)
  let f : List (VerifierQuery F G) × MultiProof F G → Prog (List Byte) F (PairClaim F G) := fun o => B.bind (g o.2)
  have hDs : ∀ s : List Byte, s.length ≤ (newTranscript (lbl "vt")).length + 99 * (36 * 1) + 190 → s ∈ shortStrings (99 * (36 * 1) + 192) :=
    fun s h => mem_shortStrings (by
      have : (newTranscript (lbl "vt")).length = 2 := rfl
      rw [this] at h
      omega)
  have hacc : ∀ v (P : Prog (List Byte) F (List (VerifierQuery F G) × MultiProof F G)),
      (∀ H, (P.run H).1 = (oneQueries C v).map ProverQuery.toVerifier) → ∀ H,
      Forges K (newTranscript (lbl "vt")) (crsOf C Q) W (36 * 1) P H →
      ∃ uh, check C (multiOpener ⟨K, H⟩ C Q order) (mk v (P.run H).2).1 (mk v (P.run H).2).2.1 (mk v (P.run H).2).2.2 0 = .ok (true, uh) := by
    intro v P hP H hH
    obtain ⟨_, _, _, t', h5⟩ := hH
    rw [hP] at h5
    have hq := one_queries C v
    rw [hz] at hq
    have h6 : ∀ qs uh, qs = (oneQueries C v).map ProverQuery.toVerifier → createVerifierQueries C ⟨[1], [.present], []⟩
        [stemComm C (lastWrite [(soloKey, v)]) soloKey.stem, suffixComm C (lastWrite [(soloKey, v)]) soloKey.stem 0] [soloKey]
        [some v] 0 = .ok (some (qs, uh)) →
        check C (multiOpener ⟨K, H⟩ C Q order) (mk v (P.run H).2).1 (mk v (P.run H).2).2.1 (mk v (P.run H).2).2.2 0 = .ok (true, some uh) := by
      rintro qs uh rfl h
      simp only [mk, check, h, bind, Except.bind, multiOpener, hW, h5]
    exact ⟨_, h6 _ _ rfl hq⟩
  refine ⟨A.bind f, shortStrings (99 * (36 * 1) + 192),
    Prog.Within.bind (f := f) (n := 11) (fun o => Prog.Within.bind (f := g o.2) (n := 0) (fun _ => trivial) hB) hA,
    fun s h => mem_shortStrings h, win_of_lose (a := 2 * (11 * (c * 257))) ?_ (by omega)⟩
  have h1 := hw H₀ _ hDs
  have h2 := hw' H₀ _ hDs
  have hle := (Fintype.card_subtype_mono (fun H : shortStrings (99 * (36 * 1) + 192) → E => ¬ ForgesPair K C Q order 1 (A.bind f) (fun s => red (over H₀ H s)))
    (fun H => ¬ Forges K (newTranscript (lbl "vt")) (crsOf C Q) W (36 * 1) A (fun s => red (over H₀ H s)) ∨
      ¬ Forges K (newTranscript (lbl "vt")) (crsOf C Q) W (36 * 1) B (fun s => red (over H₀ H s))) fun H hH => by
    by_contra hno
    rw [not_or, not_not, not_not] at hno
    apply hH
    unfold ForgesPair
    rw [Prog.run_bind]
    simp only [f]
    rw [Prog.run_bind]
    simp only [g, Prog.run]
    have hne : valOf 7 ≠ valOf 8 := by decide
    refine ⟨rfl, rfl, le_rfl, le_rfl, hacc _ A hA' _ hno.1, hacc _ B hB' _ hno.2, soloKey, some (valOf 7), some (valOf 8), .present, .present, 1,
      by simp [mk], by simp [mk], undisputed (by simp) solo_consistent (by simp [mk]), undisputed (by simp) solo_consistent (by simp [mk]),
      ⟨1, rfl, by simp only [mk]; decide⟩, ⟨1, rfl, by simp only [mk]; decide⟩, fun h => hne (Option.some.inj h)⟩).trans (Fintype.card_subtype_or _ _)
  have h3 := Nat.mul_le_mul_left (Fintype.card E) hle
  rw [Nat.mul_add] at h3
  have h4 := h3.trans (Nat.add_le_add h1 h2)
  have : (crsOf C Q).n = 256 := rfl
  rw [← two_mul, this] at h4
  exact h4.trans (le_of_eq (mul_assoc _ _ _).symm)

/-- The hypotheses of `C79_random_hash` are met if all generators are zero, by a program that shows two values of one key. -/
theorem forges_pair [Fintype F] (hF : BigField F) (C : Crypto F G) (hC : ∀ i, C.g i = 0) (K : WireCodec F G) (Q : G)
    (order : List (ProverQuery F G) → List ℕ) (H₀ : List Byte → F) (hbig : 50000 < Fintype.card F) :
    ∃ (A : Prog (List Byte) F (PairClaim F G)) (D : Finset (List Byte)), A.Within 22 ∧
      (∀ s : List Byte, s.length ≤ 99 * (36 * 1) + 192 → s ∈ D) ∧
      2 * ((22 + 11) * (513 + 36 * 1 + 2 * (22 + 11))) * Fintype.card F ^ D.card <
        Fintype.card F * Fintype.card {H : D → F // ForgesPair K C Q order 1 A (over H₀ H)} := by
  have h := forges_pair_of spread_id hF C hC K Q order H₀ (by rw [one_mul]; exact hbig)
  simp only [one_mul] at h
  exact h

/-! ### Slots of a state (C71) -/

/-- What a program says about a state: a proof, slots and their values. -/
abbrev StateClaim (F G : Type) := VerkleProof G (MultiProof F G) × List Slot × List (Option Value)

/-- The proof with keys and values that a client checks for it. -/
def stateCheck (H : Hash64) (o : StateClaim F G) : VerkleProof G (MultiProof F G) × List Key × List (Option Value) :=
  (o.1, o.2.1.map (slotKey H), o.2.2)

/-- A program's output, a proof about at most `n` different slots, is accepted against `root`, and shows for a slot, at whose stem the hint is
consistent, a value that is not the one last written.  Not counted are outputs for which two of the slots used collide. -/
def ForgesState (K : WireCodec F G) (C : Crypto F G) (Q : G) (order : List (ProverQuery F G) → List ℕ) (H : Hash64)
    (w : List (Slot × Value)) (root : G) (n : ℕ) (A : Prog (List Byte) F (StateClaim F G)) (R : List Byte → F) : Prop :=
  let o := A.run R
  (∀ s ∈ o.2.1, s.2.Valid) ∧ o.2.1.Nodup ∧ o.2.1.length = o.2.2.length ∧ o.2.1.length ≤ n ∧
  (∃ keys uh, o.2.1.mapM (fun s => itemKey H s.1 s.2) = .ok keys ∧
    check C (multiOpener ⟨K, R⟩ C Q order) o.1 keys o.2.2 root = .ok (true, uh) ∧
    ∃ s v k, (s, some v) ∈ o.2.1.zip o.2.2 ∧ itemKey H s.1 s.2 = .ok k ∧ ConsistentAt o.1.hint keys k.stem ∧ lastState w s ≠ some v) ∧
  ¬ Collides H fun s => s ∈ o.2.1 ∨ Written w s

/-- What `C71_random_hash_partial` says, for a hash with values in `E` that `red` turns into challenges, each from at most `B` values.  The
output of a run, `.ret (A.run H)`, wins for the challenges of the run. -/
theorem rom_state_of {E : Type} [Fintype E] {red : E → F} {B : ℕ} (hred : Spread red B) {N n : ℕ} (hF : BigField F) (K : WireCodec F G) (C : Crypto F G) (Q : G)
    (order : List (ProverQuery F G) → List ℕ) (H : Hash64) (w : List (Slot × Value))
    (hw : ∀ x ∈ w, x.1.2.Valid) {l : List (Key × Value)} (hl : stateWrites H w = .ok l) {db : MemoryDb F G} (hb : build C l = .ok db)
    {root : G} (hr : Trie.rootCommitment db = .ok root) (A : Prog (List Byte) E (StateClaim F G)) (hA : A.Within N)
    (R₀ : List Byte → E) (D : Finset (List Byte)) (hD : ∀ s : List Byte, s.length ≤ 99 * (36 * n) + 192 → s ∈ D)
    (h : (N + 11) * (B * (513 + 36 * n + 2 * (N + 11))) * Fintype.card E ^ D.card <
      Fintype.card E * Fintype.card {R : D → E // ForgesState K C Q order H w root n (.ret (A.run (over R₀ R))) (fun s => red (over R₀ R s))}) :
    ∃ (qs : List (VerifierQuery F G)) (X : MultiTree F G qs.length (255 + qs.length) 8), X.Distinct 256 ∧
      LeavesRun red K C A (fun _ => root) (stateCheck H) (fun R => ForgesState K C Q order H w root n (.ret (A.run R)) (fun s => red (R s))) R₀ D qs X ∧
      ((∃ ρ ∈ X.rels qs.get 256, ρ ≠ 0 ∧ ∑ i : Fin 256, ρ.1 i • C.g i + ρ.2 • Q = 0) ∨
      ProofBreak C (lastWrite l) (vecOf qs X) qs) := by
  refine rom_trie_of hred hF K C Q order l root A hA (stateCheck H) (fun R => ForgesState K C Q order H w root n (.ret (A.run R)) (fun s => red (R s))) (fun R hR => ?_) R₀ D hD h
  obtain ⟨hv, hnd, hlen, hmax, ⟨keys, uh, hk, hacc, s, v, k, hm, hsk, hcons, hne⟩, hcol⟩ := hR
  generalize A.run R = o at *
  obtain ⟨p, slots, values⟩ := o
  simp only [Prog.run] at hv hnd hlen hmax hk hacc hm hcons hcol
  simp only [stateCheck]
  have hk' := hk
  rw [Proof.mapM_ok _ (slotKey H) _ fun s hs => slotKey_ok H (hv s hs)] at hk
  cases hk
  obtain ⟨qs, uh', hq⟩ := accepted_queries hacc
  refine ⟨qs, uh', hq, ?_, ⟨uh, hacc⟩, fun vec hext => ?_⟩
  · refine (C74_bounded_partial hq).1.trans (Nat.mul_le_mul_left _ ?_)
    exact (List.toFinset_card_le _).trans (by simpa using hmax)
  · rcases C71_light_client_partial hF C (multiOpener ⟨K, fun s => red (R s)⟩ C Q order) H w hw hl hb hr p slots hv hnd hk' values hacc hlen vec
        (fun qs' u' h' => by
          rw [hq] at h'
          cases h'
          exact hext) with h1 | h1 | h1
    · obtain ⟨qs', u', h2, h3⟩ := h1
      rw [hq] at h2
      cases h2
      exact h3
    · exact absurd h1 hcol
    · exact absurd (h1 s v k hm hsk hcons) hne

/-- C71 for a client that has the root only, against a random hash (partial: with the conditions of C21).  Let a program ask the hash at most
`N` times and output a proof about at most `n` slots.  If, against the root of the state after some writes, a false value is accepted for
more than the part `(N + 11) (513 + 36 n + 2 (N + 11)) / |F|` of the hashes, there are runs of the program, all with the same queries, from
which a non-trivial relation between the generators and `Q` or vectors breaking the commitments are computed. -/
theorem C71_random_hash_partial [Fintype F] {N n : ℕ} (hF : BigField F) (K : WireCodec F G) (C : Crypto F G) (Q : G)
    (order : List (ProverQuery F G) → List ℕ) (H : Hash64) (w : List (Slot × Value))
    (hw : ∀ x ∈ w, x.1.2.Valid) {l : List (Key × Value)} (hl : stateWrites H w = .ok l) {db : MemoryDb F G} (hb : build C l = .ok db)
    {root : G} (hr : Trie.rootCommitment db = .ok root) (A : Prog (List Byte) F (StateClaim F G)) (hA : A.Within N)
    (R₀ : List Byte → F) (D : Finset (List Byte)) (hD : ∀ s : List Byte, s.length ≤ 99 * (36 * n) + 192 → s ∈ D)
    (h : (N + 11) * (513 + 36 * n + 2 * (N + 11)) * Fintype.card F ^ D.card <
      Fintype.card F * Fintype.card {R : D → F // ForgesState K C Q order H w root n A (over R₀ R)}) :
    ∃ (qs : List (VerifierQuery F G)) (X : MultiTree F G qs.length (255 + qs.length) 8), X.Distinct 256 ∧
      LeavesRun id K C A (fun _ => root) (stateCheck H) (ForgesState K C Q order H w root n A) R₀ D qs X ∧
      ((∃ ρ ∈ X.rels qs.get 256, ρ ≠ 0 ∧ ∑ i : Fin 256, ρ.1 i • C.g i + ρ.2 • Q = 0) ∨
      ProofBreak C (lastWrite l) (vecOf qs X) qs) :=
  rom_state_of spread_id hF K C Q order H w hw hl hb hr A hA R₀ D hD (by rw [one_mul]; exact h)

/-- What `forges_state` says, for a hash with values in `E` that `red` turns into challenges, each from at most `c` values. -/
theorem forges_state_of {E : Type} [Fintype E] {red : E → F} {c : ℕ} (hred : Spread red c) (hF : BigField F) (C : Crypto F G) (hC : ∀ i, C.g i = 0) (K : WireCodec F G) (Q : G)
    (order : List (ProverQuery F G) → List ℕ) (R₀ : List Byte → E) (hbig : c * 20000 < Fintype.card E) (a : Bytes 32) :
    ∃ (H : Hash64) (db : MemoryDb F G) (root : G) (A : Prog (List Byte) F (StateClaim F G)) (D : Finset (List Byte)),
      stateWrites H [] = .ok [] ∧ build C [] = .ok db ∧ Trie.rootCommitment db = .ok root ∧ A.Within 11 ∧
      (∀ s : List Byte, s.length ≤ 99 * (36 * 1) + 192 → s ∈ D) ∧
      (11 + 11) * (c * (513 + 36 * 1 + 2 * (11 + 11))) * Fintype.card E ^ D.card <
        Fintype.card E * Fintype.card {R : D → E // ForgesState K C Q order H [] root 1 A (fun s => red (over R₀ R s))} := by
  obtain ⟨db, root, A, D, hb, hr, hA, ho, hD, h⟩ := forges_zero_of (m := 36 * 1) hred (by norm_num) hF C hC K Q order R₀ (lt_of_le_of_lt (Nat.mul_le_mul_left c (by norm_num)) hbig)
  let f : VerkleProof G (MultiProof F G) × List Key × List (Option Value) → Prog (List Byte) F (StateClaim F G) :=
    fun o => .ret (o.1, [(a, .code 133)], o.2.2)
  have hkey : slotKey (fun _ => soloKey) (a, Item.code 133) = soloKey := by
    show mkKey soloKey.stem (Fin.ofNat 256 (128 + 133)) = soloKey
    decide +kernel
  refine ⟨fun _ => soloKey, db, root, A.bind f, D, rfl, hb, hr, Prog.Within.bind (f := f) (n := 0) (fun _ => trivial) hA, hD,
    lt_of_lt_of_le h (Nat.mul_le_mul_left _ (Fintype.card_subtype_mono _ _ fun R hR => ?_))⟩
  obtain ⟨h1, h4, ⟨uh, h5⟩, h6⟩ := hR
  obtain ⟨π, hπ⟩ := ho (fun s => red (over R₀ R s))
  unfold ForgesState
  rw [Prog.run_bind]
  rw [hπ] at h5 ⊢
  have hv : (Item.code 133).Valid := by show 133 < 2 ^ 248 - 64; norm_num
  have hk := slotKey_ok (fun _ => soloKey) (s := (a, Item.code 133)) hv
  rw [hkey] at hk
  simp only [f, Prog.run]
  refine ⟨by simpa using hv, by simp, rfl, le_rfl, ⟨[soloKey], uh, ?_, h5, (a, .code 133), valOf 7, soloKey, by simp, hk,
    (undisputed (values := [some (valOf 7)]) (k := soloKey) (v := some (valOf 7)) (by simp) solo_consistent (by simp)).2, by simp [lastState]⟩, ?_⟩
  · simp only [List.mapM_cons, List.mapM_nil, hk]
    rfl
  · rintro ⟨s, s', hs, hs', hne, -⟩
    rcases hs with e1 | ⟨v, hv⟩
    · rcases hs' with e2 | ⟨v, hv⟩
      · simp only [List.mem_singleton] at e1 e2
        rw [e1, e2] at hne
        exact hne rfl
      · simp at hv
    · simp at hv

/-- The hypotheses of `C71_random_hash_partial` are met if all generators are zero. -/
theorem forges_state [Fintype F] (hF : BigField F) (C : Crypto F G) (hC : ∀ i, C.g i = 0) (K : WireCodec F G) (Q : G)
    (order : List (ProverQuery F G) → List ℕ) (R₀ : List Byte → F) (hbig : 20000 < Fintype.card F) (a : Bytes 32) :
    ∃ (H : Hash64) (db : MemoryDb F G) (root : G) (A : Prog (List Byte) F (StateClaim F G)) (D : Finset (List Byte)),
      stateWrites H [] = .ok [] ∧ build C [] = .ok db ∧ Trie.rootCommitment db = .ok root ∧ A.Within 11 ∧
      (∀ s : List Byte, s.length ≤ 99 * (36 * 1) + 192 → s ∈ D) ∧
      (11 + 11) * (513 + 36 * 1 + 2 * (11 + 11)) * Fintype.card F ^ D.card <
        Fintype.card F * Fintype.card {R : D → F // ForgesState K C Q order H [] root 1 A (over R₀ R)} := by
  have h := forges_state_of spread_id hF C hC K Q order R₀ (by rw [one_mul]; exact hbig) a
  simp only [one_mul] at h
  exact h

end
end Verif.Props
