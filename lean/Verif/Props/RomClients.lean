import Verif.Props.Rom
import Verif.Props.UpdateSound
import Verif.Props.Java

/-!
# C66 for the users of trie proofs

Programs that output proofs with new values for the stateless updater, execution witnesses for `verify_execution_witness`, or
arguments of the Java function `verifyPreStateRoot`.
-/

set_option autoImplicit false
set_option linter.unusedSectionVars false

namespace Verif.Props
open Verif Verif.Spec Verif.Trie Verif.Proof Verif.Ipa Verif.Wire Verif.Ffi
open scoped Classical

variable {F G : Type} [Field F] [DecidableEq F] [AddCommGroup G] [DecidableEq G] [Module F G]

/-! ### The stateless updater -/

/-- The output of a program, a proof with keys, old and new values, makes `verify_and_update` return a root although an old value
of a written key is not the stored one, or the root is not that of the trie after inserting the new values.  There is one old
value per key, the hint is consistent at the stems of the written keys and there are at most `qmax` queries. -/
def ForgesUpdate (K : WireCodec F G) (C : Crypto F G) (Q : G) (order : List (ProverQuery F G) → List ℕ)
    (ord : Path → List Stem → List Stem) (db : MemoryDb F G) (root : G) (qmax : ℕ)
    (A : Prog (List Byte) F ((VerkleProof G (MultiProof F G) × List Key × List (Option Value)) × List (Option Value)))
    (H : List Byte → F) : Prop :=
  let o := A.run H
  o.1.2.1.length = o.1.2.2.length ∧
  (∀ k v, (k, some v) ∈ o.1.2.1.zip o.2 → ConsistentAt o.1.1.hint o.1.2.1 k.stem) ∧
  (∃ qs uh, createVerifierQueries C o.1.1.hint o.1.1.comms o.1.2.1 o.1.2.2 root = .ok (some (qs, uh)) ∧ qs.length ≤ qmax) ∧
  ∃ r, verifyAndUpdate C (multiOpener ⟨K, H⟩ C Q order) ord o.1.1 root o.1.2.1 o.1.2.2 o.2 = .ok (.ok r) ∧
    ¬ ((∀ k v w, ((k, v), some w) ∈ (o.1.2.1.zip o.1.2.2).zip o.2 → Trie.get db k = v) ∧
      ∃ db', Trie.insert C db (writes o.1.2.1 o.2) = .ok db' ∧ Trie.rootCommitment db' = .ok r)

/-- What `rom_trie_at_of` asks of a winning output. -/
theorem ForgesUpdate.wins {K : WireCodec F G} {C : Crypto F G} {Q : G} {order : List (ProverQuery F G) → List ℕ} (hF : BigField F)
    {ord : Path → List Stem → List Stem} (hord : ∀ p l, (ord p l).Perm l)
    {l : List (Key × Value)} {db : MemoryDb F G} (hb : build C l = .ok db) {root : G} (hr : Trie.rootCommitment db = .ok root) {qmax : ℕ}
    {A : Prog (List Byte) F ((VerkleProof G (MultiProof F G) × List Key × List (Option Value)) × List (Option Value))} {H : List Byte → F}
    (hH : ForgesUpdate K C Q order ord db root qmax A H) :
    ∃ qs uh, createVerifierQueries C (A.run H).1.1.hint (A.run H).1.1.comms (A.run H).1.2.1 (A.run H).1.2.2 root = .ok (some (qs, uh)) ∧
      qs.length ≤ qmax ∧
      (∃ uh, check C (multiOpener ⟨K, H⟩ C Q order) (A.run H).1.1 (A.run H).1.2.1 (A.run H).1.2.2 root = .ok (true, uh)) ∧
      ∀ vec, Extracts C vec qs → ProofBreak C (lastWrite l) vec qs := by
  obtain ⟨h1, h2, ⟨qs, uh, h3, h4⟩, r, h5, h6⟩ := hH
  rw [build_iff] at hb
  subst hb
  rw [rootCommitment_spec] at hr
  have hr : branchComm C (lastWrite l) [] = root := by simpa using hr
  subst hr
  simp only [verifyAndUpdate, check, h3, bind, Except.bind] at h5
  cases hck : (multiOpener ⟨K, H⟩ C Q order).check (A.run H).1.1.proof qs with
  | error e => rw [hck] at h5; simp at h5
  | ok b =>
    rw [hck] at h5
    cases b with
    | false => simp at h5
    | true =>
      simp only [Bool.true_eq_false, if_false, unwrap] at h5
      refine ⟨qs, uh, h3, h4, ⟨some uh, by simp only [check, h3, bind, Except.bind, hck]⟩, fun vec hext => ?_⟩
      by_contra hnb
      obtain ⟨h7, h8⟩ := updateRoot_accepted hF h3 h1 h2 hext hnb hord h5
      exact h6 ⟨fun k o v h => (h8 k o v h).symm, _, insert_spec _ _ _, by rw [rootCommitment_spec, h7]⟩

/-- What `C66_update_random_oracle_partial` says, for a hash with values in `E` that `red` turns into challenges, each from at most `B` values.  The
output of a run, `.ret (A.run H)`, wins for the challenges of the run. -/
theorem rom_update_of {E : Type} [Fintype E] {red : E → F} {B : ℕ} (hred : Spread red B) {N qmax : ℕ} (hF : BigField F) (K : WireCodec F G) (C : Crypto F G) (Q : G)
    (order : List (ProverQuery F G) → List ℕ) {ord : Path → List Stem → List Stem} (hord : ∀ p l, (ord p l).Perm l)
    (l : List (Key × Value)) {db : MemoryDb F G} (hb : build C l = .ok db) {root : G} (hr : Trie.rootCommitment db = .ok root)
    (A : Prog (List Byte) E ((VerkleProof G (MultiProof F G) × List Key × List (Option Value)) × List (Option Value)))
    (hA : A.Within N) (H₀ : List Byte → E) (D : Finset (List Byte)) (hD : ∀ s : List Byte, s.length ≤ 99 * qmax + 192 → s ∈ D)
    (h : (N + 11) * (B * (513 + qmax + 2 * (N + 11))) * Fintype.card E ^ D.card <
      Fintype.card E * Fintype.card {H : D → E // ForgesUpdate K C Q order ord db root qmax (.ret (A.run (over H₀ H))) (fun s => red (over H₀ H s))}) :
    ∃ (qs : List (VerifierQuery F G)) (X : MultiTree F G qs.length (255 + qs.length) 8), X.Distinct 256 ∧
      (∀ i j u, ∀ p ∈ (X.ipa i j u).leaves, ∃ H : D → E, ForgesUpdate K C Q order ord db root qmax (.ret (A.run (over H₀ H))) (fun s => red (over H₀ H s)) ∧
        MakesQueries C root (A.run (over H₀ H)).1 qs ∧ (A.run (over H₀ H)).1.1.proof = ⟨p.2, X.D i⟩ ∧
        drawn ⟨K, fun s => red (over H₀ H s)⟩ (newTranscript (lbl "vt")) ⟨p.2, X.D i⟩ qs = (X.r i, X.t i j, X.w i j u, p.1)) ∧
      ((∃ ρ ∈ X.rels qs.get 256, ρ ≠ 0 ∧ ∑ i : Fin 256, ρ.1 i • C.g i + ρ.2 • Q = 0) ∨
      ProofBreak C (lastWrite l) (vecOf qs X) qs) :=
  rom_trie_of hred hF K C Q order l root A hA Prod.fst (fun H => ForgesUpdate K C Q order ord db root qmax (.ret (A.run H)) (fun s => red (H s)))
    (fun _ hH => hH.wins hF hord hb hr) H₀ D hD h

/-- C66 for stateless updates (partial: with the conditions of `C63_accepted_update_partial` on the hint).  Let a program ask the
hash at most `N` times and output a proof with keys, old and new values.  If `verify_and_update` is led to a wrong root for more
than the part `(N + 11) (513 + q + 2 (N + 11)) / |F|` of the hashes, there are runs of the program, all with the same queries,
from which a non-trivial relation between the generators and `Q` or vectors breaking the commitments of the trie are computed. -/
theorem C66_update_random_oracle_partial [Fintype F] {N qmax : ℕ} (hF : BigField F) (K : WireCodec F G) (C : Crypto F G) (Q : G)
    (order : List (ProverQuery F G) → List ℕ) {ord : Path → List Stem → List Stem} (hord : ∀ p l, (ord p l).Perm l)
    (l : List (Key × Value)) {db : MemoryDb F G} (hb : build C l = .ok db) {root : G} (hr : Trie.rootCommitment db = .ok root)
    (A : Prog (List Byte) F ((VerkleProof G (MultiProof F G) × List Key × List (Option Value)) × List (Option Value)))
    (hA : A.Within N) (H₀ : List Byte → F) (D : Finset (List Byte)) (hD : ∀ s : List Byte, s.length ≤ 99 * qmax + 192 → s ∈ D)
    (h : (N + 11) * (513 + qmax + 2 * (N + 11)) * Fintype.card F ^ D.card <
      Fintype.card F * Fintype.card {H : D → F // ForgesUpdate K C Q order ord db root qmax A (over H₀ H)}) :
    ∃ (qs : List (VerifierQuery F G)) (X : MultiTree F G qs.length (255 + qs.length) 8), X.Distinct 256 ∧
      (∀ i j u, ∀ p ∈ (X.ipa i j u).leaves, ∃ H : D → F, ForgesUpdate K C Q order ord db root qmax A (over H₀ H) ∧
        MakesQueries C root (A.run (over H₀ H)).1 qs ∧ (A.run (over H₀ H)).1.1.proof = ⟨p.2, X.D i⟩ ∧
        drawn ⟨K, over H₀ H⟩ (newTranscript (lbl "vt")) ⟨p.2, X.D i⟩ qs = (X.r i, X.t i j, X.w i j u, p.1)) ∧
      ((∃ ρ ∈ X.rels qs.get 256, ρ ≠ 0 ∧ ∑ i : Fin 256, ρ.1 i • C.g i + ρ.2 • Q = 0) ∨
      ProofBreak C (lastWrite l) (vecOf qs X) qs) :=
  rom_update_of spread_id hF K C Q order hord l hb hr A hA H₀ D hD (by rw [one_mul]; exact h)

/-! ### Execution witnesses -/

/-- The output of a program, an execution witness, is accepted by `verify_execution_witness` for the root and makes a false claim
that it does not dispute itself.  There are at most `qmax` queries. -/
def ForgesWitness (K : WireCodec F G) (C : Crypto F G) (Q : G) (order : List (ProverQuery F G) → List ℕ) (l : List (Key × Value))
    (db : MemoryDb F G) (root : G) (rootHex : List Char) (qmax : ℕ) (A : Prog (List Byte) F Json.ExecutionWitness)
    (H : List Byte → F) : Prop :=
  verifyExecutionWitness ⟨K, H⟩ C Q order rootHex (A.run H) = .ok true ∧
  ∃ W : Claims F G, States K (A.run H) W ∧
    (∃ qs uh, createVerifierQueries C W.toProof.hint W.toProof.comms W.keys W.current root = .ok (some (qs, uh)) ∧
      qs.length ≤ qmax) ∧
    ∃ k v, (k, v) ∈ W.keys.zip W.current ∧ Undisputed W.toProof.hint W.keys W.current k v ∧ FalseClaim l db W.toProof.hint W.keys k v

theorem Claims.keys_length (W : Claims F G) : W.keys.length = W.current.length := by
  simp [Claims.keys, Claims.current, List.length_flatMap]

theorem States.unique {K : WireCodec F G} {J : Json.ExecutionWitness} {W W' : Claims F G} (h : States K J W) (h' : States K J W') :
    W.toProof = W'.toProof ∧ W.keys = W'.keys ∧ W.current = W'.current := by
  obtain ⟨p, h1, h2⟩ := (C51_conversion K J W.toProof ⟨W.keys, W.current, W.new⟩).2 ⟨W, h, rfl, rfl⟩
  obtain ⟨p', h1', h2'⟩ := (C51_conversion K J W'.toProof ⟨W'.keys, W'.current, W'.new⟩).2 ⟨W', h', rfl, rfl⟩
  rw [h1] at h1'
  cases h1'
  rw [h2] at h2'
  simp only [Except.ok.injEq, Option.some.injEq, Prod.mk.injEq, KeysValues.mk.injEq] at h2'
  exact ⟨h2'.1, h2'.2.1, h2'.2.2.1⟩

theorem exists_choice {α β : Type} [Nonempty β] (R : α → β → Prop) : ∃ f : α → β, ∀ a b, R a b → R a (f a) :=
  ⟨fun a => if h : ∃ b, R a b then h.choose else Classical.arbitrary β, fun a b h => by
    have h' : ∃ b, R a b := ⟨b, h⟩
    simp only [dif_pos h']
    exact h'.choose_spec⟩

/-- What `C66_witness_random_oracle_partial` says, for a hash with values in `E` that `red` turns into challenges, each from at most `B` values.  The
output of a run, `.ret (A.run H)`, wins for the challenges of the run. -/
theorem rom_witness_of {E : Type} [Fintype E] {red : E → F} {B : ℕ} (hred : Spread red B) {N qmax : ℕ} (hF : BigField F) (K : WireCodec F G) (C : Crypto F G) (Q : G)
    (order : List (ProverQuery F G) → List ℕ) (l : List (Key × Value)) {db : MemoryDb F G} (hb : build C l = .ok db) {root : G}
    (hr : Trie.rootCommitment db = .ok root) {rootHex : List Char} (hhex : SpellsElem K rootHex root)
    (A : Prog (List Byte) E Json.ExecutionWitness) (hA : A.Within N) (H₀ : List Byte → E) (D : Finset (List Byte))
    (hD : ∀ s : List Byte, s.length ≤ 99 * qmax + 192 → s ∈ D)
    (h : (N + 11) * (B * (513 + qmax + 2 * (N + 11))) * Fintype.card E ^ D.card <
      Fintype.card E * Fintype.card {H : D → E // ForgesWitness K C Q order l db root rootHex qmax (.ret (A.run (over H₀ H))) (fun s => red (over H₀ H s))}) :
    ∃ (qs : List (VerifierQuery F G)) (X : MultiTree F G qs.length (255 + qs.length) 8), X.Distinct 256 ∧
      (∀ i j u, ∀ p ∈ (X.ipa i j u).leaves, ∃ H : D → E, ForgesWitness K C Q order l db root rootHex qmax (.ret (A.run (over H₀ H))) (fun s => red (over H₀ H s)) ∧
        (∃ W : Claims F G, States K (A.run (over H₀ H)) W ∧ MakesQueries C root (W.toProof, W.keys, W.current) qs ∧
          W.proof = ⟨p.2, X.D i⟩) ∧
        drawn ⟨K, fun s => red (over H₀ H s)⟩ (newTranscript (lbl "vt")) ⟨p.2, X.D i⟩ qs = (X.r i, X.t i j, X.w i j u, p.1)) ∧
      ((∃ ρ ∈ X.rels qs.get 256, ρ ≠ 0 ∧ ∑ i : Fin 256, ρ.1 i • C.g i + ρ.2 • Q = 0) ∨
      ProofBreak C (lastWrite l) (vecOf qs X) qs) := by
  have : Nonempty (Claims F G) := ⟨⟨[], [], [], [], ⟨⟨[], [], 0⟩, 0⟩⟩⟩
  obtain ⟨f, hf⟩ := exists_choice (States K : Json.ExecutionWitness → Claims F G → Prop)
  obtain ⟨qs, X, hX, h1, h2⟩ := rom_trie_of hred hF K C Q order l root A hA (fun J => ((f J).toProof, (f J).keys, (f J).current))
    (fun H => ForgesWitness K C Q order l db root rootHex qmax (.ret (A.run H)) (fun s => red (H s))) (fun H hH => by
      obtain ⟨h1, W, h2, ⟨qs, uh, h5, h6⟩, k, v, h7, h3, h8⟩ := hH
      simp only [Prog.run] at h1 h2
      obtain ⟨W', rt, e1, e2, e3⟩ := (C51_accepted ⟨K, fun s => red (H s)⟩ C Q order rootHex (A.run H)).1 h1
      have hfW := hf _ _ h2
      obtain ⟨u1, u2, u3⟩ := hfW.unique h2
      obtain ⟨u1', u2', u3'⟩ := h2.unique e1
      have hrt : rt = root := by
        obtain ⟨b, b1, b2, b3⟩ := e2
        obtain ⟨c, c1, c2, c3⟩ := hhex
        have : b = c := by
          rw [← C51_hex] at b2 c2
          rw [b2] at c2
          exact Except.ok.inj c2
        rw [this] at b3
        exact Option.some.inj (b3.symm.trans c3)
      simp only [u1, u2, u3]
      refine ⟨qs, uh, h5, h6, ?_, falseClaim_breaks hF hb hr W.keys_length h5 h7 h3 h8⟩
      rw [u1', u2', u3', ← hrt]
      exact e3) H₀ D hD h
  refine ⟨qs, X, hX, fun i j u p hp => ?_, h2⟩
  obtain ⟨H, e1, e0, e2, e3⟩ := h1 i j u p hp
  obtain ⟨_, W, e4, _⟩ := id e1
  exact ⟨H, e1, ⟨_, hf _ _ e4, e0, e2⟩, e3⟩

/-- C66 for execution witnesses (partial: with the conditions of `C21_accepted_claims_true_partial` on keys, hints and claims of
absence).  Let a program ask the hash at most `N` times and output an execution witness.  If `verify_execution_witness` accepts a
false claim for more than the part `(N + 11) (513 + q + 2 (N + 11)) / |F|` of the hashes, there are runs of the program, all with
the same queries, from which a non-trivial relation between the generators and `Q` or vectors breaking the commitments of the
trie are computed. -/
theorem C66_witness_random_oracle_partial [Fintype F] {N qmax : ℕ} (hF : BigField F) (K : WireCodec F G) (C : Crypto F G) (Q : G)
    (order : List (ProverQuery F G) → List ℕ) (l : List (Key × Value)) {db : MemoryDb F G} (hb : build C l = .ok db) {root : G}
    (hr : Trie.rootCommitment db = .ok root) {rootHex : List Char} (hhex : SpellsElem K rootHex root)
    (A : Prog (List Byte) F Json.ExecutionWitness) (hA : A.Within N) (H₀ : List Byte → F) (D : Finset (List Byte))
    (hD : ∀ s : List Byte, s.length ≤ 99 * qmax + 192 → s ∈ D)
    (h : (N + 11) * (513 + qmax + 2 * (N + 11)) * Fintype.card F ^ D.card <
      Fintype.card F * Fintype.card {H : D → F // ForgesWitness K C Q order l db root rootHex qmax A (over H₀ H)}) :
    ∃ (qs : List (VerifierQuery F G)) (X : MultiTree F G qs.length (255 + qs.length) 8), X.Distinct 256 ∧
      (∀ i j u, ∀ p ∈ (X.ipa i j u).leaves, ∃ H : D → F, ForgesWitness K C Q order l db root rootHex qmax A (over H₀ H) ∧
        (∃ W : Claims F G, States K (A.run (over H₀ H)) W ∧ MakesQueries C root (W.toProof, W.keys, W.current) qs ∧
          W.proof = ⟨p.2, X.D i⟩) ∧
        drawn ⟨K, over H₀ H⟩ (newTranscript (lbl "vt")) ⟨p.2, X.D i⟩ qs = (X.r i, X.t i j, X.w i j u, p.1)) ∧
      ((∃ ρ ∈ X.rels qs.get 256, ρ ≠ 0 ∧ ∑ i : Fin 256, ρ.1 i • C.g i + ρ.2 • Q = 0) ∨
      ProofBreak C (lastWrite l) (vecOf qs X) qs) :=
  rom_witness_of spread_id hF K C Q order l hb hr hhex A hA H₀ D hD (by rw [one_mul]; exact h)

/-! ### The Java function -/

/-- The output of a program, arguments of the Java function `verifyPreStateRoot`, is accepted, names the root and makes a false
claim that it does not dispute itself.  There are at most `qmax` queries. -/
def ForgesJava (K : WireCodec F G) (C : Crypto F G) (Q : G) (order : List (ProverQuery F G) → List ℕ) (l : List (Key × Value))
    (db : MemoryDb F G) (root : G) (qmax : ℕ) (A : Prog (List Byte) F PreStateArgs) (H : List Byte → F) : Prop :=
  verifyPreStateRoot ⟨K, H⟩ C Q order (A.run H) = .ok true ∧
  ∃ W : Presented F G, (Presents K (A.run H) W ∧ W.root = root ∧
    (∃ qs uh, createVerifierQueries C W.toProof.hint W.toProof.comms (W.pairs.map (·.1)) (W.pairs.map (·.2)) root =
      .ok (some (qs, uh)) ∧ qs.length ≤ qmax) ∧
    ∃ x ∈ W.pairs, Undisputed W.toProof.hint (W.pairs.map (·.1)) (W.pairs.map (·.2)) x.1 x.2 ∧
      FalseClaim l db W.toProof.hint (W.pairs.map (·.1)) x.1 x.2)

/-- What `C66_java_random_oracle_partial` says, for a hash with values in `E` that `red` turns into challenges, each from at most `B` values.  The
output of a run, `.ret (A.run H)`, wins for the challenges of the run. -/
theorem rom_java_of {E : Type} [Fintype E] {red : E → F} {B : ℕ} (hred : Spread red B) {N qmax : ℕ} (hF : BigField F) (K : WireCodec F G) (C : Crypto F G) (Q : G)
    (order : List (ProverQuery F G) → List ℕ) (l : List (Key × Value)) {db : MemoryDb F G} (hb : build C l = .ok db) {root : G}
    (hr : Trie.rootCommitment db = .ok root) (A : Prog (List Byte) E PreStateArgs) (hA : A.Within N) (H₀ : List Byte → E)
    (D : Finset (List Byte)) (hD : ∀ s : List Byte, s.length ≤ 99 * qmax + 192 → s ∈ D)
    (h : (N + 11) * (B * (513 + qmax + 2 * (N + 11))) * Fintype.card E ^ D.card <
      Fintype.card E * Fintype.card {H : D → E // ForgesJava K C Q order l db root qmax (.ret (A.run (over H₀ H))) (fun s => red (over H₀ H s))}) :
    ∃ (qs : List (VerifierQuery F G)) (X : MultiTree F G qs.length (255 + qs.length) 8), X.Distinct 256 ∧
      (∀ i j u, ∀ p ∈ (X.ipa i j u).leaves, ∃ H : D → E, ForgesJava K C Q order l db root qmax (.ret (A.run (over H₀ H))) (fun s => red (over H₀ H s)) ∧
        (∃ W : Presented F G, Presents K (A.run (over H₀ H)) W ∧
          MakesQueries C root (W.toProof, W.pairs.map (·.1), W.pairs.map (·.2)) qs ∧ W.proof = ⟨p.2, X.D i⟩) ∧
        drawn ⟨K, fun s => red (over H₀ H s)⟩ (newTranscript (lbl "vt")) ⟨p.2, X.D i⟩ qs = (X.r i, X.t i j, X.w i j u, p.1)) ∧
      ((∃ ρ ∈ X.rels qs.get 256, ρ ≠ 0 ∧ ∑ i : Fin 256, ρ.1 i • C.g i + ρ.2 • Q = 0) ∨
      ProofBreak C (lastWrite l) (vecOf qs X) qs) := by
  have : Nonempty (Presented F G) := ⟨⟨[], [], [], [], ⟨⟨[], [], 0⟩, 0⟩, 0⟩⟩
  obtain ⟨f, hf⟩ := exists_choice fun (o : PreStateArgs) (W : Presented F G) => Presents K o W ∧ W.root = root ∧
    (∃ qs uh, createVerifierQueries C W.toProof.hint W.toProof.comms (W.pairs.map (·.1)) (W.pairs.map (·.2)) root =
      .ok (some (qs, uh)) ∧ qs.length ≤ qmax) ∧
    ∃ x ∈ W.pairs, Undisputed W.toProof.hint (W.pairs.map (·.1)) (W.pairs.map (·.2)) x.1 x.2 ∧
      FalseClaim l db W.toProof.hint (W.pairs.map (·.1)) x.1 x.2
  obtain ⟨qs, X, hX, h1, h2⟩ := rom_trie_of hred hF K C Q order l root A hA
    (fun o => ((f o).toProof, (f o).pairs.map (·.1), (f o).pairs.map (·.2)))
    (fun H => ForgesJava K C Q order l db root qmax (.ret (A.run H)) (fun s => red (H s))) (fun H hH => by
      obtain ⟨h1, W, h2⟩ := hH
      simp only [Prog.run] at h1 h2
      obtain ⟨h2, h3, ⟨qs, uh, h6, h7⟩, x, h8, h4, h9⟩ := hf _ _ h2
      refine ⟨qs, uh, h6, h7, ?_, falseClaim_breaks hF hb hr (by simp) h6 (k := x.1) (v := x.2) ?_ h4 h9⟩
      · rw [C57_outcome ⟨K, fun s => red (H s)⟩ C Q order h2, h3] at h1
        simp only
        cases hc : check C (multiOpener ⟨K, fun s => red (H s)⟩ C Q order) (f (A.run H)).toProof ((f (A.run H)).pairs.map (·.1))
            ((f (A.run H)).pairs.map (·.2)) root with
        | error e => rw [hc] at h1; cases h1
        | ok r =>
          obtain ⟨b, uh'⟩ := r
          rw [hc] at h1
          simp only [Except.map, Except.ok.injEq] at h1
          exact ⟨uh', by rw [h1]⟩
      · rw [List.zip_map']
        exact List.mem_map.mpr ⟨x, h8, rfl⟩) H₀ D hD h
  refine ⟨qs, X, hX, fun i j u p hp => ?_, h2⟩
  obtain ⟨H, e1, e0, e2, e3⟩ := h1 i j u p hp
  obtain ⟨_, W, e4⟩ := id e1
  exact ⟨H, e1, ⟨_, (hf _ _ e4).1, e0, e2⟩, e3⟩

/-- C66 for the Java function (partial: as `C66_witness_random_oracle_partial`). -/
theorem C66_java_random_oracle_partial [Fintype F] {N qmax : ℕ} (hF : BigField F) (K : WireCodec F G) (C : Crypto F G) (Q : G)
    (order : List (ProverQuery F G) → List ℕ) (l : List (Key × Value)) {db : MemoryDb F G} (hb : build C l = .ok db) {root : G}
    (hr : Trie.rootCommitment db = .ok root) (A : Prog (List Byte) F PreStateArgs) (hA : A.Within N) (H₀ : List Byte → F)
    (D : Finset (List Byte)) (hD : ∀ s : List Byte, s.length ≤ 99 * qmax + 192 → s ∈ D)
    (h : (N + 11) * (513 + qmax + 2 * (N + 11)) * Fintype.card F ^ D.card <
      Fintype.card F * Fintype.card {H : D → F // ForgesJava K C Q order l db root qmax A (over H₀ H)}) :
    ∃ (qs : List (VerifierQuery F G)) (X : MultiTree F G qs.length (255 + qs.length) 8), X.Distinct 256 ∧
      (∀ i j u, ∀ p ∈ (X.ipa i j u).leaves, ∃ H : D → F, ForgesJava K C Q order l db root qmax A (over H₀ H) ∧
        (∃ W : Presented F G, Presents K (A.run (over H₀ H)) W ∧
          MakesQueries C root (W.toProof, W.pairs.map (·.1), W.pairs.map (·.2)) qs ∧ W.proof = ⟨p.2, X.D i⟩) ∧
        drawn ⟨K, over H₀ H⟩ (newTranscript (lbl "vt")) ⟨p.2, X.D i⟩ qs = (X.r i, X.t i j, X.w i j u, p.1)) ∧
      ((∃ ρ ∈ X.rels qs.get 256, ρ ≠ 0 ∧ ∑ i : Fin 256, ρ.1 i • C.g i + ρ.2 • Q = 0) ∨
      ProofBreak C (lastWrite l) (vecOf qs X) qs) :=
  rom_java_of spread_id hF K C Q order l hb hr A hA H₀ D hD (by rw [one_mul]; exact h)

/-! ### Concrete cases -/

/-- What happens whenever the one does happens as often. -/
theorem win_mono {E : Type} [Fintype E] {red : E → F} {H₀ : List Byte → E} {D : Finset (List Byte)}
    {b : ℕ} {P R : (List Byte → F) → Prop} (hPR : ∀ H, P H → R H)
    (h : b * Fintype.card E ^ D.card < Fintype.card E * Fintype.card {H : D → E // P (fun s => red (over H₀ H s))}) :
    b * Fintype.card E ^ D.card < Fintype.card E * Fintype.card {H : D → E // R (fun s => red (over H₀ H s))} :=
  h.trans_le (Nat.mul_le_mul_left _ (Fintype.card_subtype_mono _ _ fun _ hH => hPR _ hH))

/-- What `clients_zero` says, for a hash with values in `E` that `red` turns into challenges, each from at most `c` values. -/
theorem clients_zero_of {E : Type} [Fintype E] {red : E → F} {c : ℕ} (hred : Spread red c) (hF : BigField F) (C : Crypto F G) (hC : ∀ i, C.g i = 0) (K : WireCodec F G) (Q : G)
    (order : List (ProverQuery F G) → List ℕ) (H₀ : List Byte → E) (hbig : c * 20000 < Fintype.card E) :
    ∃ (db : MemoryDb F G) (root : G) (rootHex : List Char)
      (A₁ : Prog (List Byte) F ((VerkleProof G (MultiProof F G) × List Key × List (Option Value)) × List (Option Value)))
      (A₂ : Prog (List Byte) F Json.ExecutionWitness) (A₃ : Prog (List Byte) F PreStateArgs) (D : Finset (List Byte)),
      build C [] = .ok db ∧ Trie.rootCommitment db = .ok root ∧ SpellsElem K rootHex root ∧
      A₁.Within 11 ∧ A₂.Within 11 ∧ A₃.Within 11 ∧
      (∀ H, ∃ π, A₁.run H = ((⟨⟨[1], [.present], []⟩, [stemComm C (lastWrite soloHist) soloKey.stem,
        suffixComm C (lastWrite soloHist) soloKey.stem 0], π⟩, [soloKey], [some (valOf 7)]), [some (valOf 8)])) ∧
      (∀ s : List Byte, s.length ≤ 99 * 6 + 192 → s ∈ D) ∧
      (11 + 11) * (c * (513 + 6 + 2 * (11 + 11))) * Fintype.card E ^ D.card < Fintype.card E *
        Fintype.card {H : D → E // ForgesUpdate K C Q order (fun _ l => l) db root 6 A₁ (fun s => red (over H₀ H s))} ∧
      (11 + 11) * (c * (513 + 6 + 2 * (11 + 11))) * Fintype.card E ^ D.card < Fintype.card E *
        Fintype.card {H : D → E // ForgesWitness K C Q order [] db root rootHex 6 A₂ (fun s => red (over H₀ H s))} ∧
      (11 + 11) * (c * (513 + 6 + 2 * (11 + 11))) * Fintype.card E ^ D.card < Fintype.card E *
        Fintype.card {H : D → E // ForgesJava K C Q order [] db root 6 A₃ (fun s => red (over H₀ H s))} := by
  obtain ⟨db, root, A, D, hb, hr, hA, ho, hD, h⟩ := forges_zero_of (m := 6) hred le_rfl hF C hC K Q order H₀ (lt_of_le_of_lt (Nat.mul_le_mul_left c (by norm_num)) hbig)
  obtain ⟨rootHex, hs⟩ := exists_spelling (K.encE root)
  have hhex : SpellsElem K rootHex root := ⟨_, K.encE_len root, hs, K.dec_encE root⟩
  let W : MultiProof F G → Claims F G := fun π => ⟨[(soloKey.stem, [(soloKey.suffix, some (valOf 7), none)])], [], [(1, .present)],
    [stemComm C (lastWrite soloHist) soloKey.stem, suffixComm C (lastWrite soloHist) soloKey.stem 0], π⟩
  let W' : MultiProof F G → Presented F G := fun π => ⟨[(soloKey, some (valOf 7))], [], [(1, .present)],
    [stemComm C (lastWrite soloHist) soloKey.stem, suffixComm C (lastWrite soloHist) soloKey.stem 0], π, root⟩
  choose J hJ using fun π => C51_expressible K (W π) (by simp [W])
  choose B hB using fun π => C57_expressible K (W' π) (by simp [W'])
  have hk : ∀ π, (W π).keys = [soloKey] := fun π => by simp [Claims.keys, W, mkKey_stem_suffix]
  let f₁ : VerkleProof G (MultiProof F G) × List Key × List (Option Value) → Prog (List Byte) F
    ((VerkleProof G (MultiProof F G) × List Key × List (Option Value)) × List (Option Value)) := fun o => .ret (o, [some (valOf 8)])
  let f₂ : VerkleProof G (MultiProof F G) × List Key × List (Option Value) → Prog (List Byte) F Json.ExecutionWitness :=
    fun o => .ret (J o.1.proof)
  let f₃ : VerkleProof G (MultiProof F G) × List Key × List (Option Value) → Prog (List Byte) F PreStateArgs :=
    fun o => .ret (B o.1.proof)
  refine ⟨db, root, rootHex, A.bind f₁, A.bind f₂, A.bind f₃, D, hb, hr, hhex,
    Prog.Within.bind (f := f₁) (n := 0) (fun _ => trivial) hA, Prog.Within.bind (f := f₂) (n := 0) (fun _ => trivial) hA,
    Prog.Within.bind (f := f₃) (n := 0) (fun _ => trivial) hA, fun H => (ho H).imp fun π hπ => by
      rw [Prog.run_bind, hπ]; rfl, hD,
    win_mono (fun H hH => ?_) h, win_mono (fun H hH => ?_) h, win_mono (fun H hH => ?_) h⟩
  · obtain ⟨π, hπ⟩ := ho H
    simp only [ForgesClaim, hπ] at hH
    obtain ⟨e1, ⟨qs, uh, e4, e5⟩, ⟨u, e6⟩, k, v, e7, e2, e8⟩ := hH
    unfold ForgesUpdate
    rw [Prog.run_bind]
    simp only [f₁, Prog.run, hπ]
    refine ⟨e1, fun _ _ _ => solo_consistent.consistentAt _, ⟨qs, uh, e4, e5⟩, ?_⟩
    have hz : ∀ m : KV, branchComm C m [] = 0 := by
      intro m
      show branchCommAux C m (31 + 1) [] = 0
      rw [branchCommAux]
      exact Finset.sum_eq_zero fun i _ => by rw [hC, smul_zero]
    have hr0 : branchComm C (lastWrite soloHist) [] = root := by
      rw [hz]
      rw [build_iff] at hb
      subst hb
      rw [rootCommitment_spec, hz] at hr
      exact Except.ok.inj hr
    have hq := solo_queries C
    rw [hr0] at hq
    have hu : uh = ⟨[(soloKey.stem, (.present, 1))], [([], root), ([1], stemComm C (lastWrite soloHist) soloKey.stem),
        ([1, 2], suffixComm C (lastWrite soloHist) soloKey.stem 0)], []⟩ := by
      rw [hq] at e4
      exact (Prod.mk.inj (Option.some.inj (Except.ok.inj e4))).2.symm
    have hu' : u = some uh := by
      simp only [check, e4, bind, Except.bind] at e6
      cases hc : (multiOpener ⟨K, H⟩ C Q order).check π qs with
      | error e => rw [hc] at e6; cases e6
      | ok b =>
        rw [hc] at e6
        simpa using (Prod.mk.inj (Except.ok.inj e6)).2.symm
    obtain ⟨r, hr'⟩ := solo_update C root (stemComm C (lastWrite soloHist) soloKey.stem)
      (suffixComm C (lastWrite soloHist) soloKey.stem 0) (valOf 8)
    refine ⟨r, ?_, fun h' => ?_⟩
    · simp only [verifyAndUpdate, e6, hu', hu, bind, Except.bind, Bool.true_eq_false, if_false, unwrap, hr']
    · have h9 := h'.1 soloKey (some (valOf 7)) (valOf 8) (by simp)
      rw [build_iff] at hb
      subst hb
      have h9 : lastWrite [] soloKey = some (valOf 7) := h9
      simp [lastWrite] at h9
  · obtain ⟨π, hπ⟩ := ho H
    simp only [ForgesClaim, hπ] at hH
    obtain ⟨e1, ⟨qs, uh, e4, e5⟩, ⟨u, e6⟩, k, v, e7, e2, e8⟩ := hH
    unfold ForgesWitness
    rw [Prog.run_bind]
    simp only [f₂, Prog.run, hπ]
    refine ⟨(C51_accepted ⟨K, H⟩ C Q order rootHex _).2 ⟨W π, root, hJ π, hhex, ?_⟩, W π, hJ π, ⟨qs, uh, ?_, e5⟩, k, v, ?_, ?_, ?_⟩ <;>
      (try rw [hk])
    · exact ⟨u, e6⟩
    · exact e4
    · exact e7
    · exact e2
    · exact e8
  · obtain ⟨π, hπ⟩ := ho H
    simp only [ForgesClaim, hπ] at hH
    obtain ⟨e1, ⟨qs, uh, e4, e5⟩, ⟨u, e6⟩, k, v, e7, e2, e8⟩ := hH
    unfold ForgesJava
    rw [Prog.run_bind]
    simp only [f₃, Prog.run, hπ]
    refine ⟨(C57_accepted_partial ⟨K, H⟩ C Q order _).2 ⟨W' π, hB π, u, e6⟩, W' π, hB π, rfl, ⟨qs, uh, e4, e5⟩,
      (k, v), by simpa [W'] using e7, e2, e8⟩

/-- If all generators are zero, false claims about the empty trie pass all three: the hypotheses of the theorems are met. -/
theorem clients_zero [Fintype F] (hF : BigField F) (C : Crypto F G) (hC : ∀ i, C.g i = 0) (K : WireCodec F G) (Q : G)
    (order : List (ProverQuery F G) → List ℕ) (H₀ : List Byte → F) (hbig : 20000 < Fintype.card F) :
    ∃ (db : MemoryDb F G) (root : G) (rootHex : List Char)
      (A₁ : Prog (List Byte) F ((VerkleProof G (MultiProof F G) × List Key × List (Option Value)) × List (Option Value)))
      (A₂ : Prog (List Byte) F Json.ExecutionWitness) (A₃ : Prog (List Byte) F PreStateArgs) (D : Finset (List Byte)),
      build C [] = .ok db ∧ Trie.rootCommitment db = .ok root ∧ SpellsElem K rootHex root ∧
      A₁.Within 11 ∧ A₂.Within 11 ∧ A₃.Within 11 ∧
      (∀ H, ∃ π, A₁.run H = ((⟨⟨[1], [.present], []⟩, [stemComm C (lastWrite soloHist) soloKey.stem,
        suffixComm C (lastWrite soloHist) soloKey.stem 0], π⟩, [soloKey], [some (valOf 7)]), [some (valOf 8)])) ∧
      (∀ s : List Byte, s.length ≤ 99 * 6 + 192 → s ∈ D) ∧
      (11 + 11) * (513 + 6 + 2 * (11 + 11)) * Fintype.card F ^ D.card < Fintype.card F *
        Fintype.card {H : D → F // ForgesUpdate K C Q order (fun _ l => l) db root 6 A₁ (over H₀ H)} ∧
      (11 + 11) * (513 + 6 + 2 * (11 + 11)) * Fintype.card F ^ D.card < Fintype.card F *
        Fintype.card {H : D → F // ForgesWitness K C Q order [] db root rootHex 6 A₂ (over H₀ H)} ∧
      (11 + 11) * (513 + 6 + 2 * (11 + 11)) * Fintype.card F ^ D.card < Fintype.card F *
        Fintype.card {H : D → F // ForgesJava K C Q order [] db root 6 A₃ (over H₀ H)} := by
  have h := clients_zero_of spread_id hF C hC K Q order H₀ (by rw [one_mul]; exact hbig)
  simp only [one_mul] at h
  exact h

/-- The hypotheses are met over Bandersnatch, if the generators are zero. -/
noncomputable example (Q : Bander.BElem) (H₀ : List Byte → ZMod Bander.r) : True :=
  letI := Classical.decEq Bander.BElem
  haveI : NeZero Bander.r := ⟨by decide +kernel⟩
  have _h := clients_zero C52_scalar_field.1 { Bander.crypto with g := fun _ => 0 } (fun _ => rfl) Bander.codec Q
    (fun qs => (qs.map ProverQuery.point).dedup) H₀ (by rw [ZMod.card]; decide +kernel)
  trivial

end Verif.Props
