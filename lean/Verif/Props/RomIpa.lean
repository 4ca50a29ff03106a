import Verif.Props.Complete

/-!
# C69: the inner product argument used alone, against a random hash

The verifiers of `ipa.rs` absorb the commitment, the input point and the claimed result, but not the public vector `b`.  If `b` is a
function of what is absorbed, as it is in the multipoint argument, the argument is sound against every program asking a random hash.  If the
program may choose `b`, it is not.
-/

set_option autoImplicit false
set_option linter.unusedSectionVars false

namespace Verif.Props
open Ipa Proof Spec Wire
open scoped Classical

section
variable {F G : Type} [Field F] [DecidableEq F] [AddCommGroup G] [DecidableEq G] [Module F G]

/-- The statement of the inner product argument: commitment, input point and claimed result. -/
abbrev IpaStatement (F G : Type) := G × F × F

/-- The question for `w`. -/
def ipaPoint (K : WireCodec F G) (t : Transcript) (x : IpaStatement F G) : List Byte :=
  t ++ lbl "ipa" ++ lbl "C" ++ K.encE x.1 ++ lbl "input point" ++ K.encS x.2.1 ++ lbl "output point" ++ K.encS x.2.2 ++ lbl "w"

/-- The questions of the verifiers of the inner product argument. -/
def ipaProg (K : WireCodec F G) (t : Transcript) (x : IpaStatement F G) (π : IpaProof F G) : Prog (List Byte) F Unit :=
  .ask (ipaPoint K t x) fun w => roundProg K π.L π.R (lbl "w" ++ K.encS w)

theorem drawnIpa_asked (K : WireCodec F G) (H : List Byte → F) (t : Transcript) (x : IpaStatement F G) (π : IpaProof F G) {w : F}
    {xs : List F} (h : ((ipaProg K t x π).asked H).map H = w :: xs) : drawnIpa ⟨K, H⟩ t π x.1 x.2.1 x.2.2 = (w, xs) := by
  simp only [ipaProg, Prog.asked, List.map_cons, List.cons.injEq] at h
  obtain ⟨rfl, rfl⟩ := h
  unfold drawnIpa
  simp only
  rw [rounds_asked]
  rfl

/-- The question determines the statement. -/
theorem ipaPoint_inj (K : WireCodec F G) (t : Transcript) {x y : IpaStatement F G} (h : ipaPoint K t x = ipaPoint K t y) : x = y := by
  obtain ⟨c, z, r⟩ := x
  obtain ⟨c', z', r'⟩ := y
  unfold ipaPoint at h
  obtain ⟨h, -⟩ := List.append_inj' h rfl
  obtain ⟨h, h1⟩ := List.append_inj' h (by simp [K.encS_len])
  obtain ⟨h, -⟩ := List.append_inj' h rfl
  obtain ⟨h, h2⟩ := List.append_inj' h (by simp [K.encS_len])
  obtain ⟨h, -⟩ := List.append_inj' h rfl
  obtain ⟨h, h3⟩ := List.append_inj' h (by simp [K.encE_len])
  have e1 := encS_inj (⟨K, fun _ => 0⟩ : Oracle F G) h1
  have e2 := encS_inj (⟨K, fun _ => 0⟩ : Oracle F G) h2
  have e3 := encE_inj (⟨K, fun _ => 0⟩ : Oracle F G) h3
  simp only at e1 e2 e3
  rw [e1, e2, e3]

theorem ipaPoint_length (K : WireCodec F G) (t : Transcript) (x : IpaStatement F G) : (ipaPoint K t x).length = t.length + 124 := by
  simp [ipaPoint, K.encE_len, K.encS_len, lbl]
  try omega

/-- The challenge named by a question of a round: that with which its string begins. -/
def namedIpa (K : WireCodec F G) (s : List Byte) : Option F :=
  if s.getLast? = (lbl "w").getLast? then none else K.decS ((s.drop 1).take 32)

theorem namedIpa_of (K : WireCodec F G) (l : Byte) (x : F) (s : List Byte) :
    namedIpa K (l :: (K.encS x ++ s) ++ lbl "x") = some x := by
  unfold namedIpa
  rw [List.getLast?_append_of_ne_nil _ (by decide), if_neg (by decide), List.cons_append, List.drop_succ_cons,
    List.drop_zero, List.append_assoc, List.take_append_of_le_length (by rw [K.encS_len]), ← K.encS_len x, List.take_length,
    K.dec_encS]

theorem rounds_linkedIpa (K : WireCodec F G) (H : List Byte → F) : ∀ (L R : List G) (l : Byte) (x : F),
    (∀ s, ((roundProg K L R (l :: K.encS x)).asked H)[0]? = some s → namedIpa K s = some x) ∧
    ∀ j s s', ((roundProg K L R (l :: K.encS x)).asked H)[j]? = some s →
      ((roundProg K L R (l :: K.encS x)).asked H)[j + 1]? = some s' → namedIpa K s' = some (H s)
  | L :: Ls, R :: Rs, l, x => by
    have hn : namedIpa K (l :: K.encS x ++ lbl "L" ++ K.encE L ++ lbl "R" ++ K.encE R ++ lbl "x") = some x := by
      have := namedIpa_of K l x (lbl "L" ++ K.encE L ++ lbl "R" ++ K.encE R)
      simpa [List.append_assoc] using this
    obtain ⟨h1, h2⟩ := rounds_linkedIpa K H Ls Rs (asU8 'x'.toNat)
      (H (l :: K.encS x ++ lbl "L" ++ K.encE L ++ lbl "R" ++ K.encE R ++ lbl "x"))
    rw [roundProg, Prog.asked]
    refine ⟨fun s hs => ?_, fun j s s' hs hs' => ?_⟩
    · simp only [List.getElem?_cons_zero, Option.some.injEq] at hs
      rw [← hs]
      exact hn
    · rw [List.getElem?_cons_succ] at hs'
      cases j with
      | zero =>
        simp only [List.getElem?_cons_zero, Option.some.injEq] at hs
        rw [← hs]
        exact h1 s' hs'
      | succ j =>
        rw [List.getElem?_cons_succ] at hs
        exact h2 j s s' hs hs'
  | [], _, _, _ => by simp [roundProg, Prog.asked]
  | _ :: _, [], _, _ => by simp [roundProg, Prog.asked]

theorem ipa_linked (K : WireCodec F G) (H : List Byte → F) (t : Transcript) (x : IpaStatement F G) (π : IpaProof F G) :
    Linked (namedIpa K) H ((ipaProg K t x π).asked H) := by
  simp only [ipaProg, Prog.asked]
  obtain ⟨h1, h2⟩ := rounds_linkedIpa K H π.L π.R (asU8 'w'.toNat) (H (ipaPoint K t x))
  refine ⟨fun s hs => ?_, fun j s s' hs hs' => ?_⟩
  · simp only [List.getElem?_cons_zero, Option.some.injEq] at hs
    rw [← hs]
    unfold namedIpa ipaPoint
    rw [List.getLast?_append_of_ne_nil _ (by decide), if_pos rfl]
  · rw [List.getElem?_cons_succ] at hs'
    cases j with
    | zero =>
      simp only [List.getElem?_cons_zero, Option.some.injEq] at hs
      rw [← hs]
      exact h1 s' hs'
    | succ j =>
      rw [List.getElem?_cons_succ] at hs
      exact h2 j s s' hs hs'

/-- The output of a program, a statement with a proof, is accepted by one of the three verifiers for the vector that belongs to the
statement. -/
def ForgesIpa (K : WireCodec F G) (t₀ : Transcript) (crs : CRS G) (vec : IpaStatement F G → List F)
    (A : Prog (List Byte) F (IpaStatement F G × IpaProof F G)) (H : List Byte → F) : Prop :=
  let x := (A.run H).1
  let π := (A.run H).2
  ∃ t', verify ⟨K, H⟩ π t₀ crs (vec x) x.1 x.2.1 x.2.2 = .ok (true, t') ∨
    verifyMultiexp ⟨K, H⟩ π t₀ crs (vec x) x.1 x.2.1 x.2.2 = .ok (true, t') ∨
    verifySemi ⟨K, H⟩ π t₀ crs (vec x) x.1 x.2.1 x.2.2 = .ok (true, t')

theorem leaves_nonempty : ∀ {k : ℕ} (T : Tree F G k), ∃ p, p ∈ T.leaves
  | _, .leaf a => ⟨_, List.mem_singleton_self _⟩
  | _, .node L R x sub => by
    obtain ⟨p, hp⟩ := leaves_nonempty (sub 0)
    exact ⟨_, List.mem_flatMap.2 ⟨0, List.mem_finRange 0, List.mem_map.2 ⟨p, hp, rfl⟩⟩⟩

/-- The proof without the points that no verifier reads. -/
def cutProof (k : ℕ) (π : IpaProof F G) : IpaProof F G := { π with R := π.R.take k }

/-- The verifiers accept only proofs with the right number of rounds, up to further points `R` that they do not read. -/
theorem ipa_rounds {k : ℕ} {crs : CRS G} (hn : crs.n = 2 ^ k) (hg : crs.gens.length = 2 ^ k) {O : Oracle F G} {π : IpaProof F G}
    {t t' : Transcript} {b : List F} (hb : b.length = 2 ^ k) {comm : G} {z y : F}
    (h : verify O π t crs b comm z y = .ok (true, t') ∨ verifyMultiexp O π t crs b comm z y = .ok (true, t') ∨
      verifySemi O π t crs b comm z y = .ok (true, t')) :
    π.L.length = k ∧ k ≤ π.R.length ∧ verify O (cutProof k π) t crs b comm z y = .ok (true, t') := by
  have h64 : π.L.length < 64 := by
    by_contra hc
    rw [verify, verifyMultiexp, verifySemi, if_pos (not_lt.mp hc), if_pos (not_lt.mp hc), if_pos (not_lt.mp hc)] at h
    rcases h with h | h | h <;> cases h
  have hL : crs.n = 2 ^ π.L.length := by
    by_contra hc
    rw [verify, verifyMultiexp, verifySemi, if_neg (not_le.mpr h64), if_neg (not_le.mpr h64), if_neg (not_le.mpr h64),
      if_pos hc, if_pos hc, if_pos hc] at h
    rcases h with h | h | h <;> cases h
  have hk : π.L.length = k := Nat.pow_right_injective (le_refl 2) (hL.symm.trans hn)
  refine ⟨hk, ?_⟩
  rcases lt_trichotomy π.R.length π.L.length with hlt | he | hlt
  · obtain ⟨⟨e1, h1⟩, ⟨e2, h2⟩, e3, h3⟩ := C29_short_R_panics O π hlt h64 hL t b comm z y
    rw [h1, h2, h3] at h
    rcases h with h | h | h <;> cases h
  · have e : cutProof k π = π := by
      unfold cutProof
      rw [List.take_of_length_le (by omega)]
    obtain ⟨h1, h2⟩ := C29_verifiers_agree_partial O (hg.trans hn.symm) π he.symm t (hb.trans hn.symm) comm z y
    rw [h1, h2, or_self, or_self] at h
    rw [e]
    exact ⟨by omega, h⟩
  · obtain ⟨h1, ⟨e2, h2⟩, e3, h3⟩ := C29_long_R O (hg.trans hn.symm) π hlt h64 hL t b comm z y
    rw [h2, h3, h1, hk] at h
    refine ⟨by omega, ?_⟩
    rcases h with h | h | h
    · exact h
    · cases h
    · cases h

/-- What `C69_ipa_random_oracle_partial` says, for a hash with values in `E` that `red` turns into challenges: the output of the run wins for
these challenges. -/
theorem rom_ipa_of {E : Type} [Fintype E] {red : E → F} {B : ℕ} (hred : Spread red B) {k N : ℕ} {crs : CRS G} (hn : crs.n = 2 ^ k) (hg : crs.gens.length = 2 ^ k)
    (vec : IpaStatement F G → List F) (hvec : ∀ x, (vec x).length = 2 ^ k) (K : WireCodec F G) (t₀ : Transcript)
    (A : Prog (List Byte) E (IpaStatement F G × IpaProof F G)) (hA : A.Within N) (H₀ : List Byte → E)
    (D : Finset (List Byte)) (hD : ∀ s : List Byte, s.length ≤ t₀.length + 124 → s ∈ D)
    (h : (N + k + 1) * (B * (4 + 2 * (N + k + 1))) * Fintype.card E ^ D.card <
      Fintype.card E * Fintype.card {H : D → E // ForgesIpa K t₀ crs vec (.ret (A.run (over H₀ H))) (fun s => red (over H₀ H s))}) :
    ∃ (x : IpaStatement F G) (w : Fin 2 → F) (T : Fin 2 → Tree F G k), OpenDistinct w T ∧
      (∀ u, ∀ p ∈ (T u).leaves, ∃ H : D → E, ForgesIpa K t₀ crs vec (.ret (A.run (over H₀ H))) (fun s => red (over H₀ H s)) ∧ (A.run (over H₀ H)).1 = x ∧
        cutProof k (A.run (over H₀ H)).2 = p.2 ∧ drawnIpa ⟨K, fun s => red (over H₀ H s)⟩ t₀ p.2 x.1 x.2.1 x.2.2 = (w u, p.1)) ∧
      ((∃ ρ ∈ openRels (vec x) x.2.2 w T (2 ^ k), ρ ≠ 0 ∧
        ∑ i : Fin (2 ^ k), ρ.1 i • crs.gens.getD i 0 + ρ.2 • crs.Q = 0) ∨
      ∃ v : Fin (2 ^ k) → F, openRep (vec x) x.2.2 w T (2 ^ k) = (v, 0) ∧ ∑ i : Fin (2 ^ k), v i • crs.gens.getD i 0 = x.1 ∧
        ∑ i : Fin (2 ^ k), v i * (vec x).getD i 0 = x.2.2) := by
  obtain ⟨Win, hWin⟩ : ∃ Win : (List Byte → E) → Prop, ∀ H, Win H ↔ ForgesIpa K t₀ crs vec (.ret (A.run H)) (fun s => red (H s)) ∧ ∃ H' : D → E, H = over H₀ H' :=
    ⟨_, fun _ => Iff.rfl⟩
  have hr : ∀ H, ForgesIpa K t₀ crs vec (.ret (A.run H)) (fun s => red (H s)) → (A.run H).2.L.length = k ∧ k ≤ (A.run H).2.R.length ∧ ∃ t', verify ⟨K, fun s => red (H s)⟩
      (cutProof k (A.run H).2) t₀ crs (vec (A.run H).1) (A.run H).1.1 (A.run H).1.2.1 (A.run H).1.2.2 = .ok (true, t') := by
    rintro H ⟨t', hH⟩
    obtain ⟨h1, h2, h3⟩ := ipa_rounds hn hg (hvec _) hH
    exact ⟨h1, h2, t', h3⟩
  have hL : ∀ H, Win H → (cutProof k (A.run H).2).L.length = k ∧ (cutProof k (A.run H).2).R.length = k := by
    intro H hw
    obtain ⟨h1, h2, -⟩ := hr H ((hWin H).1 hw).1
    exact ⟨h1, by simp [cutProof, h2]⟩
  let chain : (List Byte → E) → List (List Byte) := fun H => (ipaProg K t₀ (A.run H).1 (cutProof k (A.run H).2)).asked fun s => red (H s)
  have hlen : ∀ H, Win H → (chain H).length = k + 1 := by
    intro H hw
    simp only [chain, ipaProg, Prog.asked, List.length_cons, rounds_length, hL H hw, min_self]
  have hbytes : ∀ H, ∀ s ∈ chain H, s.length ≤ t₀.length + 124 := by
    intro H s hs
    simp only [chain, ipaProg, Prog.asked, List.mem_cons] at hs
    rcases hs with rfl | hs
    · rw [ipaPoint_length]
    · rw [rounds_bytes K _ _ _ _ (by simp [K.encS_len, lbl]) s hs]; omega
  by_cases hno : Forks Win (fun H => answered (fun s => red (H s)) (chain H)) 4 (k + 1) []
  · obtain ⟨s1, f, hf, h1⟩ := hno
    simp only [List.nil_append] at h1
    have hhead : ∀ H x pre', answered (fun s => red (H s)) (chain H) = (s1, x) :: pre' → ipaPoint K t₀ (A.run H).1 = s1 := by
      intro H x pre' h
      simp only [chain, answered, ipaProg, Prog.asked, List.map_cons, List.cons.injEq, Prod.mk.injEq] at h
      exact h.1.1
    obtain ⟨g, hgi, hg0⟩ := pick_fin hf {0} (m := 1) (by simp)
    have h2 := fun u => forks_tree_at (o := 1) K Win (fun H => answered (fun s => red (H s)) (chain H)) (fun H => cutProof k (A.run H).2) hL (fun H hw j p hp => by
      simp only [chain, answered, ipaProg, Prog.asked, List.map_cons, List.getElem?_cons_succ, List.getElem?_map,
        Option.map_eq_some_iff] at hp
      obtain ⟨s, hs, rfl⟩ := hp
      exact rounds_get K _ _ _ _ (by simp [K.encS_len, lbl]) j s hs) le_rfl (n := k) (m := 0) (by omega) (by simp) (h1 (g u))
    choose T hT hT' using h2
    obtain ⟨p₀, hp₀⟩ : ∃ p, p ∈ (T 0).leaves := leaves_nonempty (T 0)
    obtain ⟨H₁, -, e₁, -⟩ := hT' 0 p₀ hp₀
    have hs1 := hhead H₁ _ _ e₁
    have hleaf : ∀ u, ∀ p ∈ (T u).leaves, ∃ H : D → E, ForgesIpa K t₀ crs vec (.ret (A.run (over H₀ H))) (fun s => red (over H₀ H s)) ∧ (A.run (over H₀ H)).1 = (A.run H₁).1 ∧
        cutProof k (A.run (over H₀ H)).2 = p.2 ∧
        drawnIpa ⟨K, fun s => red (over H₀ H s)⟩ t₀ p.2 (A.run H₁).1.1 (A.run H₁).1.2.1 (A.run H₁).1.2.2 = (f (g u), p.1) := by
      intro u p hp
      obtain ⟨H, hw, e1, e2, e3, e4, e5⟩ := hT' u p hp
      obtain ⟨hF, H, rfl⟩ := (hWin H).1 hw
      have hx := ipaPoint_inj K t₀ ((hhead _ _ _ e1).trans hs1.symm)
      have hπ : cutProof k (A.run (over H₀ H)).2 = p.2 := by
        rcases ho : cutProof k (A.run (over H₀ H)).2 with ⟨L, R, a⟩
        rw [ho] at e3 e4 e5
        rcases hp2 : p.2 with ⟨L', R', a'⟩
        rw [hp2] at e3 e4 e5
        simp only [List.drop_zero] at e3 e4 e5
        rw [e3, e4, e5]
      refine ⟨H, hF, hx, hπ, ?_⟩
      rw [← hx, ← hπ]
      apply drawnIpa_asked
      have e9 : (chain (over H₀ H)).map (fun s => red (over H₀ H s)) = (answered (fun s => red (over H₀ H s)) (chain (over H₀ H))).map Prod.snd := by
        simp [answered, List.map_map, Function.comp_def]
      refine e9.trans ?_
      rw [e1, List.map_append, e2]
      rfl
    refine ⟨(A.run H₁).1, fun u => f (g u), T, ⟨fun e => absurd (hgi (hf e)) (by decide), fun u => by simpa using hg0 u, hT⟩, hleaf, ?_⟩
    refine C55_ipa_sound hn hg (hvec _) _ (A.run H₁).1.2.1 _ _ T (fun e => absurd (hgi (hf e)) (by decide)) (fun u => by simpa using hg0 u) hT
      fun u p hp => ?_
    obtain ⟨H, e1, e2, e3, e4⟩ := hleaf u p hp
    obtain ⟨-, -, t', e5⟩ := hr _ e1
    rw [e2, e3] at e5
    exact ⟨_, t₀, t', e4, Or.inl e5⟩
  · let P : Prog (List Byte) E Unit := A.bind fun o =>
      if o.2.L.length ≤ k then (ipaProg K t₀ o.1 (cutProof k o.2)).lift red else .ret ()
    have hP : P.Within (N + (k + 1)) := by
      apply Prog.Within.bind _ hA
      intro o
      split
      · rename_i hk
        exact Prog.Within.lift red (n := k + 1) (P := ipaProg K t₀ o.1 (cutProof k o.2)) fun w => rounds_within K _ _ _ k hk
      · trivial
    have hle := fork_of (D := D) (namedIpa K) hred H₀ hP Win chain 4 (k + 1) hlen (fun H _ s hs => hD s (hbytes H s hs))
      (fun H hw s hs => by
        rw [Prog.asked_bind, if_pos (hr H ((hWin H).1 hw).1).1.le, Prog.lift_asked]
        exact List.mem_append_right _ hs)
      (fun H _ => ipa_linked K _ t₀ _ _) hno
    rw [← Nat.add_assoc N k 1] at hle
    refine absurd h (not_lt.mpr (le_trans (Nat.mul_le_mul_left _ ?_) hle))
    convert Fintype.card_subtype_mono _ (fun H : D → E => Win (over H₀ H)) fun H h => (hWin _).2 ⟨h, H, rfl⟩

/-- C69 (partial: the public vector is determined by what is absorbed; otherwise the claim is false, `C69_free_vector_false`).  Let the
public vector be a function of the statement: commitment, input point and claimed result.  Let a program ask the hash at
most `N` times and output a statement and a proof.  Let the hash be random on a finite set `D` that contains all strings the verifiers may
hash, and arbitrary elsewhere.  If a verifier accepts for more than the part `(N + k + 1) (4 + 2 (N + k + 1)) / |F|` of the hashes, there are
runs of the program, all with the same statement, from which a non-trivial relation between the generators and `Q`, or a vector that opens
the commitment and has the claimed inner product with the public vector, is computed. -/
theorem C69_ipa_random_oracle_partial [Fintype F] {k N : ℕ} {crs : CRS G} (hn : crs.n = 2 ^ k) (hg : crs.gens.length = 2 ^ k)
    (vec : IpaStatement F G → List F) (hvec : ∀ x, (vec x).length = 2 ^ k) (K : WireCodec F G) (t₀ : Transcript)
    (A : Prog (List Byte) F (IpaStatement F G × IpaProof F G)) (hA : A.Within N) (H₀ : List Byte → F)
    (D : Finset (List Byte)) (hD : ∀ s : List Byte, s.length ≤ t₀.length + 124 → s ∈ D)
    (h : (N + k + 1) * (4 + 2 * (N + k + 1)) * Fintype.card F ^ D.card <
      Fintype.card F * Fintype.card {H : D → F // ForgesIpa K t₀ crs vec A (over H₀ H)}) :
    ∃ (x : IpaStatement F G) (w : Fin 2 → F) (T : Fin 2 → Tree F G k), OpenDistinct w T ∧
      (∀ u, ∀ p ∈ (T u).leaves, ∃ H : D → F, ForgesIpa K t₀ crs vec A (over H₀ H) ∧ (A.run (over H₀ H)).1 = x ∧
        cutProof k (A.run (over H₀ H)).2 = p.2 ∧ drawnIpa ⟨K, over H₀ H⟩ t₀ p.2 x.1 x.2.1 x.2.2 = (w u, p.1)) ∧
      ((∃ ρ ∈ openRels (vec x) x.2.2 w T (2 ^ k), ρ ≠ 0 ∧
        ∑ i : Fin (2 ^ k), ρ.1 i • crs.gens.getD i 0 + ρ.2 • crs.Q = 0) ∨
      ∃ v : Fin (2 ^ k) → F, openRep (vec x) x.2.2 w T (2 ^ k) = (v, 0) ∧ ∑ i : Fin (2 ^ k), v i • crs.gens.getD i 0 = x.1 ∧
        ∑ i : Fin (2 ^ k), v i * (vec x).getD i 0 = x.2.2) :=
  rom_ipa_of spread_id hn hg vec hvec K t₀ A hA H₀ D hD (by rw [one_mul]; exact h)

/-! ### Honest proofs -/

theorem create_length {O : Oracle F G} {k : ℕ} {crs : CRS G} (hg : crs.gens.length = 2 ^ k) {t t' : Transcript} {a b : List F} {comm : G}
    {z : F} {π : IpaProof F G} (h : create O t crs a comm b z = .ok (π, t')) :
    a.length = 2 ^ k ∧ b.length = 2 ^ k ∧ π.L.length = k ∧ π.R.length = k := by
  unfold create at h
  simp only at h
  split at h
  · simp at h
  rename_i ha
  split at h
  · simp at h
  rename_i hb
  split at h
  · simp at h
  rw [hg, Nat.clog_pow 2 k (by norm_num)] at h
  rw [not_not, hg] at ha hb
  obtain ⟨h1, h2, -⟩ := createGo_ok O _ k ha hb hg h
  exact ⟨ha, hb, h1, h2⟩

/-- What `C69_ipa_accepted` says, for a hash with values in `E` that `red` turns into challenges, each from at most `c` values. -/
theorem ipa_accepted_of {E : Type} [Fintype E] {red : E → F} {c : ℕ} (hred : Spread red c) {k : ℕ} {crs : CRS G} (hk : k < 64) (hn : crs.n = 2 ^ k) (hg : crs.gens.length = 2 ^ k)
    (K : WireCodec F G) (t₀ : Transcript) {a b : List F} (ha : a.length = 2 ^ k) (hb : b.length = 2 ^ k) (z : F) (H₀ : List Byte → E)
    (D : Finset (List Byte)) (hD : ∀ s : List Byte, s.length ≤ t₀.length + 124 → s ∈ D) :
    Fintype.card E * Fintype.card {H : D → E // ¬ ∃ π t',
        create ⟨K, fun s => red (over H₀ H s)⟩ t₀ crs a (List.zipWith (· • ·) a crs.gens).sum b z = .ok (π, t') ∧
        verify ⟨K, fun s => red (over H₀ H s)⟩ π t₀ crs b (List.zipWith (· • ·) a crs.gens).sum z (List.zipWith (· * ·) a b).sum = .ok (true, t') ∧
        verifyMultiexp ⟨K, fun s => red (over H₀ H s)⟩ π t₀ crs b (List.zipWith (· • ·) a crs.gens).sum z (List.zipWith (· * ·) a b).sum =
          .ok (true, t') ∧
        verifySemi ⟨K, fun s => red (over H₀ H s)⟩ π t₀ crs b (List.zipWith (· • ·) a crs.gens).sum z (List.zipWith (· * ·) a b).sum = .ok (true, t')} ≤
      (k + 1) * c * Fintype.card E ^ D.card := by
  have hask := create_asks K crs a (List.zipWith (· • ·) a crs.gens).sum b z t₀ le_rfl
  rw [hg, Nat.clog_pow 2 k (by norm_num)] at hask
  refine (hask.almost_of hred {0} (fun o => ∃ r, o = .ok r) (by omega) (fun H hH => C28_creation_total ⟨K, H⟩ hg (fun s e => hH s (by
    rw [show (⟨K, H⟩ : Oracle F G).H s = H s from rfl] at e
    rw [e]; simp)) t₀ ha hb _ z) H₀ D hD _ ?_).trans (by rw [Finset.card_singleton, Nat.mul_one])
  rintro H ⟨⟨π, t'⟩, h⟩ hno
  have hv := C28_completeness _ hk hn hg h
  obtain ⟨-, -, h1, h2⟩ := create_length hg h
  obtain ⟨h3, h4⟩ := C29_verifiers_agree_partial (⟨K, fun s => red (over H₀ H s)⟩ : Oracle F G) (hg.trans hn.symm) π (h1.trans h2.symm) t₀
    (hb.trans hn.symm) (List.zipWith (· • ·) a crs.gens).sum z (List.zipWith (· * ·) a b).sum
  exact hno ⟨π, t', h, hv, h3.trans hv, h4.trans hv⟩

/-- C69: for all vectors, the proof created is accepted by the three verifiers for all hashes but the part `(k + 1) / |F|`. -/
theorem C69_ipa_accepted [Fintype F] {k : ℕ} {crs : CRS G} (hk : k < 64) (hn : crs.n = 2 ^ k) (hg : crs.gens.length = 2 ^ k)
    (K : WireCodec F G) (t₀ : Transcript) {a b : List F} (ha : a.length = 2 ^ k) (hb : b.length = 2 ^ k) (z : F) (H₀ : List Byte → F)
    (D : Finset (List Byte)) (hD : ∀ s : List Byte, s.length ≤ t₀.length + 124 → s ∈ D) :
    Fintype.card F * Fintype.card {H : D → F // ¬ ∃ π t',
        create ⟨K, over H₀ H⟩ t₀ crs a (List.zipWith (· • ·) a crs.gens).sum b z = .ok (π, t') ∧
        verify ⟨K, over H₀ H⟩ π t₀ crs b (List.zipWith (· • ·) a crs.gens).sum z (List.zipWith (· * ·) a b).sum = .ok (true, t') ∧
        verifyMultiexp ⟨K, over H₀ H⟩ π t₀ crs b (List.zipWith (· • ·) a crs.gens).sum z (List.zipWith (· * ·) a b).sum =
          .ok (true, t') ∧
        verifySemi ⟨K, over H₀ H⟩ π t₀ crs b (List.zipWith (· • ·) a crs.gens).sum z (List.zipWith (· * ·) a b).sum = .ok (true, t')} ≤
      (k + 1) * Fintype.card F ^ D.card := by
  have h := ipa_accepted_of spread_id hk hn hg K t₀ ha hb z H₀ D hD
  rw [Nat.mul_one] at h
  exact h

/-! ### A vector chosen by the prover -/

/-- The vector `1, 0, …, 0`. -/
def unitVec (F : Type) [Field F] (n : ℕ) : List F := 1 :: List.replicate (n - 1) 0

/-- The vector with `1` at the beginning of the first half and `- x` at the beginning of the second. -/
def freeVec (m : ℕ) (x : F) : List F := unitVec F (2 ^ m) ++ (unitVec F (2 ^ m)).map (-x * ·)

theorem unitVec_length (m : ℕ) : (unitVec F (2 ^ m)).length = 2 ^ m := by
  have := Nat.two_pow_pos m
  simp only [unitVec, List.length_cons, List.length_replicate]
  omega

theorem freeVec_length (m : ℕ) (x : F) : (freeVec m x).length = 2 ^ (m + 1) := by
  rw [freeVec, List.length_append, List.length_map, unitVec_length]
  ring

theorem lin_unitVec {M : Type} [AddCommGroup M] [Module F M] (n : ℕ) : ∀ l : List M, lin (unitVec F n) l = l.headD 0
  | [] => by simp [lin]
  | x :: l => by rw [unitVec, lin_cons, lin_replicate_zero]; simp

theorem coef_head : ∀ l : List F, (coef l).headD 0 = 1
  | [] => rfl
  | c :: l => by
    rw [coef]
    have := coef_head l
    cases hc : coef l with
    | nil => rw [hc] at this; simp at this
    | cons x y => rw [hc] at this; exact this

/-- The folded vector is zero. -/
theorem coef_freeVec {m : ℕ} {x : F} (hx : x ≠ 0) {l : List F} (hl : l.length = m) : lin (coef (x⁻¹ :: l)) (freeVec m x) = 0 := by
  rw [coef, freeVec, lin_append (by rw [coef_length, unitVec_length, hl]), lin_comm, lin_unitVec, coef_head, lin_map_mul, lin_comm,
    lin_map_mul, lin_unitVec, coef_head]
  simp [hx]

theorem unit_freeVec (m : ℕ) (x : F) : (List.zipWith (· * ·) (unitVec F (2 ^ (m + 1))) (freeVec m x)).sum = 1 := by
  change lin (unitVec F (2 ^ (m + 1))) (freeVec m x) = 1
  rw [lin_unitVec]
  rfl

/-- The equation of the verifiers contains the public vector only through its folded value. -/
theorem IpaEq.vector {g : List G} {Q : G} {b b' : List F} {P : G} {xs : List F} {π : IpaProof F G} (h : IpaEq g Q b P xs π)
    (hb : lin (coef (batchInv xs)) b = lin (coef (batchInv xs)) b') : IpaEq g Q b' P xs π := by
  unfold IpaEq at h ⊢
  rw [← hb]
  exact h

/-- The vector and the proof of a program that commits to `1, 0, …, 0`, proves that its inner product with the zero vector is zero, and
then chooses the public vector. -/
def freeOut (K : WireCodec F G) (t₀ : Transcript) (crs : CRS G) (m : ℕ) (z : F) (H : List Byte → F) : List F × IpaProof F G :=
  match create ⟨K, H⟩ t₀ crs (unitVec F (2 ^ (m + 1))) (crs.gens.headD 0) (List.replicate (2 ^ (m + 1)) 0) z with
  | .ok (π, _) => (freeVec m ((drawnIpa ⟨K, H⟩ t₀ π (crs.gens.headD 0) z 0).2.headD 0), π)
  | .error _ => (freeVec m 0, ⟨[], [], 0⟩)

theorem freeOut_fst (K : WireCodec F G) (t₀ : Transcript) (crs : CRS G) (m : ℕ) (z : F) (H : List Byte → F) :
    ∃ x, (freeOut K t₀ crs m z H).1 = freeVec m x := by
  unfold freeOut
  split
  · exact ⟨_, rfl⟩
  · exact ⟨_, rfl⟩

theorem freeVec_inj {m : ℕ} {x y : F} (h : freeVec m x = freeVec m y) : x = y := by
  have := (List.append_inj h rfl).2
  simpa [unitVec] using this

theorem freeOut_ne (K : WireCodec F G) (t₀ : Transcript) {crs : CRS G} {m : ℕ} (hg : crs.gens.length = 2 ^ (m + 1)) (z : F)
    {H : List Byte → F} (hH : ∀ s, H s ≠ 0) : (freeOut K t₀ crs m z H).1 ≠ freeVec m 0 := by
  obtain ⟨⟨π, t'⟩, h⟩ := C28_creation_total (⟨K, H⟩ : Oracle F G) hg hH t₀ (unitVec_length (F := F) (m + 1))
    (b := List.replicate (2 ^ (m + 1)) 0) (by simp) (crs.gens.headD 0) z
  obtain ⟨-, -, h1, h2⟩ := create_length hg h
  unfold freeOut
  rw [h]
  intro e
  have hl : (drawnIpa ⟨K, H⟩ t₀ π (crs.gens.headD 0) z 0).2.length = m + 1 := by
    simp only [drawnIpa, genChallenges_length, h1, h2, min_self]
  have hmem : ∀ y ∈ (drawnIpa ⟨K, H⟩ t₀ π (crs.gens.headD 0) z 0).2, y ≠ 0 := by
    intro y hy
    simp only [drawnIpa, rounds_asked, List.mem_map] at hy
    obtain ⟨s, -, rfl⟩ := hy
    exact hH s
  have e := freeVec_inj e
  cases hd : (drawnIpa ⟨K, H⟩ t₀ π (crs.gens.headD 0) z 0).2 with
  | nil => rw [hd] at hl; simp at hl
  | cons x xs =>
    rw [hd] at e
    exact hmem x (by rw [hd]; simp) e

theorem free_accepted {m : ℕ} (hm : m + 1 < 64) {crs : CRS G} (hn : crs.n = 2 ^ (m + 1)) (hg : crs.gens.length = 2 ^ (m + 1))
    (K : WireCodec F G) (t₀ : Transcript) (z : F) {H : List Byte → F} (hne : (freeOut K t₀ crs m z H).1 ≠ freeVec m 0) :
    ∃ t', verify ⟨K, H⟩ (freeOut K t₀ crs m z H).2 t₀ crs (freeOut K t₀ crs m z H).1 (crs.gens.headD 0) z 0 = .ok (true, t') ∧
      verifyMultiexp ⟨K, H⟩ (freeOut K t₀ crs m z H).2 t₀ crs (freeOut K t₀ crs m z H).1 (crs.gens.headD 0) z 0 = .ok (true, t') ∧
      verifySemi ⟨K, H⟩ (freeOut K t₀ crs m z H).2 t₀ crs (freeOut K t₀ crs m z H).1 (crs.gens.headD 0) z 0 = .ok (true, t') := by
  have hc : (List.zipWith (· • ·) (unitVec F (2 ^ (m + 1))) crs.gens).sum = crs.gens.headD 0 := lin_unitVec _ _
  have hy : (List.zipWith (· * ·) (unitVec F (2 ^ (m + 1))) (List.replicate (2 ^ (m + 1)) 0)).sum = 0 := by
    change lin (unitVec F (2 ^ (m + 1))) (List.replicate (2 ^ (m + 1)) 0) = 0
    rw [lin_comm, lin_replicate_zero]
  cases h : create ⟨K, H⟩ t₀ crs (unitVec F (2 ^ (m + 1))) (crs.gens.headD 0) (List.replicate (2 ^ (m + 1)) 0) z with
  | error e =>
    unfold freeOut at hne
    rw [h] at hne
    exact absurd rfl hne
  | ok r =>
  obtain ⟨π, t'⟩ := r
  obtain ⟨-, -, h1, h2⟩ := create_length hg h
  have hv := C28_completeness (⟨K, H⟩ : Oracle F G) hm hn hg (by rw [hc]; exact h)
  rw [hc, hy] at hv
  have heq := (verify_iff hm hn hg h1 h2 t₀ (by simp) (crs.gens.headD 0) z 0).1 ⟨_, hv⟩
  have e : freeOut K t₀ crs m z H = (freeVec m ((drawnIpa ⟨K, H⟩ t₀ π (crs.gens.headD 0) z 0).2.headD 0), π) := by
    unfold freeOut
    rw [h]
  rw [e] at hne ⊢
  obtain ⟨x, xs, hx, hxs⟩ : ∃ x xs, (drawnIpa ⟨K, H⟩ t₀ π (crs.gens.headD 0) z 0).2 = x :: xs ∧ xs.length = m := by
    have hl : (drawnIpa ⟨K, H⟩ t₀ π (crs.gens.headD 0) z 0).2.length = m + 1 := by
      simp only [drawnIpa, genChallenges_length, h1, h2, min_self]
    cases hd : (drawnIpa ⟨K, H⟩ t₀ π (crs.gens.headD 0) z 0).2 with
    | nil => rw [hd] at hl; simp at hl
    | cons x xs => exact ⟨x, xs, rfl, by rw [hd] at hl; simpa using hl⟩
  have hx0 : x ≠ 0 := by
    rintro rfl
    rw [hx] at hne
    exact hne rfl
  have hf : (freeVec m ((drawnIpa ⟨K, H⟩ t₀ π (crs.gens.headD 0) z 0).2.headD 0)).length = 2 ^ (m + 1) := freeVec_length _ _
  have heq' := heq.vector (b' := freeVec m ((drawnIpa ⟨K, H⟩ t₀ π (crs.gens.headD 0) z 0).2.headD 0)) (by
    rw [lin_comm, lin_replicate_zero, hx]
    exact (coef_freeVec hx0 (l := batchInv xs) (by simp [batchInv, hxs])).symm)
  obtain ⟨t'', h3⟩ := (verify_iff hm hn hg h1 h2 t₀ hf (crs.gens.headD 0) z 0).2 heq'
  obtain ⟨h4, h5⟩ := C29_verifiers_agree_partial (⟨K, H⟩ : Oracle F G) (hg.trans hn.symm) π (h1.trans h2.symm) t₀ (hf.trans hn.symm)
    (crs.gens.headD 0) z 0
  exact ⟨t'', h3, h4.trans h3, h5.trans h3⟩

theorem freeOut_asks (K : WireCodec F G) (t₀ : Transcript) {crs : CRS G} {m : ℕ} (hg : crs.gens.length = 2 ^ (m + 1)) (z : F) :
    Asks (m + 4) (t₀.length + 124) fun H => freeOut K t₀ crs m z H := by
  have hask := create_asks K crs (unitVec F (2 ^ (m + 1))) (crs.gens.headD 0) (List.replicate (2 ^ (m + 1)) 0) z t₀ le_rfl
  rw [hg, Nat.clog_pow 2 (m + 1) (by norm_num)] at hask
  refine hask.bind (n := 2) (fun o H => match o with
    | .ok (π, _) => (freeVec m ((drawnIpa ⟨K, H⟩ t₀ π (crs.gens.headD 0) z 0).2.headD 0), π)
    | .error _ => (freeVec m 0, ⟨[], [], 0⟩)) fun o => ?_
  match o with
  | .error _ => exact Asks.const _ _ _
  | .ok (⟨L, R, a⟩, _) =>
    refine Asks.map (f := fun H => (drawnIpa ⟨K, H⟩ t₀ ⟨L, R, a⟩ (crs.gens.headD 0) z 0).2.headD 0) ?_
      fun x => (freeVec m x, (⟨L, R, a⟩ : IpaProof F G))
    refine Asks.ask (s := ipaPoint K t₀ (crs.gens.headD 0, z, 0)) (by rw [ipaPoint_length])
      (fun w H => (genChallenges ⟨K, H⟩ L R (lbl "w" ++ K.encS w)).1.headD 0) (fun w => ?_) fun H => rfl
    match L, R with
    | [], _ => exact Asks.const _ _ _
    | _ :: _, [] => exact Asks.const _ _ _
    | L :: Ls, R :: Rs =>
      exact Asks.ask (s := lbl "w" ++ K.encS w ++ lbl "L" ++ K.encE L ++ lbl "R" ++ K.encE R ++ lbl "x")
        (by simp [K.encE_len, K.encS_len, lbl]) (fun x _ => x) (fun x => Asks.const _ _ _) fun H => rfl

/-- C69, if the prover may choose the public vector: the claim is false.  The verifiers do not absorb it.  For vectors of length `2 ^ (m + 1)`
there is a program, asking the hash `m + 4` times, that outputs a vector and a proof.  For all hashes but the part `(m + 4) / |F|`, the
three verifiers accept that the vector behind the first generator has inner product 0 with the vector output.  It is the vector
`1, 0, …, 0`, and for all hashes the inner product is 1. -/
theorem C69_free_vector_false [Fintype F] {m : ℕ} (hm : m + 1 < 64) {crs : CRS G} (hn : crs.n = 2 ^ (m + 1))
    (hg : crs.gens.length = 2 ^ (m + 1)) (K : WireCodec F G) (t₀ : Transcript) (z : F) :
    ∃ A : Prog (List Byte) F (List F × IpaProof F G), A.Within (m + 4) ∧
      (List.zipWith (· • ·) (unitVec F (2 ^ (m + 1))) crs.gens).sum = crs.gens.headD 0 ∧
      (∀ H, (A.run H).1.length = 2 ^ (m + 1) ∧ (List.zipWith (· * ·) (unitVec F (2 ^ (m + 1))) (A.run H).1).sum = 1) ∧
      ∀ (H₀ : List Byte → F) (D : Finset (List Byte)), (∀ s : List Byte, s.length ≤ t₀.length + 124 → s ∈ D) →
        Fintype.card F * Fintype.card {H : D → F // ¬ ∃ t',
          verify ⟨K, over H₀ H⟩ (A.run (over H₀ H)).2 t₀ crs (A.run (over H₀ H)).1 (crs.gens.headD 0) z 0 = .ok (true, t') ∧
          verifyMultiexp ⟨K, over H₀ H⟩ (A.run (over H₀ H)).2 t₀ crs (A.run (over H₀ H)).1 (crs.gens.headD 0) z 0 = .ok (true, t') ∧
          verifySemi ⟨K, over H₀ H⟩ (A.run (over H₀ H)).2 t₀ crs (A.run (over H₀ H)).1 (crs.gens.headD 0) z 0 = .ok (true, t')} ≤
        (m + 4) * Fintype.card F ^ D.card := by
  obtain ⟨A, hA, hA'⟩ := freeOut_asks K t₀ hg z
  refine ⟨A, hA, lin_unitVec _ _, fun H => ?_, fun H₀ D hD => ?_⟩
  · obtain ⟨x, hx⟩ := freeOut_fst K t₀ crs m z H
    rw [(hA' H).1, hx]
    exact ⟨freeVec_length _ _, unit_freeVec _ _⟩
  · refine ((freeOut_asks K t₀ hg z).almost {0} (fun o => o.1 ≠ freeVec m 0) (by omega)
      (fun H hH => freeOut_ne K t₀ hg z fun s e => hH s (by simp [e])) H₀ D hD _ ?_).trans
      (by rw [Finset.card_singleton, Nat.mul_one])
    intro H hne hno
    rw [(hA' _).1] at hno
    exact hno (free_accepted hm hn hg K t₀ z hne)

/-! ### The hypotheses can be met -/

/-- What `ipa_honest_wins` says, for a hash with values in `E` that `red` turns into challenges, each from at most `c` values. -/
theorem ipa_honest_wins_of {E : Type} [Fintype E] {red : E → F} {c : ℕ} (hred : Spread red c) {k : ℕ} {crs : CRS G} (hk : k < 64) (hn : crs.n = 2 ^ k) (hg : crs.gens.length = 2 ^ k)
    (vec : IpaStatement F G → List F) (hvec : ∀ x, (vec x).length = 2 ^ k) (K : WireCodec F G) (t₀ : Transcript) {a : List F}
    (ha : a.length = 2 ^ k) (z y : F) (hy : y = (List.zipWith (· * ·) a (vec ((List.zipWith (· • ·) a crs.gens).sum, z, y))).sum)
    (hF : (k + 1) * c + (k + 1 + k + 1) * (c * (4 + 2 * (k + 1 + k + 1))) < Fintype.card E) :
    ∃ A : Prog (List Byte) F (IpaStatement F G × IpaProof F G), A.Within (k + 1) ∧
      (∀ H, (A.run H).1 = ((List.zipWith (· • ·) a crs.gens).sum, z, y)) ∧ ∀ (H₀ : List Byte → E) (D : Finset (List Byte)),
      (∀ s : List Byte, s.length ≤ t₀.length + 124 → s ∈ D) →
      (k + 1 + k + 1) * (c * (4 + 2 * (k + 1 + k + 1))) * Fintype.card E ^ D.card <
        Fintype.card E * Fintype.card {H : D → E // ForgesIpa K t₀ crs vec A (fun s => red (over H₀ H s))} := by
  generalize hx : ((List.zipWith (· • ·) a crs.gens).sum, z, y) = x at hy ⊢
  have hask := (create_asks K crs a (List.zipWith (· • ·) a crs.gens).sum (vec x) z t₀ le_rfl).map
    fun o => (x, match o with | .ok r => r.1 | .error _ => (⟨[], [], 0⟩ : IpaProof F G))
  rw [hg, Nat.clog_pow 2 k (by norm_num)] at hask
  obtain ⟨A, hA, hA'⟩ := hask
  refine ⟨A, hA, fun H => by rw [(hA' H).1], fun H₀ D hD => win_of_lose (le_trans (Nat.mul_le_mul_left _
    (Fintype.card_subtype_mono _ _ fun H hno hex => hno ?_)) (ipa_accepted_of hred hk hn hg K t₀ ha (hvec x) z H₀ D hD)) hF⟩
  obtain ⟨π, t', h1, h2, -⟩ := hex
  refine ⟨t', Or.inl ?_⟩
  rw [(hA' _).1]
  simp only [h1]
  rw [← hy] at h2
  rw [← hx] at h2 ⊢
  exact h2

/-- The hypothesis of `C69_ipa_random_oracle_partial` is met by the honest prover, if the field is large enough. -/
theorem ipa_honest_wins [Fintype F] {k : ℕ} {crs : CRS G} (hk : k < 64) (hn : crs.n = 2 ^ k) (hg : crs.gens.length = 2 ^ k)
    (vec : IpaStatement F G → List F) (hvec : ∀ x, (vec x).length = 2 ^ k) (K : WireCodec F G) (t₀ : Transcript) {a : List F}
    (ha : a.length = 2 ^ k) (z y : F) (hy : y = (List.zipWith (· * ·) a (vec ((List.zipWith (· • ·) a crs.gens).sum, z, y))).sum)
    (hF : (k + 1) + (k + 1 + k + 1) * (4 + 2 * (k + 1 + k + 1)) < Fintype.card F) :
    ∃ A : Prog (List Byte) F (IpaStatement F G × IpaProof F G), A.Within (k + 1) ∧
      (∀ H, (A.run H).1 = ((List.zipWith (· • ·) a crs.gens).sum, z, y)) ∧ ∀ (H₀ : List Byte → F) (D : Finset (List Byte)),
      (∀ s : List Byte, s.length ≤ t₀.length + 124 → s ∈ D) →
      (k + 1 + k + 1) * (4 + 2 * (k + 1 + k + 1)) * Fintype.card F ^ D.card <
        Fintype.card F * Fintype.card {H : D → F // ForgesIpa K t₀ crs vec A (over H₀ H)} := by
  have h := ipa_honest_wins_of spread_id hk hn hg vec hvec K t₀ ha z y hy (by rw [Nat.mul_one, one_mul]; exact hF)
  simp only [one_mul] at h
  exact h

end

open Bander in
/-- The hypotheses of `C69_ipa_random_oracle_partial` are met over Bandersnatch by the honest prover, for every vector and the powers of the input point. -/
noncomputable example (Q : BElem) {a : List (ZMod r)} (ha : a.length = 256) (z : ZMod r) (H₀ : List Byte → ZMod r) : True :=
  letI := Classical.decEq BElem
  haveI : NeZero r := ⟨by decide +kernel⟩
  have hg : (crsOf crypto Q).gens.length = 2 ^ 8 := by simp [crsOf]
  have hv : ∀ x : IpaStatement (ZMod r) BElem, ((List.range (2 ^ 8)).map fun i => x.2.1 ^ i).length = 2 ^ 8 := fun x => by
    rw [List.length_map, List.length_range]
  have h := ipa_honest_wins (k := 8) (by norm_num) (crs := crsOf crypto Q) rfl hg _ hv codec [] ha z
    (List.zipWith (· * ·) a ((List.range (2 ^ 8)).map fun i => z ^ i)).sum rfl
    (by rw [ZMod.card]; decide +kernel)
  have _h := C69_ipa_random_oracle_partial (k := 8) rfl hg _ hv codec [] h.choose h.choose_spec.1 H₀ (shortStrings _)
    (fun _ h => mem_shortStrings h) (h.choose_spec.2.2 H₀ _ fun _ h => mem_shortStrings h)
  trivial

open Bander in
/-- Over Bandersnatch, proofs of a false inner product of two vectors of length 256 are found with eleven questions. -/
example [Fintype (ZMod r)] (Q : BElem) (H₀ : List Byte → ZMod r) : ∃ (A : Prog (List Byte) (ZMod r) (List (ZMod r) × IpaProof (ZMod r) BElem))
    (D : Finset (List Byte)), A.Within 11 ∧ (∀ H, (List.zipWith (· * ·) (unitVec (ZMod r) (2 ^ 8)) (A.run H).1).sum = 1) ∧
    Fintype.card (ZMod r) * Fintype.card {H : D → ZMod r // ¬ ∃ t',
      verify ⟨codec, over H₀ H⟩ (A.run (over H₀ H)).2 [] (crsOf crypto Q) (A.run (over H₀ H)).1 ((crsOf crypto Q).gens.headD 0) 5 0 =
        .ok (true, t')} ≤ 11 * Fintype.card (ZMod r) ^ D.card := by
  obtain ⟨A, h1, -, h2, h3⟩ := C69_free_vector_false (m := 7) (by norm_num) (crs := crsOf crypto Q) rfl (by simp [crsOf]) codec [] 5
  refine ⟨A, shortStrings _, h1, fun H => (h2 H).2, le_trans (Nat.mul_le_mul_left _ (Fintype.card_subtype_mono _ _ ?_))
    (h3 H₀ _ fun _ h => mem_shortStrings h)⟩
  rintro H hno ⟨t', h, -⟩
  exact hno ⟨t', h⟩

end Verif.Props
