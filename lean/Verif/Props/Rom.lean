import Verif.Ipa.Rom
import Verif.Props.Convince
import Mathlib.Data.Set.Finite.List

/-!
# C66: forging proofs against a random hash

A program that asks the hash at most `N` times and outputs queries with a proof.  If the proof is accepted by the verifier of
the code for more than a small part of all hashes, there is a family of accepted runs of the program, with the same queries, from
which the openings or a relation between the generators are computed.
-/

set_option autoImplicit false
set_option linter.unusedSectionVars false

namespace Verif.Props
open Verif Verif.Spec Verif.Trie Verif.Proof Verif.Ipa
open scoped Classical

section
variable {F G : Type} [Field F] [DecidableEq F] [AddCommGroup G] [DecidableEq G] [Module F G]

/-! ### The questions of the verifier -/

/-- The questions of the rounds. -/
def roundProg (K : WireCodec F G) : List G → List G → Transcript → Prog (List Byte) F Unit
  | L :: Ls, R :: Rs, t =>
    .ask (t ++ lbl "L" ++ K.encE L ++ lbl "R" ++ K.encE R ++ lbl "x") fun x => roundProg K Ls Rs (lbl "x" ++ K.encS x)
  | _, _, _ => .ret ()

/-- The question for `r`. -/
def rPoint (K : WireCodec F G) (t : Transcript) (qs : List (VerifierQuery F G)) : List Byte :=
  qs.foldl (fun t q => t ++ lbl "C" ++ K.encE q.commitment ++ lbl "z" ++ K.encS q.point ++ lbl "y" ++ K.encS q.result)
    (t ++ lbl "multiproof") ++ lbl "r"

/-- The question for `w`. -/
def wPoint (K : WireCodec F G) (qs : List (VerifierQuery F G)) (D : G) (r tt : F) : List Byte :=
  let E := ∑ l : Fin qs.length, ((tt - (qs.get l).point)⁻¹ * r ^ (l : ℕ)) • (qs.get l).commitment
  let y := ∑ l : Fin qs.length, (tt - (qs.get l).point)⁻¹ * r ^ (l : ℕ) * (qs.get l).result
  lbl "t" ++ K.encS tt ++ lbl "E" ++ K.encE E ++ lbl "ipa" ++ lbl "C" ++ K.encE (E - D) ++ lbl "input point" ++ K.encS tt ++
    lbl "output point" ++ K.encS y ++ lbl "w"

/-- The questions of the verifier of the multipoint argument. -/
def checkProg (K : WireCodec F G) (t : Transcript) (qs : List (VerifierQuery F G)) (π : MultiProof F G) :
    Prog (List Byte) F Unit :=
  .ask (rPoint K t qs) fun r => .ask (lbl "r" ++ K.encS r ++ lbl "D" ++ K.encE π.gx ++ lbl "t") fun tt =>
    .ask (wPoint K qs π.gx r tt) fun w => roundProg K π.openProof.L π.openProof.R (lbl "w" ++ K.encS w)

/-- The questions are the strings that the code hashes. -/
theorem rounds_asked (K : WireCodec F G) (H : List Byte → F) : ∀ (L R : List G) (t : Transcript),
    (genChallenges ⟨K, H⟩ L R t).1 = ((roundProg K L R t).asked H).map H
  | L :: Ls, R :: Rs, t => by
    rw [genChallenges, roundProg, Prog.asked, List.map_cons, ← rounds_asked K H Ls Rs]
    rfl
  | [], _, _ => rfl
  | _ :: _, [], _ => rfl

/-- The questions of the verifier for the hash `H`. -/
def verifierPoints (K : WireCodec F G) (H : List Byte → F) (t : Transcript) (o : List (VerifierQuery F G) × MultiProof F G) :
    List (List Byte) := (checkProg K t o.1 o.2).asked H

theorem drawn_asked (K : WireCodec F G) (H : List Byte → F) (t : Transcript) (qs : List (VerifierQuery F G)) (π : MultiProof F G)
    {r tt w : F} {xs : List F} (h : (verifierPoints K H t (qs, π)).map H = r :: tt :: w :: xs) :
    drawn ⟨K, H⟩ t π qs = (r, tt, w, xs) := by
  simp only [verifierPoints, checkProg, Prog.asked, List.map_cons, List.cons.injEq] at h
  obtain ⟨rfl, rfl, rfl, rfl⟩ := h
  unfold drawn drawnIpa
  simp only
  rw [rounds_asked]
  rfl

/-- The challenge named by a question: that with which its string begins, unless it is the question for `r`. -/
def named (K : WireCodec F G) (s : List Byte) : Option F :=
  if s.getLast? = (lbl "r").getLast? then none else K.decS ((s.drop 1).take 32)

theorem named_of (K : WireCodec F G) (l : Byte) (x : F) (s : List Byte) (e : Byte) (he : some e ≠ (lbl "r").getLast?) :
    named K (l :: (K.encS x ++ s) ++ [e]) = some x := by
  unfold named
  rw [List.getLast?_append_of_ne_nil _ (by simp), List.getLast?_singleton, if_neg he, List.cons_append, List.drop_succ_cons,
    List.drop_zero, List.append_assoc, List.take_append_of_le_length (by rw [K.encS_len]), ← K.encS_len x, List.take_length,
    K.dec_encS]

theorem rounds_linked (K : WireCodec F G) (H : List Byte → F) : ∀ (L R : List G) (l : Byte) (x : F),
    (∀ s, ((roundProg K L R (l :: K.encS x)).asked H)[0]? = some s → named K s = some x) ∧
    ∀ j s s', ((roundProg K L R (l :: K.encS x)).asked H)[j]? = some s →
      ((roundProg K L R (l :: K.encS x)).asked H)[j + 1]? = some s' → named K s' = some (H s)
  | L :: Ls, R :: Rs, l, x => by
    have hn : named K (l :: K.encS x ++ lbl "L" ++ K.encE L ++ lbl "R" ++ K.encE R ++ lbl "x") = some x := by
      have := named_of K l x (lbl "L" ++ K.encE L ++ lbl "R" ++ K.encE R) (asU8 'x'.toNat) (by decide)
      simpa [List.append_assoc, lbl] using this
    obtain ⟨h1, h2⟩ := rounds_linked K H Ls Rs (asU8 'x'.toNat)
      (H (l :: K.encS x ++ lbl "L" ++ K.encE L ++ lbl "R" ++ K.encE R ++ lbl "x"))
    rw [roundProg, Prog.asked]
    refine ⟨fun s hs => ?_, fun j s s' hs hs' => ?_⟩
    · simp only [List.getElem?_cons_zero, Option.some.injEq] at hs
      rw [← hs]
      exact hn
    · rw [List.getElem?_cons_succ] at hs'
      cases j with
      | zero =>
        simp only [List.getElem?_cons_zero, Option.some.injEq] at hs
        rw [← hs]
        exact h1 s' hs'
      | succ j =>
        rw [List.getElem?_cons_succ] at hs
        exact h2 j s s' hs hs'
  | [], _, _, _ => by simp [roundProg, Prog.asked]
  | _ :: _, [], _, _ => by simp [roundProg, Prog.asked]

theorem points_linked (K : WireCodec F G) (H : List Byte → F) (t : Transcript) (o : List (VerifierQuery F G) × MultiProof F G) :
    Linked (named K) H (verifierPoints K H t o) := by
  obtain ⟨qs, π⟩ := o
  unfold verifierPoints checkProg
  simp only [Prog.asked]
  set r := H (rPoint K t qs)
  set s2 := lbl "r" ++ K.encS r ++ lbl "D" ++ K.encE π.gx ++ lbl "t" with hs2
  set s3 := wPoint K qs π.gx r (H s2) with hs3
  have n1 : named K (rPoint K t qs) = none := by
    unfold named rPoint
    rw [List.getLast?_append_of_ne_nil _ (by decide), if_pos rfl]
  have n2 : named K s2 = some r := by
    have := named_of K (asU8 'r'.toNat) r (lbl "D" ++ K.encE π.gx) (asU8 't'.toNat) (by decide)
    rw [← this, hs2]
    simp [lbl]
  have n3 : named K s3 = some (H s2) := by
    rw [hs3, wPoint]
    generalize ∑ l : Fin qs.length, ((H s2 - (qs.get l).point)⁻¹ * r ^ (l : ℕ)) • (qs.get l).commitment = E
    generalize ∑ l : Fin qs.length, (H s2 - (qs.get l).point)⁻¹ * r ^ (l : ℕ) * (qs.get l).result = y
    have := named_of K (asU8 't'.toNat) (H s2) (lbl "E" ++ K.encE E ++ lbl "ipa" ++ lbl "C" ++ K.encE (E - π.gx) ++
      lbl "input point" ++ K.encS (H s2) ++ lbl "output point" ++ K.encS y) (asU8 'w'.toNat) (by decide)
    rw [← this]
    simp [lbl, List.append_assoc]
  obtain ⟨h1, h2⟩ := rounds_linked K H π.openProof.L π.openProof.R (asU8 'w'.toNat) (H s3)
  refine ⟨fun s hs => ?_, fun j s s' hs hs' => ?_⟩
  · simp only [List.getElem?_cons_zero, Option.some.injEq] at hs
    rw [← hs]
    exact n1
  · match j, hs, hs' with
    | 0, hs, hs' =>
      simp only [List.getElem?_cons_zero, List.getElem?_cons_succ, Option.some.injEq, zero_add] at hs hs'
      rw [← hs, ← hs']
      exact n2
    | 1, hs, hs' =>
      simp only [List.getElem?_cons_zero, List.getElem?_cons_succ, Option.some.injEq] at hs hs'
      rw [← hs, ← hs']
      exact n3
    | 2, hs, hs' =>
      simp only [List.getElem?_cons_zero, List.getElem?_cons_succ, Option.some.injEq] at hs hs'
      rw [← hs]
      exact h1 s' hs'
    | j + 3, hs, hs' =>
      simp only [List.getElem?_cons_succ] at hs hs'
      exact h2 j s s' hs hs'

/-! ### What the questions determine -/

/-- The point appended first after the challenge with which a string begins. -/
def first (K : WireCodec F G) (s : List Byte) : Option G := K.decE ((s.drop 34).take 32)

/-- The point appended second. -/
def second (K : WireCodec F G) (s : List Byte) : Option G := K.decE ((s.drop 67).take 32)

theorem first_of (K : WireCodec F G) {a : List Byte} (ha : a.length = 33) (l : Byte) (x : G) (b : List Byte) :
    first K (a ++ [l] ++ K.encE x ++ b) = some x := by
  unfold first
  rw [List.append_assoc, List.drop_left' (by simp [ha]), List.take_left' (K.encE_len x), K.dec_encE]

theorem second_of (K : WireCodec F G) {a : List Byte} (ha : a.length = 33) (l l' : Byte) (y x : G) (b : List Byte) :
    second K (a ++ [l] ++ K.encE y ++ [l'] ++ K.encE x ++ b) = some x := by
  unfold second
  rw [List.append_assoc, List.drop_left' (by simp [ha, K.encE_len]), List.take_left' (K.encE_len x), K.dec_encE]

theorem rounds_get (K : WireCodec F G) (H : List Byte → F) : ∀ (L R : List G) (t : Transcript), t.length = 33 → ∀ (j : ℕ) (s : List Byte),
    ((roundProg K L R t).asked H)[j]? = some s → L[j]? = first K s ∧ R[j]? = second K s
  | L :: Ls, R :: Rs, t, ht, j, s, hs => by
    rw [roundProg, Prog.asked] at hs
    cases j with
    | zero =>
      simp only [List.getElem?_cons_zero, Option.some.injEq] at hs ⊢
      rw [← hs]
      have h1 := first_of K ht (asU8 'L'.toNat) L (lbl "R" ++ K.encE R ++ lbl "x")
      have h2 := second_of K ht (asU8 'L'.toNat) (asU8 'R'.toNat) L R (lbl "x")
      refine ⟨?_, ?_⟩
      · rw [← h1]; simp [lbl, List.append_assoc]
      · rw [← h2]; simp [lbl, List.append_assoc]
    | succ j =>
      rw [List.getElem?_cons_succ] at hs ⊢
      rw [List.getElem?_cons_succ]
      exact rounds_get K H Ls Rs _ (by simp [K.encS_len, lbl]) j s hs
  | [], _, _, _, _, _, hs => by simp [roundProg, Prog.asked] at hs
  | _ :: _, [], _, _, _, _, hs => by simp [roundProg, Prog.asked] at hs

theorem rounds_length (K : WireCodec F G) (H : List Byte → F) : ∀ (L R : List G) (t : Transcript),
    ((roundProg K L R t).asked H).length = min L.length R.length
  | L :: Ls, R :: Rs, t => by
    rw [roundProg, Prog.asked, List.length_cons, rounds_length K H Ls Rs]
    simp
  | [], _, _ => by simp [roundProg, Prog.asked]
  | _ :: _, [], _ => by simp [roundProg, Prog.asked]

theorem rounds_within (K : WireCodec F G) : ∀ (L R : List G) (t : Transcript) (n : ℕ), L.length ≤ n →
    (roundProg K L R t).Within n
  | L :: Ls, R :: Rs, t, 0, h => by simp at h
  | L :: Ls, R :: Rs, t, n + 1, h => fun x => rounds_within K Ls Rs _ n (by simpa using h)
  | [], _, _, _, _ => by simp [roundProg, Prog.Within]
  | _ :: _, [], _, _, _ => by simp [roundProg, Prog.Within]

theorem rPoint_inj (K : WireCodec F G) (t : Transcript) {qs qs' : List (VerifierQuery F G)} (h : rPoint K t qs = rPoint K t qs') :
    qs = qs' := by
  have h' := List.append_cancel_right h
  have hl := congrArg List.length (show List.foldl (fun t q => appendScalar (⟨K, fun _ => 0⟩ : Oracle F G) (appendScalar ⟨K, fun _ => 0⟩
    (appendPoint ⟨K, fun _ => 0⟩ t (lbl "C") q.commitment) (lbl "z") q.point) (lbl "y") q.result) (t ++ lbl "multiproof") qs = _ from h')
  rw [absorbed_length, show List.foldl (fun t (q : VerifierQuery F G) => t ++ lbl "C" ++ K.encE q.commitment ++ lbl "z" ++
    K.encS q.point ++ lbl "y" ++ K.encS q.result) (t ++ lbl "multiproof") qs' = List.foldl (fun t q =>
    appendScalar (⟨K, fun _ => 0⟩ : Oracle F G) (appendScalar ⟨K, fun _ => 0⟩
    (appendPoint ⟨K, fun _ => 0⟩ t (lbl "C") q.commitment) (lbl "z") q.point) (lbl "y") q.result) (t ++ lbl "multiproof") qs' from rfl,
    absorbed_length] at hl
  exact (absorbed_inj (⟨K, fun _ => 0⟩ : Oracle F G) qs qs' (by omega) _ _ h').2

theorem rPoint_length (K : WireCodec F G) (t : Transcript) (qs : List (VerifierQuery F G)) :
    (rPoint K t qs).length = t.length + 11 + 99 * qs.length := by
  have := absorbed_length (⟨K, fun _ => 0⟩ : Oracle F G) qs (t ++ lbl "multiproof")
  unfold rPoint
  rw [List.length_append]
  refine (congrArg (· + (lbl "r").length) this).trans ?_
  simp [lbl]
  omega

theorem rounds_bytes (K : WireCodec F G) (H : List Byte → F) : ∀ (L R : List G) (t : Transcript), t.length = 33 →
    ∀ s ∈ (roundProg K L R t).asked H, s.length = 100
  | L :: Ls, R :: Rs, t, ht, s, hs => by
    rw [roundProg, Prog.asked, List.mem_cons] at hs
    rcases hs with rfl | hs
    · simp [ht, K.encE_len, lbl]
    · exact rounds_bytes K H Ls Rs _ (by simp [K.encS_len, lbl]) s hs
  | [], _, _, _, _, hs => by simp [roundProg, Prog.asked] at hs
  | _ :: _, [], _, _, _, hs => by simp [roundProg, Prog.asked] at hs

theorem points_bytes (K : WireCodec F G) (H : List Byte → F) (t : Transcript) (o : List (VerifierQuery F G) × MultiProof F G) :
    ∀ s ∈ verifierPoints K H t o, s.length ≤ t.length + 99 * o.1.length + 190 := by
  intro s hs
  simp only [verifierPoints, checkProg, Prog.asked, List.mem_cons] at hs
  rcases hs with rfl | rfl | rfl | hs
  · rw [rPoint_length]; omega
  · simp [K.encE_len, K.encS_len, lbl]; try omega
  · simp [wPoint, K.encE_len, K.encS_len, lbl]
  · rw [rounds_bytes K H _ _ _ (by simp [K.encS_len, lbl]) s hs]; omega

/-! ### Extraction from forks -/

/-- Different answers can be chosen outside a set. -/
theorem pick_fin {K' : ℕ} {f : Fin (K' + 1) → F} (hf : Function.Injective f) (B : Finset F) {m : ℕ} (h : m + B.card ≤ K') :
    ∃ g : Fin (m + 1) → Fin (K' + 1), Function.Injective g ∧ ∀ i, f (g i) ∉ B := by
  have hB : (Finset.univ.filter fun i => f i ∈ B).card ≤ B.card :=
    Finset.card_le_card_of_injOn f (fun i hi => (Finset.mem_filter.mp hi).2) (fun i _ j _ e => hf e)
  obtain ⟨g, hg, hg'⟩ := pick (s := (Finset.univ : Finset (Fin (K' + 1)))) (Finset.univ.filter fun i => f i ∈ B) (k := m)
    (by rw [Finset.card_univ, Fintype.card_fin]; omega)
  exact ⟨g, hg, fun i hi => (hg' i).2 (Finset.mem_filter.mpr ⟨Finset.mem_univ _, hi⟩)⟩

/-- A tree of winning runs for the last `n` rounds of chains whose rounds begin at `o`. -/
theorem forks_tree_at {o k K' : ℕ} (K : WireCodec F G) {Ω : Type} (Win : Ω → Prop) (path : Ω → List (List Byte × F))
    (prf : Ω → IpaProof F G) (hL : ∀ H, Win H → (prf H).L.length = k ∧ (prf H).R.length = k)
    (hget : ∀ H, Win H → ∀ (j : ℕ) (p : List Byte × F), (path H)[j + o]? = some p →
      (prf H).L[j]? = first K p.1 ∧ (prf H).R[j]? = second K p.1) (hK : 4 ≤ K') : ∀ {n m : ℕ} {pre : List (List Byte × F)}, m + n = k → pre.length = m + o →
    Forks Win path K' n pre → ∃ T : Tree F G n, T.Distinct ∧ ∀ p ∈ T.leaves, ∃ H, Win H ∧
      path H = pre ++ (path H).drop (m + o) ∧
      ((path H).drop (m + o)).map Prod.snd = p.1 ∧
      (prf H).L.drop m = p.2.L ∧ (prf H).R.drop m = p.2.R ∧ (prf H).a = p.2.a
  | 0, m, pre, hm, hp, hf => by
    obtain ⟨H, hw, hH⟩ := hf
    obtain ⟨l1, l2⟩ := hL H hw
    refine ⟨.leaf (prf H).a, trivial, fun p hp' => ⟨H, hw, ?_⟩⟩
    simp only [Tree.leaves, List.mem_singleton] at hp'
    subst hp'
    have hd : (path H).drop (m + o) = [] := by
      rw [hH]
      exact List.drop_eq_nil_of_le (by omega)
    rw [hd, hH]
    exact ⟨by simp, rfl, List.drop_eq_nil_of_le (by omega), List.drop_eq_nil_of_le (by omega), rfl⟩
  | n + 1, m, pre, hm, hp, hf => by
    obtain ⟨s, f, hinj, hf⟩ := hf
    obtain ⟨g, hg, hg'⟩ := pick_fin hinj {0} (m := 3) (by simpa using hK)
    have ih := fun j => forks_tree_at K Win path prf hL hget hK (n := n) (m := m + 1) (by omega) (by simp [hp, Nat.add_right_comm]) (hf (g j))
    choose T hT hT' using ih
    refine ⟨.node ((first K s).getD 0) ((second K s).getD 0) (fun j => f (g j)) T,
      ⟨fun i j e => hg (hinj e), fun j => by simpa using hg' j, hT⟩, fun p hp' => ?_⟩
    simp only [Tree.leaves, List.mem_flatMap, List.mem_map] at hp'
    obtain ⟨j, _, p, hp', rfl⟩ := hp'
    obtain ⟨H, hw, h1, h2, h3, h4, h5⟩ := hT' j p hp'
    obtain ⟨l1, l2⟩ := hL H hw
    have hget' : (path H)[m + o]? = some (s, f (g j)) := by
      rw [h1, List.append_assoc, ← hp, List.getElem?_append_right le_rfl]
      simp
    obtain ⟨e1, e2⟩ := hget H hw _ _ hget'
    have hdrop : ∀ {X : Type} (l : List X) (i : ℕ) (a : X), l[i]? = some a → l.drop i = a :: l.drop (i + 1) := by
      intro X l i a h
      obtain ⟨hi, rfl⟩ := List.getElem?_eq_some_iff.mp h
      exact List.drop_eq_getElem_cons hi
    have e3 := hdrop _ _ _ hget'
    have e4 : ∀ l : List G, l.length = k → ∀ a : Option G, l[m]? = a → l.drop m = a.getD 0 :: l.drop (m + 1) := by
      rintro l hl a rfl
      have : m < l.length := by omega
      rw [hdrop l m l[m] (List.getElem?_eq_getElem this), List.getElem?_eq_getElem this]
      rfl
    refine ⟨H, hw, ?_, ?_, ?_, ?_, h5⟩
    · rw [e3]
      conv_lhs => rw [h1]
      rw [List.append_assoc, Nat.add_right_comm]
      try rfl
    · rw [e3, List.map_cons, ← h2, Nat.add_right_comm]
    · rw [e4 _ l1 _ e1, h3]
    · rw [e4 _ l2 _ e2, h4]

section
variable {k K' : ℕ} (K : WireCodec F G) (t₀ : Transcript) {Ω : Type} (Win : Ω → Prop)
  (ha : Ω → List Byte → F) (out : Ω → List (VerifierQuery F G) × MultiProof F G)

/-- Runs that win with proofs of `k` rounds fork at the next `n` questions.  `ha` gives the challenges of a run, `out` its output. -/
abbrev ForksAt (K : WireCodec F G) (t₀ : Transcript) {Ω : Type} (Win : Ω → Prop) (ha : Ω → List Byte → F)
    (out : Ω → List (VerifierQuery F G) × MultiProof F G) (K' n : ℕ) (pre : List (List Byte × F)) : Prop :=
  Forks Win (fun H => answered (ha H) (verifierPoints K (ha H) t₀ (out H))) K' n pre

theorem forks_some {n : ℕ} : ∀ {pre : List (List Byte × F)}, ForksAt K t₀ Win ha out K' n pre →
    ∃ H, Win H ∧ pre <+: answered (ha H) (verifierPoints K (ha H) t₀ (out H)) := by
  induction n with
  | zero => rintro pre ⟨H, h, rfl⟩; exact ⟨H, h, List.prefix_rfl⟩
  | succ n ih =>
    rintro pre ⟨s, f, _, h⟩
    obtain ⟨H, h1, h2⟩ := ih (h 0)
    exact ⟨H, h1, (List.prefix_append _ _).trans h2⟩

variable (hL : ∀ H, Win H → (out H).2.openProof.L.length = k ∧ (out H).2.openProof.R.length = k)
include hL

theorem points_get {H : Ω} (hw : Win H) {j : ℕ} {p : List Byte × F}
    (h : (answered (ha H) (verifierPoints K (ha H) t₀ (out H)))[j + 3]? = some p) :
    (out H).2.openProof.L[j]? = first K p.1 ∧ (out H).2.openProof.R[j]? = second K p.1 := by
  simp only [answered, verifierPoints, checkProg, Prog.asked, List.map_cons, List.getElem?_cons_succ, List.getElem?_map,
    Option.map_eq_some_iff] at h
  obtain ⟨s, hs, rfl⟩ := h
  exact rounds_get K (ha H) _ _ _ (by simp [K.encS_len, lbl]) j s hs

theorem points_length {H : Ω} (hw : Win H) : (verifierPoints K (ha H) t₀ (out H)).length = k + 3 := by
  simp only [verifierPoints, checkProg, Prog.asked, List.length_cons, rounds_length, hL H hw, min_self]

/-- The same for the multipoint argument. -/
theorem forks_tree (hK : 4 ≤ K') {n m : ℕ} {pre : List (List Byte × F)} (hm : m + n = k) (hp : pre.length = m + 3)
    (hf : ForksAt K t₀ Win ha out K' n pre) : ∃ T : Tree F G n, T.Distinct ∧ ∀ p ∈ T.leaves, ∃ H, Win H ∧
      answered (ha H) (verifierPoints K (ha H) t₀ (out H)) = pre ++ (answered (ha H) (verifierPoints K (ha H) t₀ (out H))).drop (m + 3) ∧
      ((answered (ha H) (verifierPoints K (ha H) t₀ (out H))).drop (m + 3)).map Prod.snd = p.1 ∧
      (out H).2.openProof.L.drop m = p.2.L ∧ (out H).2.openProof.R.drop m = p.2.R ∧ (out H).2.openProof.a = p.2.a :=
  forks_tree_at (o := 3) K Win (fun H => answered (ha H) (verifierPoints K (ha H) t₀ (out H))) (fun H => (out H).2.openProof) hL
    (fun _ hw _ _ h => points_get K t₀ Win ha out hL hw h) hK hm hp hf

/-- A family of winning runs for the same queries. -/
theorem forks_family {N qmax : ℕ} (hq : ∀ H, Win H → (out H).1 ≠ [] ∧ (out H).1.length ≤ qmax) (hK : 4 ≤ K')
    (hK' : 2 * N + qmax ≤ K' + 1) (hf : ForksAt K t₀ Win ha out K' (k + 3) []) :
    ∃ (qs : List (VerifierQuery F G)) (X : MultiTree F G qs.length (N + qs.length - 1) k), X.Distinct N ∧
      (∃ H, Win H ∧ (out H).1 = qs) ∧ ∀ i j u, ∀ p ∈ (X.ipa i j u).leaves, ∃ H, Win H ∧ out H = (qs, ⟨p.2, X.D i⟩) ∧
        drawn ⟨K, ha H⟩ t₀ ⟨p.2, X.D i⟩ qs = (X.r i, X.t i j, X.w i j u, p.1) := by
  obtain ⟨s1, r, hr, h1⟩ := hf
  have hhead : ∀ H, ∀ x pre', answered (ha H) (verifierPoints K (ha H) t₀ (out H)) = (s1, x) :: pre' → rPoint K t₀ (out H).1 = s1 := by
    intro H x pre' h
    simp only [answered, verifierPoints, checkProg, Prog.asked, List.map_cons, List.cons.injEq, Prod.mk.injEq] at h
    exact h.1.1
  obtain ⟨H₁, hw₁, pre₁, hp₁⟩ := forks_some K t₀ Win ha out (h1 0)
  have hs1 := hhead H₁ _ _ hp₁.symm
  obtain ⟨q1, q2⟩ := hq H₁ hw₁
  set qs := (out H₁).1
  have hl : qs.length ≠ 0 := by simpa using q1
  have hqs : ∀ H, ∀ x pre', answered (ha H) (verifierPoints K (ha H) t₀ (out H)) = (s1, x) :: pre' → (out H).1 = qs := fun H x pre' h =>
    rPoint_inj K t₀ ((hhead H x pre' h).trans hs1.symm)
  simp only [List.nil_append] at h1
  choose s2 t ht h2 using h1
  have hD : ((Finset.range N).image fun p : ℕ => (p : F)).card ≤ N := Finset.card_image_le.trans (by simp)
  have h3 := fun i => pick_fin (ht i) ((Finset.range N).image fun p : ℕ => (p : F)) (m := N + qs.length - 1) (by omega)
  choose g2 hg2 hg2' using h3
  have h4 : ∀ (i : Fin (K' + 1)) (j : Fin (N + qs.length - 1 + 1)), ∃ (w : Fin 2 → F) (T : Fin 2 → Tree F G k), OpenDistinct w T ∧
      ∀ u, ∀ p ∈ (T u).leaves, ∃ H, Win H ∧ out H = (qs, ⟨p.2, (first K (s2 i)).getD 0⟩) ∧
        drawn ⟨K, ha H⟩ t₀ (out H).2 qs = (r i, t i (g2 i j), w u, p.1) := by
    intro i j
    obtain ⟨s3, w, hw, h5⟩ := h2 i (g2 i j)
    obtain ⟨g3, hg3, hg3'⟩ := pick_fin hw {0} (m := 1) (by simp; omega)
    have h6 := fun u => forks_tree K t₀ Win ha out hL hK (n := k) (m := 0) (by omega) (by simp) (h5 (g3 u))
    choose T hT hT' using h6
    refine ⟨fun u => w (g3 u), T, ⟨fun e => absurd (hg3 (hw e)) (by decide), fun u => by simpa using hg3' u, hT⟩, fun u p hp => ?_⟩
    obtain ⟨H, hwin, e1, e2, e3, e4, e5⟩ := hT' u p hp
    have e6 := hqs H _ _ e1
    have e7 : (out H).2.gx = (first K (s2 i)).getD 0 := by
      have e8 : lbl "r" ++ K.encS (ha H (rPoint K t₀ (out H).1)) ++ lbl "D" ++ K.encE (out H).2.gx ++ lbl "t" = s2 i := by
        simp only [answered, verifierPoints, checkProg, Prog.asked, List.map_cons, List.cons_append, List.nil_append, List.cons.injEq,
          Prod.mk.injEq] at e1
        exact e1.2.1.1
      rw [← e8]
      have := first_of K (a := lbl "r" ++ K.encS (ha H (rPoint K t₀ (out H).1))) (by simp [K.encS_len, lbl]) (asU8 'D'.toNat)
        (out H).2.gx (lbl "t")
      rw [show lbl "D" = [asU8 'D'.toNat] from rfl, this]
      rfl
    refine ⟨H, hwin, ?_, ?_⟩
    · have e9 : (out H).2 = ⟨p.2, (first K (s2 i)).getD 0⟩ := by
        rw [← e7]
        have : (out H).2.openProof = p.2 := by
          rcases ho : (out H).2.openProof with ⟨L, R, a⟩
          rw [ho] at e3 e4 e5
          rcases hp2 : p.2 with ⟨L', R', a'⟩
          rw [hp2] at e3 e4 e5
          simp only [List.drop_zero] at e3 e4 e5
          rw [e3, e4, e5]
        rw [← this]
      exact Prod.ext e6 e9
    · rw [← e6]
      apply drawn_asked
      have e9 : (verifierPoints K (ha H) t₀ (out H)).map (ha H) = (answered (ha H) (verifierPoints K (ha H) t₀ (out H))).map Prod.snd := by
        simp [answered, List.map_map, Function.comp_def]
      rw [show ((out H).1, (out H).2) = out H from rfl, e9, e1, List.map_append, e2]
      rfl
  choose w T hT hT' using h4
  have hc : ∀ i : Fin qs.length, i.1 < K' + 1 := fun i => by omega
  refine ⟨qs, ⟨fun i => r ⟨i, hc i⟩, fun i => (first K (s2 ⟨i, hc i⟩)).getD 0, fun i j => t ⟨i, hc i⟩ (g2 ⟨i, hc i⟩ j),
    fun i => w ⟨i, hc i⟩, fun i => T ⟨i, hc i⟩⟩, ⟨fun i i' e => ?_, fun i j j' e => hg2 _ (ht _ e), fun i j p hp e => ?_,
    fun i j => hT _ _⟩, ⟨H₁, hw₁, rfl⟩, fun i j u p hp => ?_⟩
  · exact Fin.ext (by simpa using hr e)
  · exact hg2' ⟨i, hc i⟩ j (Finset.mem_image.mpr ⟨p, by simpa using hp, e.symm⟩)
  · obtain ⟨H, e1, e2, e3⟩ := hT' _ _ u p hp
    refine ⟨H, e1, e2, ?_⟩
    rw [e2] at e3
    exact e3

end

/-! ### The theorems -/

/-- A program that wins for more than a small part of the hashes has a family of winning runs for the same queries. -/
theorem rom_family_of {E : Type} [Fintype E] {red : E → F} {B : ℕ} (hred : Spread red B) {β : Type} {k N n qmax : ℕ} (hn : n ≠ 0) (K : WireCodec F G) (t₀ : Transcript)
    (A : Prog (List Byte) E β) (hA : A.Within N) (view : β → List (VerifierQuery F G) × MultiProof F G) (H₀ : List Byte → E)
    (D : Finset (List Byte)) (hD : ∀ s : List Byte, s.length ≤ t₀.length + 99 * qmax + 190 → s ∈ D) (Win : (List Byte → E) → Prop)
    (hwin : ∀ H, Win H → (view (A.run H)).1 ≠ [] ∧ (view (A.run H)).1.length ≤ qmax ∧
      (view (A.run H)).2.openProof.L.length = k ∧ (view (A.run H)).2.openProof.R.length = k)
    (h : (N + k + 3) * (B * (2 * n + qmax + 1 + 2 * (N + k + 3))) * Fintype.card E ^ D.card <
      Fintype.card E * Fintype.card {H : D → E // Win (over H₀ H)}) :
    ∃ (qs : List (VerifierQuery F G)) (X : MultiTree F G qs.length (n + qs.length - 1) k), X.Distinct n ∧
      (∃ H : D → E, Win (over H₀ H) ∧ (view (A.run (over H₀ H))).1 = qs) ∧ ∀ i j u, ∀ p ∈ (X.ipa i j u).leaves, ∃ H : D → E, Win (over H₀ H) ∧ view (A.run (over H₀ H)) = (qs, ⟨p.2, X.D i⟩) ∧
        drawn ⟨K, fun s => red (over H₀ H s)⟩ t₀ ⟨p.2, X.D i⟩ qs = (X.r i, X.t i j, X.w i j u, p.1) := by
  obtain ⟨Win', hWin'⟩ : ∃ Win' : (List Byte → E) → Prop, ∀ H, Win' H ↔ Win H ∧ ∃ H' : D → E, H = over H₀ H' :=
    ⟨_, fun _ => Iff.rfl⟩
  have hwin' := fun H (h : Win' H) => hwin H ((hWin' H).1 h).1
  let P : Prog (List Byte) E Unit := A.bind fun o =>
    if (view o).2.openProof.L.length ≤ k then (checkProg K t₀ (view o).1 (view o).2).lift red else .ret ()
  have hP : P.Within (N + (k + 3)) := by
    apply Prog.Within.bind _ hA
    intro o
    split
    · rename_i hk
      exact Prog.Within.lift red (n := k + 3) (P := checkProg K t₀ (view o).1 (view o).2) fun r tt w => rounds_within K _ _ _ k hk
    · trivial
  by_cases hno : ForksAt K t₀ Win' (fun H s => red (H s)) (fun H => view (A.run H)) (2 * n + qmax + 1) (k + 3) []
  · obtain ⟨H, hw, _⟩ := forks_some K t₀ Win' (fun H s => red (H s)) (fun H => view (A.run H)) hno
    have hq0 := hwin' H hw
    have hq1 : (view (A.run H)).1.length ≠ 0 := by simpa using hq0.1
    obtain ⟨qs, X, hX, ⟨H', h1, h2⟩, hX'⟩ := forks_family (k := k) K t₀ Win' (fun H s => red (H s)) (fun H => view (A.run H)) (fun H h => (hwin' H h).2.2)
      (N := n) (qmax := qmax) (fun H h => ⟨(hwin' H h).1, (hwin' H h).2.1⟩) (by omega) (by omega) hno
    obtain ⟨h1, H', rfl⟩ := (hWin' _).1 h1
    refine ⟨qs, X, hX, ⟨H', h1, h2⟩, fun i j u p hp => ?_⟩
    obtain ⟨H, h1, h2, h3⟩ := hX' i j u p hp
    obtain ⟨h1, H, rfl⟩ := (hWin' _).1 h1
    exact ⟨H, h1, h2, h3⟩
  · have hle := fork_of (D := D) (named K) hred H₀ hP Win' (fun H => verifierPoints K (fun s => red (H s)) t₀ (view (A.run H))) (2 * n + qmax + 1) (k + 3)
      (fun H hw => points_length K t₀ Win' (fun H s => red (H s)) (fun H => view (A.run H)) (fun H h => (hwin' H h).2.2) hw)
      (fun H hw s hs => hD s ((points_bytes K _ t₀ _ s hs).trans (by
        have := (hwin' H hw).2.1
        omega)))
      (fun H hw s hs => by
        rw [Prog.asked_bind, if_pos (hwin' H hw).2.2.1.le, Prog.lift_asked]
        exact List.mem_append_right _ hs)
      (fun H _ => points_linked K _ t₀ _) hno
    rw [← Nat.add_assoc N k 3] at hle
    refine absurd h (not_lt.mpr (le_trans (Nat.mul_le_mul_left _ ?_) hle))
    convert Fintype.card_subtype_mono _ (fun H : D → E => Win' (over H₀ H)) fun H h => (hWin' _).2 ⟨h, H, rfl⟩

/-- `rom_family_of` for a random function into the field. -/
theorem rom_family [Fintype F] {β : Type} {k N n qmax : ℕ} (hn : n ≠ 0) (K : WireCodec F G) (t₀ : Transcript)
    (A : Prog (List Byte) F β) (hA : A.Within N) (view : β → List (VerifierQuery F G) × MultiProof F G) (H₀ : List Byte → F)
    (D : Finset (List Byte)) (hD : ∀ s : List Byte, s.length ≤ t₀.length + 99 * qmax + 190 → s ∈ D) (Win : (List Byte → F) → Prop)
    (hwin : ∀ H, Win H → (view (A.run H)).1 ≠ [] ∧ (view (A.run H)).1.length ≤ qmax ∧
      (view (A.run H)).2.openProof.L.length = k ∧ (view (A.run H)).2.openProof.R.length = k)
    (h : (N + k + 3) * (2 * n + qmax + 1 + 2 * (N + k + 3)) * Fintype.card F ^ D.card <
      Fintype.card F * Fintype.card {H : D → F // Win (over H₀ H)}) :
    ∃ (qs : List (VerifierQuery F G)) (X : MultiTree F G qs.length (n + qs.length - 1) k), X.Distinct n ∧
      (∃ H : D → F, Win (over H₀ H) ∧ (view (A.run (over H₀ H))).1 = qs) ∧ ∀ i j u, ∀ p ∈ (X.ipa i j u).leaves, ∃ H : D → F, Win (over H₀ H) ∧ view (A.run (over H₀ H)) = (qs, ⟨p.2, X.D i⟩) ∧
        drawn ⟨K, over H₀ H⟩ t₀ ⟨p.2, X.D i⟩ qs = (X.r i, X.t i j, X.w i j u, p.1) :=
  rom_family_of spread_id hn K t₀ A hA view H₀ D hD Win hwin (by rw [one_mul]; exact h)

/-- The verifier accepts only proofs with the right number of rounds. -/
theorem checkMulti_rounds {k : ℕ} {crs : CRS G} (hn : crs.n = 2 ^ k) (hg : crs.gens.length = 2 ^ k) {O : Oracle F G}
    {p : MultiProof F G} {W : Weights F} {qs : List (VerifierQuery F G)} {t t' : Transcript}
    (h : checkMulti O p crs W qs t = .ok (true, t')) : p.openProof.L.length = k ∧ p.openProof.R.length = k := by
  obtain ⟨t₁, b, c, z, y, hv⟩ : ∃ t₁ b c z y, verifyMultiexp O p.openProof t₁ crs b c z y = .ok (true, t') := by
    unfold checkMulti at h
    simp only [bind, Except.bind] at h
    split at h
    · cases h
    · split at h
      · cases h
      · exact ⟨_, _, _, _, _, h⟩
  have h64 : p.openProof.L.length < 64 := by
    by_contra hc
    rw [verifyMultiexp, if_pos (not_lt.mp hc)] at hv
    cases hv
  have hL : crs.n = 2 ^ p.openProof.L.length := by
    by_contra hc
    rw [verifyMultiexp, if_neg (not_le.mpr h64), if_pos hc] at hv
    cases hv
  have hk : p.openProof.L.length = k := Nat.pow_right_injective (le_refl 2) (hL.symm.trans hn)
  refine ⟨hk, ?_⟩
  rcases lt_trichotomy p.openProof.R.length p.openProof.L.length with hlt | he | hlt
  · obtain ⟨_, ⟨e, he⟩, _⟩ := C29_short_R_panics O p.openProof hlt h64 hL t₁ b c z y
    rw [he] at hv
    cases hv
  · rw [he, hk]
  · obtain ⟨_, ⟨e, he⟩, _⟩ := C29_long_R O (hg.trans hn.symm) p.openProof hlt h64 hL t₁ b c z y
    rw [he] at hv
    cases hv

/-- The output of a program is accepted by `check` of the multipoint argument: at most `qmax` queries at points of the domain. -/
def Forges (K : WireCodec F G) (t₀ : Transcript) (crs : CRS G) (W : Weights F) (qmax : ℕ)
    (A : Prog (List Byte) F (List (VerifierQuery F G) × MultiProof F G)) (H : List Byte → F) : Prop :=
  (A.run H).1 ≠ [] ∧ (A.run H).1.length ≤ qmax ∧ (∀ q ∈ (A.run H).1, ∃ p, p < crs.n ∧ q.point = (p : F)) ∧
    ∃ t', checkMulti ⟨K, H⟩ (A.run H).2 crs W (A.run H).1 t₀ = .ok (true, t')

/-- What `C66_random_oracle` says, for a hash with values in `E` that `red` turns into challenges, each from at most `B` values.  The
output of a run, `.ret (A.run H)`, wins for the challenges of the run. -/
theorem rom_multi_of {E : Type} [Fintype E] {red : E → F} {B : ℕ} (hred : Spread red B) {k N qmax : ℕ} {crs : CRS G} (hn : crs.n = 2 ^ k) (hg : crs.gens.length = 2 ^ k)
    (hF : Distinct F crs.n) {W : Weights F} (hW : Weights.new F crs.n = .ok W) (K : WireCodec F G) (t₀ : Transcript)
    (A : Prog (List Byte) E (List (VerifierQuery F G) × MultiProof F G)) (hA : A.Within N) (H₀ : List Byte → E)
    (D : Finset (List Byte)) (hD : ∀ s : List Byte, s.length ≤ t₀.length + 99 * qmax + 190 → s ∈ D)
    (h : (N + k + 3) * (B * (2 * crs.n + qmax + 1 + 2 * (N + k + 3))) * Fintype.card E ^ D.card <
      Fintype.card E * Fintype.card {H : D → E // Forges K t₀ crs W qmax (.ret (A.run (over H₀ H))) (fun s => red (over H₀ H s))}) :
    ∃ (qs : List (VerifierQuery F G)) (X : MultiTree F G qs.length (crs.n + qs.length - 1) k), X.Distinct crs.n ∧
      (∀ i j u, ∀ p ∈ (X.ipa i j u).leaves, ∃ H : D → E, Forges K t₀ crs W qmax (.ret (A.run (over H₀ H))) (fun s => red (over H₀ H s)) ∧
        A.run (over H₀ H) = (qs, ⟨p.2, X.D i⟩) ∧
        drawn ⟨K, fun s => red (over H₀ H s)⟩ t₀ ⟨p.2, X.D i⟩ qs = (X.r i, X.t i j, X.w i j u, p.1)) ∧
      ((∃ ρ ∈ X.rels qs.get crs.n, ρ ≠ 0 ∧ ∑ i : Fin crs.n, ρ.1 i • crs.gens.getD i 0 + ρ.2 • crs.Q = 0) ∨
      ∃ v : Fin qs.length → Fin crs.n → F, (∀ l, X.vec qs.get crs.n l = (v l, 0)) ∧
        (∀ l, ∑ i : Fin crs.n, v l i • crs.gens.getD i 0 = (qs.get l).commitment) ∧
        (∀ l (p : Fin crs.n), (qs.get l).point = ((p : ℕ) : F) → v l p = (qs.get l).result) ∧
        ∀ l l', (qs.get l).commitment = (qs.get l').commitment → v l = v l') := by
  obtain ⟨qs, X, hX, ⟨H, hH, rfl⟩, hX'⟩ := rom_family_of hred (k := k) (by rw [hn]; positivity) K t₀ A hA id H₀ D hD
    (fun H => Forges K t₀ crs W qmax (.ret (A.run H)) (fun s => red (H s))) (fun H h => ⟨h.1, h.2.1, checkMulti_rounds hn hg h.2.2.2.choose_spec⟩) h
  refine ⟨_, X, hX, hX', C56_multipoint_sound hn hg hF hW hH.2.2.1 (by simp only [id, Prog.run]; omega) X hX ?_⟩
  intro i j u p hp
  obtain ⟨H', h1, h2, h3⟩ := hX' i j u p hp
  obtain ⟨t', h4⟩ := h1.2.2.2
  simp only [id] at h2
  rw [h2] at h4
  exact ⟨⟨K, fun s => red (over H₀ H' s)⟩, t₀, t', h3, h4⟩

/-- C66.  Let a program ask the hash at most `N` times and output queries and a proof.  Let the hash be random on a finite set
`D` that contains all strings the verifier may hash, and arbitrary elsewhere.  If the verifier accepts for more than the part
`(N + k + 3) (2 n + q + 1 + 2 (N + k + 3)) / |F|` of the hashes, there are runs of the program, all with the same queries,
from which a non-trivial relation between the generators and `Q`, or vectors that open the commitments and have the claimed
results, are computed. -/
theorem C66_random_oracle [Fintype F] {k N qmax : ℕ} {crs : CRS G} (hn : crs.n = 2 ^ k) (hg : crs.gens.length = 2 ^ k)
    (hF : Distinct F crs.n) {W : Weights F} (hW : Weights.new F crs.n = .ok W) (K : WireCodec F G) (t₀ : Transcript)
    (A : Prog (List Byte) F (List (VerifierQuery F G) × MultiProof F G)) (hA : A.Within N) (H₀ : List Byte → F)
    (D : Finset (List Byte)) (hD : ∀ s : List Byte, s.length ≤ t₀.length + 99 * qmax + 190 → s ∈ D)
    (h : (N + k + 3) * (2 * crs.n + qmax + 1 + 2 * (N + k + 3)) * Fintype.card F ^ D.card <
      Fintype.card F * Fintype.card {H : D → F // Forges K t₀ crs W qmax A (over H₀ H)}) :
    ∃ (qs : List (VerifierQuery F G)) (X : MultiTree F G qs.length (crs.n + qs.length - 1) k), X.Distinct crs.n ∧
      (∀ i j u, ∀ p ∈ (X.ipa i j u).leaves, ∃ H : D → F, Forges K t₀ crs W qmax A (over H₀ H) ∧
        A.run (over H₀ H) = (qs, ⟨p.2, X.D i⟩) ∧
        drawn ⟨K, over H₀ H⟩ t₀ ⟨p.2, X.D i⟩ qs = (X.r i, X.t i j, X.w i j u, p.1)) ∧
      ((∃ ρ ∈ X.rels qs.get crs.n, ρ ≠ 0 ∧ ∑ i : Fin crs.n, ρ.1 i • crs.gens.getD i 0 + ρ.2 • crs.Q = 0) ∨
      ∃ v : Fin qs.length → Fin crs.n → F, (∀ l, X.vec qs.get crs.n l = (v l, 0)) ∧
        (∀ l, ∑ i : Fin crs.n, v l i • crs.gens.getD i 0 = (qs.get l).commitment) ∧
        (∀ l (p : Fin crs.n), (qs.get l).point = ((p : ℕ) : F) → v l p = (qs.get l).result) ∧
        ∀ l l', (qs.get l).commitment = (qs.get l').commitment → v l = v l') :=
  rom_multi_of spread_id hn hg hF hW K t₀ A hA H₀ D hD (by rw [one_mul]; exact h)

/-- The claims about a key: as in `C21_accepted_claims_true_partial`, claims of absence below the path of a stem are not counted as false. -/
def FalseClaim (l : List (Key × Value)) (db : MemoryDb F G) (hint : VerificationHint) (keys : List Key) (k : Key)
    (v : Option Value) : Prop :=
  (∃ w, v = some w ∧ Trie.get db k ≠ some w) ∨
  (v = none ∧ Trie.get db k ≠ none ∧ ¬ ∃ d, HintEntry hint keys k.stem .none d ∧
    ∃ j, 0 < j ∧ j < d ∧ ∃ s, Under (lastWrite l) (k.stem.1.take j) s ∧ ∀ t, Under (lastWrite l) (k.stem.1.take j) t → t = s)

/-- The output of a program, a proof with keys and values, is accepted by `check` against `root` and makes a false claim that it does
not dispute itself.  There are at most `qmax` queries. -/
def ForgesClaim (K : WireCodec F G) (C : Crypto F G) (Q : G) (order : List (ProverQuery F G) → List ℕ) (l : List (Key × Value))
    (db : MemoryDb F G) (root : G) (qmax : ℕ)
    (A : Prog (List Byte) F (VerkleProof G (MultiProof F G) × List Key × List (Option Value))) (H : List Byte → F) : Prop :=
  let o := A.run H
  o.2.1.length = o.2.2.length ∧
  (∃ qs uh, createVerifierQueries C o.1.hint o.1.comms o.2.1 o.2.2 root = .ok (some (qs, uh)) ∧ qs.length ≤ qmax) ∧
  (∃ uh, check C (multiOpener ⟨K, H⟩ C Q order) o.1 o.2.1 o.2.2 root = .ok (true, uh)) ∧
  ∃ k v, (k, v) ∈ o.2.1.zip o.2.2 ∧ Undisputed o.1.hint o.2.1 o.2.2 k v ∧ FalseClaim l db o.1.hint o.2.1 k v

/-- The queries that `check` makes for a proof with keys and values. -/
def MakesQueries (C : Crypto F G) (root : G) (o : VerkleProof G (MultiProof F G) × List Key × List (Option Value))
    (qs : List (VerifierQuery F G)) : Prop :=
  ∃ uh, createVerifierQueries C o.1.hint o.1.comms o.2.1 o.2.2 root = .ok (some (qs, uh))

/-- The queries and the opening proof of a proof. -/
def viewOf (C : Crypto F G) (root : G) (o : VerkleProof G (MultiProof F G) × List Key × List (Option Value)) :
    List (VerifierQuery F G) × MultiProof F G :=
  (match createVerifierQueries C o.1.hint o.1.comms o.2.1 o.2.2 root with
    | .ok (some (qs, _)) => qs
    | _ => [], o.1.proof)

/-- A program whose output contains a proof with keys and values and determines a root.  Suppose that winning means that `check` accepts, with
at most `qmax` queries.  If it wins for more than the part `(N + 11) (513 + q + 2 (N + 11)) B / |E|` of the hashes, there are winning runs, all
with the same queries, from which a non-trivial relation between the generators and `Q` or openings of the queries are computed. -/
theorem rom_extract_of {E : Type} [Fintype E] {red : E → F} {B : ℕ} (hred : Spread red B) {β : Type} {N qmax : ℕ} (hF : BigField F) (K : WireCodec F G) (C : Crypto F G) (Q : G)
    (order : List (ProverQuery F G) → List ℕ) (A : Prog (List Byte) E β)
    (hA : A.Within N) (rootOf : β → G)
    (out : β → VerkleProof G (MultiProof F G) × List Key × List (Option Value)) (Win : (List Byte → E) → Prop)
    (hwin : ∀ H, Win H → ∃ qs uh, createVerifierQueries C (out (A.run H)).1.hint (out (A.run H)).1.comms (out (A.run H)).2.1
        (out (A.run H)).2.2 (rootOf (A.run H)) = .ok (some (qs, uh)) ∧ qs.length ≤ qmax ∧
      (∃ uh, check C (multiOpener ⟨K, fun s => red (H s)⟩ C Q order) (out (A.run H)).1 (out (A.run H)).2.1 (out (A.run H)).2.2 (rootOf (A.run H)) =
        .ok (true, uh)))
    (H₀ : List Byte → E) (D : Finset (List Byte)) (hD : ∀ s : List Byte, s.length ≤ 99 * qmax + 192 → s ∈ D)
    (h : (N + 11) * (B * (513 + qmax + 2 * (N + 11))) * Fintype.card E ^ D.card <
      Fintype.card E * Fintype.card {H : D → E // Win (over H₀ H)}) :
    ∃ (qs : List (VerifierQuery F G)) (X : MultiTree F G qs.length (255 + qs.length) 8), X.Distinct 256 ∧
      (∀ i j u, ∀ p ∈ (X.ipa i j u).leaves, ∃ H : D → E, Win (over H₀ H) ∧
        MakesQueries C (rootOf (A.run (over H₀ H))) (out (A.run (over H₀ H))) qs ∧ (out (A.run (over H₀ H))).1.proof = ⟨p.2, X.D i⟩ ∧
        drawn ⟨K, fun s => red (over H₀ H s)⟩ (newTranscript (lbl "vt")) ⟨p.2, X.D i⟩ qs = (X.r i, X.t i j, X.w i j u, p.1)) ∧
      (∃ H : D → E, Win (over H₀ H) ∧ MakesQueries C (rootOf (A.run (over H₀ H))) (out (A.run (over H₀ H))) qs) ∧
      ((∃ ρ ∈ X.rels qs.get 256, ρ ≠ 0 ∧ ∑ i : Fin 256, ρ.1 i • C.g i + ρ.2 • Q = 0) ∨ Extracts C (vecOf qs X) qs) := by
  have hdist : Ipa.Distinct F 256 := fun i j hi hj h => hF i j (hi.trans (by norm_num)) (hj.trans (by norm_num)) h
  obtain ⟨W, hW, _⟩ := new_good hdist (by norm_num)
  obtain ⟨view, hview⟩ : ∃ view : β → List (VerifierQuery F G) × MultiProof F G, ∀ o, view o = viewOf C (rootOf o) (out o) :=
    ⟨_, fun _ => rfl⟩
  have hasks : ∀ H, Win H → MakesQueries C (rootOf (A.run H)) (out (A.run H)) (view (A.run H)).1 := by
    intro H hH
    obtain ⟨qs, uh, h4, _⟩ := hwin H hH
    have hv : (view (A.run H)).1 = qs := by simp only [hview, viewOf, h4]
    rw [hv]
    exact ⟨uh, h4⟩
  by_cases hemp : ∃ H : D → E, Win (over H₀ H) ∧ (view (A.run (over H₀ H))).1 = []
  · obtain ⟨H, hH, he⟩ := hemp
    have hask := hasks _ hH
    rw [he] at hask
    exact ⟨[], ⟨Fin.elim0, Fin.elim0, fun i => i.elim0, fun i => i.elim0, fun i => i.elim0⟩,
      ⟨fun i => i.elim0, fun i => i.elim0, fun i => i.elim0, fun i => i.elim0⟩, fun i => i.elim0, ⟨H, hH, hask⟩,
      Or.inr (by intro q hq; simp at hq)⟩
  obtain ⟨Win', hWin⟩ : ∃ Win' : (List Byte → E) → Prop, ∀ H, Win' H ↔ Win H ∧ (view (A.run H)).1 ≠ [] := ⟨_, fun _ => Iff.rfl⟩
  have hcard : Fintype.card {H : D → E // Win (over H₀ H)} ≤ Fintype.card {H : D → E // Win' (over H₀ H)} :=
    Fintype.card_subtype_mono _ _ fun H hH => (hWin _).2 ⟨hH, fun he => hemp ⟨H, hH, he⟩⟩
  have hbd : (N + 8 + 3) * (B * (2 * 256 + qmax + 1 + 2 * (N + 8 + 3))) = (N + 11) * (B * (513 + qmax + 2 * (N + 11))) := by ring
  obtain ⟨qs, X, hX, ⟨H, hH, hqs⟩, hX'⟩ := rom_family_of hred (k := 8) (N := N) (n := 256) (qmax := qmax) (by norm_num) K
    (newTranscript (lbl "vt")) A hA view H₀ D
    (fun s hs => hD s (by
      have : (newTranscript (lbl "vt")).length = 2 := rfl
      rw [this] at hs
      omega)) Win' (by
      intro H hH
      obtain ⟨h1, h2⟩ := (hWin H).1 hH
      obtain ⟨qs, uh, h4, h5, ⟨uh', h6⟩⟩ := hwin H h1
      have hv : (view (A.run H)).1 = qs := by simp only [hview, viewOf, h4]
      obtain ⟨t', h7⟩ := check_checkMulti h4 hW (π := (out (A.run H)).1.proof) h6
      have h8 := checkMulti_rounds (k := 8) rfl (by simp [crsOf]) h7
      exact ⟨h2, by rw [hv]; exact h5, by rw [hview]; exact h8⟩)
    (by rw [hbd]; exact lt_of_lt_of_le h (Nat.mul_le_mul_left _ hcard))
  have hE : 256 + qs.length - 1 = 255 + qs.length := by omega
  have hacc : Accepted (crsOf C Q) W qs X := by
    intro i j u p hp
    obtain ⟨H', h1, h2, h3⟩ := hX' i j u p hp
    obtain ⟨qs', uh, h4, _, ⟨uh', h5⟩⟩ := hwin _ ((hWin _).1 h1).1
    obtain ⟨t', h6⟩ := check_checkMulti h4 hW (π := (out (A.run (over H₀ H'))).1.proof) h5
    simp only [hview, viewOf, h4, Prod.mk.injEq] at h2
    rw [h2.1, h2.2] at h6
    exact ⟨_, _, t', h3, h6⟩
  have hH1 := ((hWin _).1 hH).1
  have hask := hasks _ hH1
  rw [hqs] at hask
  have hconcl : (∃ ρ ∈ X.rels qs.get 256, ρ ≠ 0 ∧ ∑ i : Fin 256, ρ.1 i • C.g i + ρ.2 • Q = 0) ∨ Extracts C (vecOf qs X) qs :=
    rewound_extracts hF C Q (by
      obtain ⟨uh, h4⟩ := hask
      exact queries_at_bytes h4) hW (by omega) X hX hacc
  have hleaf : ∀ i j u, ∀ p ∈ (X.ipa i j u).leaves, ∃ H : D → E, Win (over H₀ H) ∧
        MakesQueries C (rootOf (A.run (over H₀ H))) (out (A.run (over H₀ H))) qs ∧ (out (A.run (over H₀ H))).1.proof = ⟨p.2, X.D i⟩ ∧
        drawn ⟨K, fun s => red (over H₀ H s)⟩ (newTranscript (lbl "vt")) ⟨p.2, X.D i⟩ qs = (X.r i, X.t i j, X.w i j u, p.1) := by
    intro i j u p hp
    obtain ⟨H', h1, h2, h3⟩ := hX' i j u p hp
    have hask := hasks _ ((hWin _).1 h1).1
    rw [h2] at hask
    rw [hview] at h2
    exact ⟨H', ((hWin _).1 h1).1, hask, congrArg Prod.snd h2, h3⟩
  clear hacc hX' hcard
  revert X
  rw [hE]
  intro X hX hconcl hleaf
  exact ⟨qs, X, hX, hleaf, ⟨H, hH1, hask⟩, hconcl⟩

/-- `rom_extract_of` for a random function into the field. -/
theorem rom_extract [Fintype F] {β : Type} {N qmax : ℕ} (hF : BigField F) (K : WireCodec F G) (C : Crypto F G) (Q : G)
    (order : List (ProverQuery F G) → List ℕ) (A : Prog (List Byte) F β)
    (hA : A.Within N) (rootOf : β → G)
    (out : β → VerkleProof G (MultiProof F G) × List Key × List (Option Value)) (Win : (List Byte → F) → Prop)
    (hwin : ∀ H, Win H → ∃ qs uh, createVerifierQueries C (out (A.run H)).1.hint (out (A.run H)).1.comms (out (A.run H)).2.1
        (out (A.run H)).2.2 (rootOf (A.run H)) = .ok (some (qs, uh)) ∧ qs.length ≤ qmax ∧
      (∃ uh, check C (multiOpener ⟨K, H⟩ C Q order) (out (A.run H)).1 (out (A.run H)).2.1 (out (A.run H)).2.2 (rootOf (A.run H)) =
        .ok (true, uh)))
    (H₀ : List Byte → F) (D : Finset (List Byte)) (hD : ∀ s : List Byte, s.length ≤ 99 * qmax + 192 → s ∈ D)
    (h : (N + 11) * (513 + qmax + 2 * (N + 11)) * Fintype.card F ^ D.card <
      Fintype.card F * Fintype.card {H : D → F // Win (over H₀ H)}) :
    ∃ (qs : List (VerifierQuery F G)) (X : MultiTree F G qs.length (255 + qs.length) 8), X.Distinct 256 ∧
      (∀ i j u, ∀ p ∈ (X.ipa i j u).leaves, ∃ H : D → F, Win (over H₀ H) ∧
        MakesQueries C (rootOf (A.run (over H₀ H))) (out (A.run (over H₀ H))) qs ∧ (out (A.run (over H₀ H))).1.proof = ⟨p.2, X.D i⟩ ∧
        drawn ⟨K, over H₀ H⟩ (newTranscript (lbl "vt")) ⟨p.2, X.D i⟩ qs = (X.r i, X.t i j, X.w i j u, p.1)) ∧
      (∃ H : D → F, Win (over H₀ H) ∧ MakesQueries C (rootOf (A.run (over H₀ H))) (out (A.run (over H₀ H))) qs) ∧
      ((∃ ρ ∈ X.rels qs.get 256, ρ ≠ 0 ∧ ∑ i : Fin 256, ρ.1 i • C.g i + ρ.2 • Q = 0) ∨ Extracts C (vecOf qs X) qs) :=
  rom_extract_of spread_id hF K C Q order A hA rootOf out Win hwin H₀ D hD (by rw [one_mul]; exact h)

/-- A program whose output contains a proof with keys and values and determines a trie and its root.  Suppose that winning means that `check` accepts, with at most
`qmax` queries, and that openings of the queries of a winning run break the commitments of the trie.  If it wins
for more than the part `(N + 11) (513 + q + 2 (N + 11)) B / |E|` of the hashes, there are winning runs, all with the same queries,
from which a non-trivial relation between the generators and `Q` or vectors breaking the commitments of the trie are computed. -/
theorem rom_trie_at_of {E : Type} [Fintype E] {red : E → F} {B : ℕ} (hred : Spread red B) {β : Type} {N qmax : ℕ} (hF : BigField F) (K : WireCodec F G) (C : Crypto F G) (Q : G)
    (order : List (ProverQuery F G) → List ℕ) (A : Prog (List Byte) E β)
    (hA : A.Within N) (m : β → KV) (rootOf : β → G)
    (out : β → VerkleProof G (MultiProof F G) × List Key × List (Option Value)) (Win : (List Byte → E) → Prop)
    (hwin : ∀ H, Win H → ∃ qs uh, createVerifierQueries C (out (A.run H)).1.hint (out (A.run H)).1.comms (out (A.run H)).2.1
        (out (A.run H)).2.2 (rootOf (A.run H)) = .ok (some (qs, uh)) ∧ qs.length ≤ qmax ∧
      (∃ uh, check C (multiOpener ⟨K, fun s => red (H s)⟩ C Q order) (out (A.run H)).1 (out (A.run H)).2.1 (out (A.run H)).2.2 (rootOf (A.run H)) =
        .ok (true, uh)) ∧
      ∀ vec, Extracts C vec qs → ProofBreak C (m (A.run H)) vec qs)
    (H₀ : List Byte → E) (D : Finset (List Byte)) (hD : ∀ s : List Byte, s.length ≤ 99 * qmax + 192 → s ∈ D)
    (h : (N + 11) * (B * (513 + qmax + 2 * (N + 11))) * Fintype.card E ^ D.card <
      Fintype.card E * Fintype.card {H : D → E // Win (over H₀ H)}) :
    ∃ (qs : List (VerifierQuery F G)) (X : MultiTree F G qs.length (255 + qs.length) 8), X.Distinct 256 ∧
      (∀ i j u, ∀ p ∈ (X.ipa i j u).leaves, ∃ H : D → E, Win (over H₀ H) ∧
        MakesQueries C (rootOf (A.run (over H₀ H))) (out (A.run (over H₀ H))) qs ∧ (out (A.run (over H₀ H))).1.proof = ⟨p.2, X.D i⟩ ∧
        drawn ⟨K, fun s => red (over H₀ H s)⟩ (newTranscript (lbl "vt")) ⟨p.2, X.D i⟩ qs = (X.r i, X.t i j, X.w i j u, p.1)) ∧
      ((∃ ρ ∈ X.rels qs.get 256, ρ ≠ 0 ∧ ∑ i : Fin 256, ρ.1 i • C.g i + ρ.2 • Q = 0) ∨
      ∃ H : D → E, Win (over H₀ H) ∧ MakesQueries C (rootOf (A.run (over H₀ H))) (out (A.run (over H₀ H))) qs ∧ ProofBreak C (m (A.run (over H₀ H))) (vecOf qs X) qs) := by
  obtain ⟨qs, X, hX, hleaf, ⟨H, hH, hask⟩, hconcl⟩ := rom_extract_of hred hF K C Q order A hA rootOf out Win (fun H hH => by
    obtain ⟨qs, uh, h1, h2, h3, _⟩ := hwin H hH
    exact ⟨qs, uh, h1, h2, h3⟩) H₀ D hD h
  refine ⟨qs, X, hX, hleaf, hconcl.imp_right fun hext => ⟨H, hH, hask, ?_⟩⟩
  obtain ⟨qs', uh, h1, _, _, h2⟩ := hwin _ hH
  obtain ⟨uh', h3⟩ := hask
  rw [h1] at h3
  cases h3
  exact h2 _ hext

/-- `rom_trie_at_of` for a random function into the field. -/
theorem rom_trie_at [Fintype F] {β : Type} {N qmax : ℕ} (hF : BigField F) (K : WireCodec F G) (C : Crypto F G) (Q : G)
    (order : List (ProverQuery F G) → List ℕ) (A : Prog (List Byte) F β)
    (hA : A.Within N) (m : β → KV) (rootOf : β → G)
    (out : β → VerkleProof G (MultiProof F G) × List Key × List (Option Value)) (Win : (List Byte → F) → Prop)
    (hwin : ∀ H, Win H → ∃ qs uh, createVerifierQueries C (out (A.run H)).1.hint (out (A.run H)).1.comms (out (A.run H)).2.1
        (out (A.run H)).2.2 (rootOf (A.run H)) = .ok (some (qs, uh)) ∧ qs.length ≤ qmax ∧
      (∃ uh, check C (multiOpener ⟨K, H⟩ C Q order) (out (A.run H)).1 (out (A.run H)).2.1 (out (A.run H)).2.2 (rootOf (A.run H)) =
        .ok (true, uh)) ∧
      ∀ vec, Extracts C vec qs → ProofBreak C (m (A.run H)) vec qs)
    (H₀ : List Byte → F) (D : Finset (List Byte)) (hD : ∀ s : List Byte, s.length ≤ 99 * qmax + 192 → s ∈ D)
    (h : (N + 11) * (513 + qmax + 2 * (N + 11)) * Fintype.card F ^ D.card <
      Fintype.card F * Fintype.card {H : D → F // Win (over H₀ H)}) :
    ∃ (qs : List (VerifierQuery F G)) (X : MultiTree F G qs.length (255 + qs.length) 8), X.Distinct 256 ∧
      (∀ i j u, ∀ p ∈ (X.ipa i j u).leaves, ∃ H : D → F, Win (over H₀ H) ∧
        MakesQueries C (rootOf (A.run (over H₀ H))) (out (A.run (over H₀ H))) qs ∧ (out (A.run (over H₀ H))).1.proof = ⟨p.2, X.D i⟩ ∧
        drawn ⟨K, over H₀ H⟩ (newTranscript (lbl "vt")) ⟨p.2, X.D i⟩ qs = (X.r i, X.t i j, X.w i j u, p.1)) ∧
      ((∃ ρ ∈ X.rels qs.get 256, ρ ≠ 0 ∧ ∑ i : Fin 256, ρ.1 i • C.g i + ρ.2 • Q = 0) ∨
      ∃ H : D → F, Win (over H₀ H) ∧ MakesQueries C (rootOf (A.run (over H₀ H))) (out (A.run (over H₀ H))) qs ∧ ProofBreak C (m (A.run (over H₀ H))) (vecOf qs X) qs) :=
  rom_trie_at_of spread_id hF K C Q order A hA m rootOf out Win hwin H₀ D hD (by rw [one_mul]; exact h)

/-- `rom_trie_at_of` for a fixed trie. -/
theorem rom_trie_of {E : Type} [Fintype E] {red : E → F} {B : ℕ} (hred : Spread red B) {β : Type} {N qmax : ℕ} (hF : BigField F) (K : WireCodec F G) (C : Crypto F G) (Q : G)
    (order : List (ProverQuery F G) → List ℕ) (l : List (Key × Value)) (root : G) (A : Prog (List Byte) E β) (hA : A.Within N)
    (out : β → VerkleProof G (MultiProof F G) × List Key × List (Option Value)) (Win : (List Byte → E) → Prop)
    (hwin : ∀ H, Win H → ∃ qs uh, createVerifierQueries C (out (A.run H)).1.hint (out (A.run H)).1.comms (out (A.run H)).2.1
        (out (A.run H)).2.2 root = .ok (some (qs, uh)) ∧ qs.length ≤ qmax ∧
      (∃ uh, check C (multiOpener ⟨K, fun s => red (H s)⟩ C Q order) (out (A.run H)).1 (out (A.run H)).2.1 (out (A.run H)).2.2 root =
        .ok (true, uh)) ∧
      ∀ vec, Extracts C vec qs → ProofBreak C (lastWrite l) vec qs)
    (H₀ : List Byte → E) (D : Finset (List Byte)) (hD : ∀ s : List Byte, s.length ≤ 99 * qmax + 192 → s ∈ D)
    (h : (N + 11) * (B * (513 + qmax + 2 * (N + 11))) * Fintype.card E ^ D.card <
      Fintype.card E * Fintype.card {H : D → E // Win (over H₀ H)}) :
    ∃ (qs : List (VerifierQuery F G)) (X : MultiTree F G qs.length (255 + qs.length) 8), X.Distinct 256 ∧
      (∀ i j u, ∀ p ∈ (X.ipa i j u).leaves, ∃ H : D → E, Win (over H₀ H) ∧
        MakesQueries C root (out (A.run (over H₀ H))) qs ∧ (out (A.run (over H₀ H))).1.proof = ⟨p.2, X.D i⟩ ∧
        drawn ⟨K, fun s => red (over H₀ H s)⟩ (newTranscript (lbl "vt")) ⟨p.2, X.D i⟩ qs = (X.r i, X.t i j, X.w i j u, p.1)) ∧
      ((∃ ρ ∈ X.rels qs.get 256, ρ ≠ 0 ∧ ∑ i : Fin 256, ρ.1 i • C.g i + ρ.2 • Q = 0) ∨
      ProofBreak C (lastWrite l) (vecOf qs X) qs) := by
  obtain ⟨qs, X, h1, h2, h3⟩ := rom_trie_at_of hred hF K C Q order A hA (fun _ => lastWrite l) (fun _ => root) out Win hwin H₀ D hD h
  exact ⟨qs, X, h1, h2, h3.imp_right fun ⟨_, _, _, h4⟩ => h4⟩

/-- `rom_trie_of` for a random function into the field. -/
theorem rom_trie [Fintype F] {β : Type} {N qmax : ℕ} (hF : BigField F) (K : WireCodec F G) (C : Crypto F G) (Q : G)
    (order : List (ProverQuery F G) → List ℕ) (l : List (Key × Value)) (root : G) (A : Prog (List Byte) F β) (hA : A.Within N)
    (out : β → VerkleProof G (MultiProof F G) × List Key × List (Option Value)) (Win : (List Byte → F) → Prop)
    (hwin : ∀ H, Win H → ∃ qs uh, createVerifierQueries C (out (A.run H)).1.hint (out (A.run H)).1.comms (out (A.run H)).2.1
        (out (A.run H)).2.2 root = .ok (some (qs, uh)) ∧ qs.length ≤ qmax ∧
      (∃ uh, check C (multiOpener ⟨K, H⟩ C Q order) (out (A.run H)).1 (out (A.run H)).2.1 (out (A.run H)).2.2 root =
        .ok (true, uh)) ∧
      ∀ vec, Extracts C vec qs → ProofBreak C (lastWrite l) vec qs)
    (H₀ : List Byte → F) (D : Finset (List Byte)) (hD : ∀ s : List Byte, s.length ≤ 99 * qmax + 192 → s ∈ D)
    (h : (N + 11) * (513 + qmax + 2 * (N + 11)) * Fintype.card F ^ D.card <
      Fintype.card F * Fintype.card {H : D → F // Win (over H₀ H)}) :
    ∃ (qs : List (VerifierQuery F G)) (X : MultiTree F G qs.length (255 + qs.length) 8), X.Distinct 256 ∧
      (∀ i j u, ∀ p ∈ (X.ipa i j u).leaves, ∃ H : D → F, Win (over H₀ H) ∧
        MakesQueries C root (out (A.run (over H₀ H))) qs ∧ (out (A.run (over H₀ H))).1.proof = ⟨p.2, X.D i⟩ ∧
        drawn ⟨K, over H₀ H⟩ (newTranscript (lbl "vt")) ⟨p.2, X.D i⟩ qs = (X.r i, X.t i j, X.w i j u, p.1)) ∧
      ((∃ ρ ∈ X.rels qs.get 256, ρ ≠ 0 ∧ ∑ i : Fin 256, ρ.1 i • C.g i + ρ.2 • Q = 0) ∨
      ProofBreak C (lastWrite l) (vecOf qs X) qs) :=
  rom_trie_of spread_id hF K C Q order l root A hA out Win hwin H₀ D hD (by rw [one_mul]; exact h)

/-- Openings of the queries for a false undisputed claim break the commitments of the trie. -/
theorem falseClaim_breaks (hF : BigField F) {C : Crypto F G} {l : List (Key × Value)} {db : MemoryDb F G}
    (hb : build C l = .ok db) {root : G} (hr : Trie.rootCommitment db = .ok root) {hint : VerificationHint} {comms : List G}
    {keys : List Key} {values : List (Option Value)} (hlen : keys.length = values.length) {qs : List (VerifierQuery F G)} {uh : UpdateHint G}
    (hq : createVerifierQueries C hint comms keys values root = .ok (some (qs, uh))) {k : Key} {v : Option Value}
    (hk : (k, v) ∈ keys.zip values) (hud : Undisputed hint keys values k v) (hf : FalseClaim l db hint keys k v) (vec : G → Byte → F) (hext : Extracts C vec qs) :
    ProofBreak C (lastWrite l) vec qs := by
  rcases extracts_claims hF C l hb hr hlen hq hext with h7 | h7
  · exact h7
  · obtain ⟨h8, h9⟩ := h7 k v hk hud
    rcases hf with ⟨w, rfl, h6⟩ | ⟨rfl, h6, h10⟩
    · exact absurd (h8 w rfl) h6
    · exact ((h9 rfl).elim h6 h10).elim

/-- What a false claim needs. -/
theorem ForgesClaim.wins {K : WireCodec F G} {C : Crypto F G} {Q : G} {order : List (ProverQuery F G) → List ℕ}
    (hF : BigField F) {l : List (Key × Value)} {db : MemoryDb F G} (hb : build C l = .ok db) {root : G}
    (hr : Trie.rootCommitment db = .ok root) {qmax : ℕ}
    {A : Prog (List Byte) F (VerkleProof G (MultiProof F G) × List Key × List (Option Value))} {H : List Byte → F}
    (hH : ForgesClaim K C Q order l db root qmax A H) :
    ∃ qs uh, createVerifierQueries C (A.run H).1.hint (A.run H).1.comms (A.run H).2.1 (A.run H).2.2 root = .ok (some (qs, uh)) ∧
      qs.length ≤ qmax ∧
      (∃ uh, check C (multiOpener ⟨K, H⟩ C Q order) (A.run H).1 (A.run H).2.1 (A.run H).2.2 root = .ok (true, uh)) ∧
      ∀ vec, Extracts C vec qs → ProofBreak C (lastWrite l) vec qs := by
  obtain ⟨h1, ⟨qs, uh, h4, hq⟩, hc, k, v, h5, h2, h6⟩ := hH
  exact ⟨qs, uh, h4, hq, hc, falseClaim_breaks hF hb hr h1 h4 h5 h2 h6⟩

/-- What `C66_trie_random_oracle_partial` says, for a hash with values in `E` that `red` turns into challenges, each from at most `B` values.  The
output of a run, `.ret (A.run H)`, wins for the challenges of the run. -/
theorem rom_claim_of {E : Type} [Fintype E] {red : E → F} {B : ℕ} (hred : Spread red B) {N qmax : ℕ} (hF : BigField F) (K : WireCodec F G) (C : Crypto F G) (Q : G)
    (order : List (ProverQuery F G) → List ℕ) (l : List (Key × Value)) {db : MemoryDb F G} (hb : build C l = .ok db) {root : G}
    (hr : Trie.rootCommitment db = .ok root)
    (A : Prog (List Byte) E (VerkleProof G (MultiProof F G) × List Key × List (Option Value))) (hA : A.Within N)
    (H₀ : List Byte → E) (D : Finset (List Byte)) (hD : ∀ s : List Byte, s.length ≤ 99 * qmax + 192 → s ∈ D)
    (h : (N + 11) * (B * (513 + qmax + 2 * (N + 11))) * Fintype.card E ^ D.card <
      Fintype.card E * Fintype.card {H : D → E // ForgesClaim K C Q order l db root qmax (.ret (A.run (over H₀ H))) (fun s => red (over H₀ H s))}) :
    ∃ (qs : List (VerifierQuery F G)) (X : MultiTree F G qs.length (255 + qs.length) 8), X.Distinct 256 ∧
      (∀ i j u, ∀ p ∈ (X.ipa i j u).leaves, ∃ H : D → E, ForgesClaim K C Q order l db root qmax (.ret (A.run (over H₀ H))) (fun s => red (over H₀ H s)) ∧
        MakesQueries C root (A.run (over H₀ H)) qs ∧ (A.run (over H₀ H)).1.proof = ⟨p.2, X.D i⟩ ∧
        drawn ⟨K, fun s => red (over H₀ H s)⟩ (newTranscript (lbl "vt")) ⟨p.2, X.D i⟩ qs = (X.r i, X.t i j, X.w i j u, p.1)) ∧
      ((∃ ρ ∈ X.rels qs.get 256, ρ ≠ 0 ∧ ∑ i : Fin 256, ρ.1 i • C.g i + ρ.2 • Q = 0) ∨
      ProofBreak C (lastWrite l) (vecOf qs X) qs) :=
  rom_trie_of hred hF K C Q order l root A hA id (fun H => ForgesClaim K C Q order l db root qmax (.ret (A.run H)) (fun s => red (H s))) (fun _ hH => hH.wins hF hb hr) H₀ D hD h

/-- C66 for tries (partial: with the conditions of `C21_accepted_claims_true_partial` on keys, hints and claims of absence).
Let a program ask the hash at most `N` times and output a proof with keys and values.  If, against the root of a trie built from
a history, `check` accepts a false claim for more than the part `(N + 11) (513 + q + 2 (N + 11)) / |F|` of the hashes, there are
runs of the program, all with the same queries, from which a non-trivial relation between the generators and `Q` or vectors
breaking the commitments of the trie are computed. -/
theorem C66_trie_random_oracle_partial [Fintype F] {N qmax : ℕ} (hF : BigField F) (K : WireCodec F G) (C : Crypto F G) (Q : G)
    (order : List (ProverQuery F G) → List ℕ) (l : List (Key × Value)) {db : MemoryDb F G} (hb : build C l = .ok db) {root : G}
    (hr : Trie.rootCommitment db = .ok root)
    (A : Prog (List Byte) F (VerkleProof G (MultiProof F G) × List Key × List (Option Value))) (hA : A.Within N)
    (H₀ : List Byte → F) (D : Finset (List Byte)) (hD : ∀ s : List Byte, s.length ≤ 99 * qmax + 192 → s ∈ D)
    (h : (N + 11) * (513 + qmax + 2 * (N + 11)) * Fintype.card F ^ D.card <
      Fintype.card F * Fintype.card {H : D → F // ForgesClaim K C Q order l db root qmax A (over H₀ H)}) :
    ∃ (qs : List (VerifierQuery F G)) (X : MultiTree F G qs.length (255 + qs.length) 8), X.Distinct 256 ∧
      (∀ i j u, ∀ p ∈ (X.ipa i j u).leaves, ∃ H : D → F, ForgesClaim K C Q order l db root qmax A (over H₀ H) ∧
        MakesQueries C root (A.run (over H₀ H)) qs ∧ (A.run (over H₀ H)).1.proof = ⟨p.2, X.D i⟩ ∧
        drawn ⟨K, over H₀ H⟩ (newTranscript (lbl "vt")) ⟨p.2, X.D i⟩ qs = (X.r i, X.t i j, X.w i j u, p.1)) ∧
      ((∃ ρ ∈ X.rels qs.get 256, ρ ≠ 0 ∧ ∑ i : Fin 256, ρ.1 i • C.g i + ρ.2 • Q = 0) ∨
      ProofBreak C (lastWrite l) (vecOf qs X) qs) :=
  rom_claim_of spread_id hF K C Q order l hb hr A hA H₀ D hD (by rw [one_mul]; exact h)

/-! ### The honest program wins -/

/-- A prover of the inner product argument as a program: each challenge is the answer of the hash (as the code does it). -/
def roundStrat (K : WireCodec F G) : {k : ℕ} → Strat F G k → Transcript → Prog (List Byte) F (IpaProof F G)
  | _, .last a, _ => .ret ⟨[], [], a⟩
  | _, .round L R next, t => .ask (t ++ lbl "L" ++ K.encE L ++ lbl "R" ++ K.encE R ++ lbl "x") fun x =>
    (roundStrat K (next x) (lbl "x" ++ K.encS x)).bind fun p => .ret ⟨L :: p.L, R :: p.R, p.a⟩

/-- A prover of the multipoint argument as a program. -/
def stratProg {k : ℕ} (K : WireCodec F G) (t : Transcript) (qs : List (VerifierQuery F G)) (S : MultiStrat F G k) :
    Prog (List Byte) F (List (VerifierQuery F G) × MultiProof F G) :=
  .ask (rPoint K t qs) fun r => .ask (lbl "r" ++ K.encS r ++ lbl "D" ++ K.encE (S.D r) ++ lbl "t") fun tt =>
    .ask (wPoint K qs (S.D r) r tt) fun w => (roundStrat K (S.ipa r tt w) (lbl "w" ++ K.encS w)).bind fun p =>
      .ret (qs, ⟨p, S.D r⟩)

theorem roundStrat_within (K : WireCodec F G) : ∀ {k : ℕ} (S : Strat F G k) (t : Transcript), (roundStrat K S t).Within k
  | _, .last _, _ => trivial
  | _, .round L R next, t => fun x => by
    have := Prog.Within.bind (f := fun p => (.ret ⟨L :: p.L, R :: p.R, p.a⟩ : Prog (List Byte) F (IpaProof F G))) (n := 0)
      (fun _ => trivial) (roundStrat_within K (next x) (lbl "x" ++ K.encS x))
    exact this

theorem stratProg_within {k : ℕ} (K : WireCodec F G) (t : Transcript) (qs : List (VerifierQuery F G)) (S : MultiStrat F G k) :
    (stratProg K t qs S).Within (k + 3) := fun r tt w =>
  Prog.Within.bind (f := fun p => (.ret (qs, ⟨p, S.D r⟩) : Prog (List Byte) F (List (VerifierQuery F G) × MultiProof F G)))
    (n := 0) (fun _ => trivial) (roundStrat_within K (S.ipa r tt w) (lbl "w" ++ K.encS w))

theorem roundStrat_run (K : WireCodec F G) (H : List Byte → F) : ∀ {k : ℕ} (S : Strat F G k) (t : Transcript), ∃ x : Fin k → F,
    (roundStrat K S t).run H = S.run x ∧ (roundStrat K S t).asked H = (roundProg K (S.run x).L (S.run x).R t).asked H ∧
    ((roundStrat K S t).asked H).map H = List.ofFn x
  | _, .last a, t => ⟨Fin.elim0, rfl, rfl, rfl⟩
  | _, .round L R next, t => by
    set s := t ++ lbl "L" ++ K.encE L ++ lbl "R" ++ K.encE R ++ lbl "x"
    obtain ⟨x, h1, h2, h3⟩ := roundStrat_run K H (next (H s)) (lbl "x" ++ K.encS (H s))
    refine ⟨Fin.cons (H s) x, ?_, ?_, ?_⟩
    · rw [roundStrat, Prog.run, Prog.run_bind, h1]
      rfl
    · rw [roundStrat, Prog.asked, Prog.asked_bind, h2, Prog.asked, List.append_nil]
      rfl
    · rw [roundStrat, Prog.asked, Prog.asked_bind, Prog.asked, List.append_nil, List.map_cons, h3, List.ofFn_succ]
      rfl

theorem stratProg_run {k : ℕ} (K : WireCodec F G) (H : List Byte → F) (t : Transcript) (qs : List (VerifierQuery F G))
    (S : MultiStrat F G k) : ∃ c : F × F × F × (Fin k → F), (stratProg K t qs S).run H = (qs, S.run c) ∧
      (stratProg K t qs S).asked H = verifierPoints K H t (qs, S.run c) ∧
      ((stratProg K t qs S).asked H).map H = c.1 :: c.2.1 :: c.2.2.1 :: List.ofFn c.2.2.2 := by
  set r := H (rPoint K t qs)
  set tt := H (lbl "r" ++ K.encS r ++ lbl "D" ++ K.encE (S.D r) ++ lbl "t")
  set w := H (wPoint K qs (S.D r) r tt)
  obtain ⟨x, h1, h2, h3⟩ := roundStrat_run K H (S.ipa r tt w) (lbl "w" ++ K.encS w)
  refine ⟨(r, tt, w, x), ?_, ?_, ?_⟩
  · simp only [stratProg, Prog.run, Prog.run_bind]
    rw [h1]
    rfl
  · simp only [stratProg, Prog.asked, Prog.asked_bind, List.append_nil]
    rw [h2]
    rfl
  · simp only [stratProg, Prog.asked, Prog.asked_bind, List.append_nil, List.map_cons]
    rw [h3]

/-- `C66_honest_wins` for a hash with values in `E` that `red` turns into challenges, each from at most `m` values. -/
theorem honest_wins_of {E : Type} [Fintype E] {red : E → F} {m : ℕ} (hred : Spread red m) {k qmax : ℕ} {crs : CRS G} (hk : k ≤ 31) (hn : crs.n = 2 ^ k) (hg : crs.gens.length = 2 ^ k)
    (hF : Distinct F crs.n) {W : Weights F} (hW : Weights.new F crs.n = .ok W) (K : WireCodec F G) (t₀ : Transcript)
    {qs : List (ProverQuery F G)} (hne : qs ≠ []) (hq : qs.length ≤ qmax) (ht : ∀ q ∈ qs, TrueOpening crs q) :
    ∃ A : Prog (List Byte) F (List (VerifierQuery F G) × MultiProof F G), A.Within (k + 3) ∧
      (∀ H, (A.run H).1 = qs.map ProverQuery.toVerifier) ∧
      ∀ (H₀ : List Byte → E) (D : Finset (List Byte)), (∀ s : List Byte, s.length ≤ t₀.length + 99 * qmax + 190 → s ∈ D) →
        Fintype.card E * Fintype.card {H : D → E // ¬ Forges K t₀ crs W qmax A (fun s => red (over H₀ H s))} ≤
          (k + 3) * (m * (crs.n + 1)) * Fintype.card E ^ D.card := by
  obtain ⟨S, hS⟩ := honest_accepted hk hn hg hF hW hne ht
  have hqs : (qs.map ProverQuery.toVerifier).length = qs.length := List.length_map ..
  refine ⟨stratProg K t₀ (qs.map ProverQuery.toVerifier) S, stratProg_within K t₀ _ S, fun H => ?_, fun H₀ D hD => ?_⟩
  · obtain ⟨c, h1, _⟩ := stratProg_run K H t₀ (qs.map ProverQuery.toVerifier) S
    rw [h1]
  obtain ⟨B, hB⟩ : ∃ B : Finset F, B = {0} ∪ (Finset.range crs.n).image fun (p : ℕ) => (p : F) := ⟨_, rfl⟩
  have hBc : B.card ≤ crs.n + 1 := by
    rw [hB]
    refine (Finset.card_union_le _ _).trans ?_
    have := Finset.card_image_le (s := Finset.range crs.n) (f := fun (p : ℕ) => (p : F))
    simp only [Finset.card_range, Finset.card_singleton] at this ⊢
    omega
  have hall := hits_all (D := D) H₀ (Finset.univ.filter fun e => red e ∈ B) ((stratProg_within K t₀ (qs.map ProverQuery.toVerifier) S).lift red)
    (fun H => ¬ Forges K t₀ crs W qmax (stratProg K t₀ (qs.map ProverQuery.toVerifier) S) (fun s => red (over H₀ H s))) (fun H hH => ?_)
  · refine le_trans ?_ (hall.trans (Nat.mul_le_mul_right _ (Nat.mul_le_mul_left _ (le_trans (le_of_eq (by congr!)) ((hred.preimage B).trans (Nat.mul_le_mul_left _ hBc))))))
    apply le_of_eq
    congr!
  by_contra hnot
  apply hH
  obtain ⟨c, h1, h2, h3⟩ := stratProg_run K (fun s => red (over H₀ H s)) t₀ (qs.map ProverQuery.toVerifier) S
  have hmem : ∀ x ∈ ((stratProg K t₀ (qs.map ProverQuery.toVerifier) S).asked (fun s => red (over H₀ H s))).map (fun s => red (over H₀ H s)), x ∉ B := by
    intro x hx hxB
    obtain ⟨s, hs, rfl⟩ := List.mem_map.mp hx
    have hsD : s ∈ D := by
      apply hD
      rw [h2] at hs
      have := points_bytes K (fun s => red (over H₀ H s)) t₀ _ s hs
      simp only [hqs] at this
      omega
    exact hnot ⟨s, by rw [Prog.lift_asked]; exact hs, hsD, Finset.mem_filter.mpr ⟨Finset.mem_univ _, hxB⟩⟩
  rw [h3, hB] at hmem
  obtain ⟨t', ht'⟩ := hS c ⟨K, fun s => red (over H₀ H s)⟩ t₀ (fun p hp e => hmem c.2.1 (by simp) (by
      rw [e]
      exact Finset.mem_union_right _ (Finset.mem_image.mpr ⟨p, by simpa using hp, rfl⟩)))
    (fun j e => hmem (c.2.2.2 j) (by simp) (by rw [e]; simp))
    (drawn_asked K (fun s => red (over H₀ H s)) t₀ _ _ (by rw [← h2, h3]))
  unfold Forges
  rw [h1]
  refine ⟨by simpa using hne, by simpa using hq, ?_, t', ht'⟩
  intro q hq
  obtain ⟨q', h4, rfl⟩ := List.mem_map.mp hq
  exact ⟨q'.point, (ht q' h4).point, rfl⟩

/-- The honest prover, as a program, is accepted for all hashes but the part `(k + 3) (n + 1) / |F|`. -/
theorem C66_honest_wins [Fintype F] {k qmax : ℕ} {crs : CRS G} (hk : k ≤ 31) (hn : crs.n = 2 ^ k) (hg : crs.gens.length = 2 ^ k)
    (hF : Distinct F crs.n) {W : Weights F} (hW : Weights.new F crs.n = .ok W) (K : WireCodec F G) (t₀ : Transcript)
    {qs : List (ProverQuery F G)} (hne : qs ≠ []) (hq : qs.length ≤ qmax) (ht : ∀ q ∈ qs, TrueOpening crs q) :
    ∃ A : Prog (List Byte) F (List (VerifierQuery F G) × MultiProof F G), A.Within (k + 3) ∧
      (∀ H, (A.run H).1 = qs.map ProverQuery.toVerifier) ∧
      ∀ (H₀ : List Byte → F) (D : Finset (List Byte)), (∀ s : List Byte, s.length ≤ t₀.length + 99 * qmax + 190 → s ∈ D) →
        Fintype.card F * Fintype.card {H : D → F // ¬ Forges K t₀ crs W qmax A (over H₀ H)} ≤
          (k + 3) * (crs.n + 1) * Fintype.card F ^ D.card := by
  obtain ⟨A, h1, h2, h3⟩ := honest_wins_of (qmax := qmax) spread_id hk hn hg hF hW K t₀ hne hq ht
  refine ⟨A, h1, h2, fun H₀ D hD => ?_⟩
  have := h3 H₀ D hD
  rw [one_mul] at this
  exact this

/-- A program that loses for a small part of the hashes wins for more than another, if the hash has enough values. -/
theorem win_of_lose {E : Type} [Fintype E] {D : Finset (List Byte)} {P : (D → E) → Prop} {a b : ℕ}
    (h : Fintype.card E * Fintype.card {H // ¬ P H} ≤ a * Fintype.card E ^ D.card) (hab : a + b < Fintype.card E) :
    b * Fintype.card E ^ D.card < Fintype.card E * Fintype.card {H // P H} := by
  have h1 : Fintype.card {H // P H} + Fintype.card {H // ¬ P H} = Fintype.card E ^ D.card := by
    rw [Fintype.card_subtype_compl, Nat.add_sub_cancel' (Fintype.card_subtype_le _)]
    simp
  have h2 : Fintype.card E * Fintype.card {H // P H} + Fintype.card E * Fintype.card {H // ¬ P H} =
      Fintype.card E * Fintype.card E ^ D.card := by rw [← Nat.mul_add, h1]
  have h3 : 0 < Fintype.card E ^ D.card := pow_pos (by omega) _
  have h4 : (a + b) * Fintype.card E ^ D.card < Fintype.card E * Fintype.card E ^ D.card := Nat.mul_lt_mul_of_pos_right hab h3
  rw [Nat.add_mul] at h4
  omega

/-- The finite set of the strings of a bounded length. -/
noncomputable def shortStrings (n : ℕ) : Finset (List Byte) := (List.finite_length_le Byte n).toFinset

theorem mem_shortStrings {n : ℕ} {s : List Byte} (h : s.length ≤ n) : s ∈ shortStrings n := by
  simpa [shortStrings] using h

/-- `forges_zero_at` for a hash with values in `E` that `red` turns into challenges, each from at most `c` values. -/
theorem forges_zero_of {E : Type} [Fintype E] {red : E → F} {c : ℕ} (hred : Spread red c) {m : ℕ} (hm : 6 ≤ m) (hF : BigField F) (C : Crypto F G) (hC : ∀ i, C.g i = 0) (K : WireCodec F G) (Q : G)
    (order : List (ProverQuery F G) → List ℕ) (H₀ : List Byte → E) (hbig : c * (22 * (557 + m) + 2827) < Fintype.card E) :
    ∃ (db : MemoryDb F G) (root : G)
      (A : Prog (List Byte) F (VerkleProof G (MultiProof F G) × List Key × List (Option Value))) (D : Finset (List Byte)),
      build C [] = .ok db ∧ Trie.rootCommitment db = .ok root ∧ A.Within 11 ∧
      (∀ H, ∃ π, A.run H = (⟨⟨[1], [.present], []⟩, [stemComm C (lastWrite soloHist) soloKey.stem,
        suffixComm C (lastWrite soloHist) soloKey.stem 0], π⟩, [soloKey], [some (valOf 7)])) ∧
      (∀ s : List Byte, s.length ≤ 99 * m + 192 → s ∈ D) ∧
      (11 + 11) * (c * (513 + m + 2 * (11 + 11))) * Fintype.card E ^ D.card <
        Fintype.card E * Fintype.card {H : D → E // ForgesClaim K C Q order [] db root m A (fun s => red (over H₀ H s))} := by
  have hD : Ipa.Distinct F 256 := fun i j hi hj h => hF i j (hi.trans (by norm_num)) (hj.trans (by norm_num)) h
  obtain ⟨W, hW, _⟩ := new_good hD (by norm_num)
  have hb : ∀ m : KV, branchComm C m [] = 0 := by
    intro m
    show branchCommAux C m (31 + 1) [] = 0
    rw [branchCommAux]
    exact Finset.sum_eq_zero fun i _ => by rw [hC, smul_zero]
  obtain ⟨A, hA, hA', hw⟩ := honest_wins_of hred (k := 8) (qmax := m) (crs := crsOf C Q) (by norm_num) rfl (by simp [crsOf]) hD hW K
    (newTranscript (lbl "vt")) (qs := soloQueries C) (by simp [soloQueries]) (by simpa [soloQueries] using hm)
    (fun q hq => (soloQueries_true C q hq).opening Q)
  let f : List (VerifierQuery F G) × MultiProof F G →
      Prog (List Byte) F (VerkleProof G (MultiProof F G) × List Key × List (Option Value)) := fun o =>
    .ret (⟨⟨[1], [.present], []⟩,
      [stemComm C (lastWrite soloHist) soloKey.stem, suffixComm C (lastWrite soloHist) soloKey.stem 0], o.2⟩, [soloKey],
      [some (valOf 7)])
  refine ⟨_, _, A.bind f, shortStrings (99 * m + 192), build_eq _ _, rootCommitment_spec _ _,
    Prog.Within.bind (f := f) (n := 0) (fun _ => trivial) hA, fun H => ⟨_, by rw [Prog.run_bind]; rfl⟩,
    fun s h => mem_shortStrings h, ?_⟩
  have hl := win_of_lose (b := (11 + 11) * (c * (513 + m + 2 * (11 + 11)))) (hw H₀ (shortStrings (99 * m + 192)) (fun s h => mem_shortStrings (by
    have : (newTranscript (lbl "vt")).length = 2 := rfl
    rw [this] at h
    omega))) (by
      have : (crsOf C Q).n = 256 := rfl
      rw [this]
      exact lt_of_eq_of_lt (by ring) hbig)
  refine lt_of_lt_of_le hl (Nat.mul_le_mul_left _ (Fintype.card_subtype_mono _ _ ?_))
  intro H hH
  obtain ⟨_, h2, _, t', h5⟩ := hH
  rw [hA'] at h2 h5
  have hq := solo_queries C
  rw [hb] at hq
  unfold ForgesClaim
  rw [hb, Prog.run_bind]
  simp only [f, Prog.run]
  refine ⟨rfl, ⟨_, _, hq, by simpa [soloQueries] using hm⟩, ?_, soloKey, some (valOf 7), by simp,
    undisputed (by simp) solo_consistent (by simp), Or.inl ⟨_, rfl, ?_⟩⟩
  · have h6 : ∀ qs uh, qs = (soloQueries C).map ProverQuery.toVerifier → createVerifierQueries C ⟨[1], [.present], []⟩
        [stemComm C (lastWrite soloHist) soloKey.stem, suffixComm C (lastWrite soloHist) soloKey.stem 0] [soloKey]
        [some (valOf 7)] 0 = .ok (some (qs, uh)) →
        check C (multiOpener ⟨K, fun s => red (over H₀ H s)⟩ C Q order) ⟨⟨[1], [.present], []⟩,
          [stemComm C (lastWrite soloHist) soloKey.stem, suffixComm C (lastWrite soloHist) soloKey.stem 0],
          (A.run (fun s => red (over H₀ H s))).2⟩ [soloKey] [some (valOf 7)] 0 = .ok (true, some uh) := by
      rintro qs uh rfl h
      simp only [check, h, bind, Except.bind, multiOpener, hW, h5]
    exact ⟨_, h6 _ _ rfl hq⟩
  · show lastWrite [] soloKey ≠ _
    simp [lastWrite]

/-- If all generators are zero, false claims about the empty trie are accepted: the hypotheses of
`C66_trie_random_oracle_partial` are met. -/
theorem forges_zero_at [Fintype F] {m : ℕ} (hm : 6 ≤ m) (hF : BigField F) (C : Crypto F G) (hC : ∀ i, C.g i = 0) (K : WireCodec F G) (Q : G)
    (order : List (ProverQuery F G) → List ℕ) (H₀ : List Byte → F) (hbig : 22 * (557 + m) + 2827 < Fintype.card F) :
    ∃ (db : MemoryDb F G) (root : G)
      (A : Prog (List Byte) F (VerkleProof G (MultiProof F G) × List Key × List (Option Value))) (D : Finset (List Byte)),
      build C [] = .ok db ∧ Trie.rootCommitment db = .ok root ∧ A.Within 11 ∧
      (∀ H, ∃ π, A.run H = (⟨⟨[1], [.present], []⟩, [stemComm C (lastWrite soloHist) soloKey.stem,
        suffixComm C (lastWrite soloHist) soloKey.stem 0], π⟩, [soloKey], [some (valOf 7)])) ∧
      (∀ s : List Byte, s.length ≤ 99 * m + 192 → s ∈ D) ∧
      (11 + 11) * (513 + m + 2 * (11 + 11)) * Fintype.card F ^ D.card <
        Fintype.card F * Fintype.card {H : D → F // ForgesClaim K C Q order [] db root m A (over H₀ H)} := by
  obtain ⟨db, root, A, D, h1, h2, h3, h4, h5, h6⟩ := forges_zero_of (m := m) spread_id hm hF C hC K Q order H₀ (by rw [one_mul]; exact hbig)
  refine ⟨db, root, A, D, h1, h2, h3, h4, h5, ?_⟩
  rw [one_mul] at h6
  exact h6

theorem forges_zero [Fintype F] (hF : BigField F) (C : Crypto F G) (hC : ∀ i, C.g i = 0) (K : WireCodec F G) (Q : G)
    (order : List (ProverQuery F G) → List ℕ) (H₀ : List Byte → F) (hbig : 20000 < Fintype.card F) :
    ∃ (db : MemoryDb F G) (root : G)
      (A : Prog (List Byte) F (VerkleProof G (MultiProof F G) × List Key × List (Option Value))) (D : Finset (List Byte)),
      build C [] = .ok db ∧ Trie.rootCommitment db = .ok root ∧ A.Within 11 ∧
      (∀ H, ∃ π, A.run H = (⟨⟨[1], [.present], []⟩, [stemComm C (lastWrite soloHist) soloKey.stem,
        suffixComm C (lastWrite soloHist) soloKey.stem 0], π⟩, [soloKey], [some (valOf 7)])) ∧
      (∀ s : List Byte, s.length ≤ 99 * 6 + 192 → s ∈ D) ∧
      (11 + 11) * (513 + 6 + 2 * (11 + 11)) * Fintype.card F ^ D.card <
        Fintype.card F * Fintype.card {H : D → F // ForgesClaim K C Q order [] db root 6 A (over H₀ H)} :=
  forges_zero_at le_rfl hF C hC K Q order H₀ (by omega)

end

/-- The hypotheses of `C66_random_oracle` are met for the queries of a trie with one key over Bandersnatch, by the honest
prover. -/
noncomputable example (Q : Bander.BElem) (H₀ : List Byte → ZMod Bander.r) : True :=
  letI := Classical.decEq Bander.BElem
  haveI : NeZero Bander.r := ⟨by decide +kernel⟩
  have hD : Ipa.Distinct (ZMod Bander.r) 256 :=
    fun i j hi hj h => C52_scalar_field.1 i j (hi.trans (by norm_num)) (hj.trans (by norm_num)) h
  let ⟨_, hW, _⟩ := new_good hD (by norm_num)
  let ⟨A, hA, _, hw⟩ := C66_honest_wins (k := 8) (qmax := 6) (crs := crsOf Bander.crypto Q) (by norm_num) rfl (by simp [crsOf]) hD
    hW Bander.codec [] (qs := soloQueries Bander.crypto) (by simp [soloQueries]) (by simp [soloQueries])
    (fun q hq => (soloQueries_true Bander.crypto q hq).opening Q)
  have _h := C66_random_oracle (k := 8) (qmax := 6) rfl (by simp [crsOf]) hD hW Bander.codec [] A hA H₀
    (shortStrings (([] : Transcript).length + 99 * 6 + 190)) (fun _ h => mem_shortStrings h)
    (win_of_lose (hw H₀ _ fun _ h => mem_shortStrings h) (by
      have : (crsOf Bander.crypto Q).n = 256 := rfl
      rw [ZMod.card, this]
      decide +kernel))
  trivial

/-- Those of `C66_trie_random_oracle_partial` are met over Bandersnatch, if the generators are zero. -/
noncomputable example (Q : Bander.BElem) (H₀ : List Byte → ZMod Bander.r) : True :=
  letI := Classical.decEq Bander.BElem
  haveI : NeZero Bander.r := ⟨by decide +kernel⟩
  have _h := forges_zero C52_scalar_field.1 { Bander.crypto with g := fun _ => 0 } (fun _ => rfl) Bander.codec Q
    (fun qs => (qs.map ProverQuery.point).dedup) H₀ (by rw [ZMod.card]; decide +kernel)
  trivial

/-- A program that asks the hash at most `2 ^ 64` times forges claims of up to two thousand queries for less than the part
`2 ^ -120` of the hashes, unless a break can be computed from its runs. -/
theorem C66_part_small {N q : ℕ} (hN : N ≤ 2 ^ 64) (hq : q ≤ 2 ^ 11) :
    (N + 11) * (513 + q + 2 * (N + 11)) * 2 ^ 120 ≤ Bander.r := by
  have h1 : N + 11 ≤ 2 ^ 64 + 11 := by omega
  have h2 : 513 + q + 2 * (N + 11) ≤ 513 + 2 ^ 11 + 2 * (2 ^ 64 + 11) := by omega
  exact (Nat.mul_le_mul_right _ (Nat.mul_le_mul h1 h2)).trans (by decide +kernel)

end Verif.Props
