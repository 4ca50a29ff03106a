import Verif.Props.RomBytes
import Verif.Props.Updater

/-!
# C68: honest proofs are accepted for almost every hash
-/

set_option autoImplicit false
set_option linter.unusedSectionVars false

namespace Verif.Props
open Ipa Proof Spec Wire Ffi
open scoped Classical

section
variable {Q F α β : Type}

/-- The result depends only on the answers given. -/
theorem run_congr {H H' : Q → F} : ∀ {P : Prog Q F α}, (∀ s ∈ P.asked H, H s = H' s) → P.run H = P.run H'
  | .ret _, _ => rfl
  | .ask s next, h => by
    rw [Prog.run, Prog.run, ← h s (by simp [Prog.asked])]
    exact run_congr fun u hu => h u (by simp [Prog.asked, hu])

/-- A function of the hash is computed with `n` questions of at most `b` bytes. -/
def Asks (n b : ℕ) (f : (List Byte → F) → α) : Prop :=
  ∃ P : Prog (List Byte) F α, P.Within n ∧ ∀ H, P.run H = f H ∧ ∀ s ∈ P.asked H, s.length ≤ b

theorem Asks.const (n b : ℕ) (a : α) : Asks (F := F) n b fun _ => a :=
  ⟨.ret a, trivial, fun _ => ⟨rfl, fun s hs => by simp [Prog.asked] at hs⟩⟩

theorem Asks.ask {n b : ℕ} {f : (List Byte → F) → α} {s : List Byte} (hs : s.length ≤ b) (g : F → (List Byte → F) → α)
    (h : ∀ x, Asks n b (g x)) (e : ∀ H, f H = g (H s) H) : Asks (n + 1) b f := by
  choose P hP hP' using h
  refine ⟨.ask s P, fun x => hP x, fun H => ⟨?_, fun u hu => ?_⟩⟩
  · rw [Prog.run, (hP' _ H).1, e]
  · rcases List.mem_cons.1 hu with rfl | hu
    · exact hs
    · exact (hP' _ H).2 u hu

theorem Asks.bind {m n b : ℕ} {f : (List Byte → F) → α} (hf : Asks m b f) (g : α → (List Byte → F) → β)
    (hg : ∀ a, Asks n b (g a)) : Asks (m + n) b fun H => g (f H) H := by
  obtain ⟨P, hP, hP'⟩ := hf
  choose R hR hR' using hg
  refine ⟨P.bind R, hP.bind hR, fun H => ⟨?_, fun s hs => ?_⟩⟩
  · rw [Prog.run_bind, (hR' _ H).1, (hP' H).1]
  · rw [Prog.asked_bind, List.mem_append] at hs
    exact hs.elim ((hP' H).2 s) ((hR' _ H).2 s)

theorem Asks.map {n b : ℕ} {f : (List Byte → F) → α} (hf : Asks n b f) (g : α → β) : Asks n b fun H => g (f H) :=
  hf.bind (n := 0) (fun a _ => g a) fun a => Asks.const 0 b (g a)

/-- A function that asks at most `n` questions of at most `b` bytes has a property for all hashes but the part `n c |B| / |E|` if it has it
for the hashes with no challenge in `B`.  The hash has values in `E`; `red` turns at most `c` of them into the same challenge. -/
theorem Asks.almost_of {E : Type} [Fintype E] {red : E → F} {c : ℕ} (hred : Spread red c) {n b : ℕ} {f : (List Byte → F) → α}
    (hf : Asks n b f) (B : Finset F) (P : α → Prop) (hn : 0 < n)
    (h : ∀ H, (∀ s, H s ∉ B) → P (f H)) (H₀ : List Byte → E) (D : Finset (List Byte)) (hD : ∀ s : List Byte, s.length ≤ b → s ∈ D)
    (Lose : (D → E) → Prop) [Fintype {H // Lose H}] (hl : ∀ H, P (f fun s => red (over H₀ H s)) → ¬ Lose H) :
    Fintype.card E * Fintype.card {H : D → E // Lose H} ≤ n * (c * B.card) * Fintype.card E ^ D.card := by
  obtain ⟨A, hA, hA'⟩ := hf
  have hpre := hred.preimage B
  by_cases hB : ∃ x, x ∉ B
  · obtain ⟨x, hx⟩ := hB
    have hall := hits_all (D := D) H₀ (Finset.univ.filter fun e => red e ∈ B) (hA.lift red) Lose fun H hH => ?_
    · refine le_trans ?_ (hall.trans (Nat.mul_le_mul_right _ (Nat.mul_le_mul_left _ hpre)))
      apply le_of_eq
      congr!
    by_contra hnot
    push Not at hnot
    refine hl H ?_ hH
    let H₁ : List Byte → F := fun s => red (over H₀ H s)
    let H' : List Byte → F := fun s => if H₁ s ∈ B then x else H₁ s
    have e : A.run H₁ = A.run H' := run_congr fun s hs => by
      simp only [H']
      rw [if_neg]
      intro hb
      exact hnot s (by rw [Prog.lift_asked]; exact hs) (hD s ((hA' _).2 s hs)) (Finset.mem_filter.mpr ⟨Finset.mem_univ _, hb⟩)
    rw [← (hA' _).1]
    refine (congrArg P (e.trans (hA' _).1)).mpr (h H' fun s => ?_)
    simp only [H']
    split
    · exact hx
    · assumption
  · push Not at hB
    have hu : (Finset.univ.filter fun e => red e ∈ B) = (Finset.univ : Finset E) := Finset.filter_true_of_mem fun e _ => hB _
    rw [hu, Finset.card_univ] at hpre
    have : Fintype.card {H : D → E // Lose H} ≤ Fintype.card E ^ D.card :=
      (Fintype.card_subtype_le _).trans (by simp)
    calc _ ≤ Fintype.card E * Fintype.card E ^ D.card := Nat.mul_le_mul_left _ this
      _ ≤ _ := Nat.mul_le_mul_right _ (hpre.trans (Nat.le_mul_of_pos_left _ hn))

/-- `Asks.almost_of` for a random function into the field. -/
theorem Asks.almost [Fintype F] {n b : ℕ} {f : (List Byte → F) → α} (hf : Asks n b f) (B : Finset F) (P : α → Prop) (hn : 0 < n)
    (h : ∀ H, (∀ s, H s ∉ B) → P (f H)) (H₀ : List Byte → F) (D : Finset (List Byte)) (hD : ∀ s : List Byte, s.length ≤ b → s ∈ D)
    (Lose : (D → F) → Prop) [Fintype {H // Lose H}] (hl : ∀ H, P (f (over H₀ H)) → ¬ Lose H) :
    Fintype.card F * Fintype.card {H : D → F // Lose H} ≤ n * B.card * Fintype.card F ^ D.card := by
  have := hf.almost_of spread_id B P hn h H₀ D hD Lose hl
  rwa [one_mul] at this

end

section
variable {F G : Type} [Field F] [DecidableEq F] [AddCommGroup G] [DecidableEq G] [Module F G]

theorem createGo_asks (K : WireCodec F G) {c : ℕ} (hc : 100 ≤ c) (Q : G) : ∀ (k : ℕ) (a b : List F) (g : List G) (t : Transcript), t.length = 33 →
    Asks k c fun H => createGo ⟨K, H⟩ Q k a b g t
  | 0, a, b, g, t, _ => by
    cases a with
    | nil => exact Asks.const 0 c _
    | cons x a => exact Asks.const 0 c _
  | k + 1, a, b, g, t, ht => by
    unfold createGo
    simp only
    cases hL : msm (a.drop (a.length / 2) ++ [innerProduct (a.drop (a.length / 2)) (b.take (b.length / 2))])
      (g.take (g.length / 2) ++ [Q]) with
    | error e => exact Asks.const _ c _
    | ok L =>
      cases hR : msm (a.take (a.length / 2) ++ [innerProduct (a.take (a.length / 2)) (b.drop (b.length / 2))])
        (g.drop (g.length / 2) ++ [Q]) with
      | error e => exact Asks.const _ c _
      | ok R =>
        refine Asks.ask (s := t ++ lbl "L" ++ K.encE L ++ lbl "R" ++ K.encE R ++ lbl "x")
          (by simp [ht, K.encE_len, lbl]; omega) (fun x H => if x = 0 then .error "called unwrap on None" else do
            let r ← createGo ⟨K, H⟩ Q k (foldS x a) (foldS x⁻¹ b) (foldG x⁻¹ g) (lbl "x" ++ K.encS x)
            .ok (⟨L :: r.1.L, R :: r.1.R, r.1.a⟩, r.2)) (fun x => ?_) fun H => rfl
        by_cases hx : x = 0
        · simp only [hx, if_true]
          exact Asks.const _ c _
        · simp only [hx, if_false]
          exact (createGo_asks K hc Q k (foldS x a) (foldS x⁻¹ b) (foldG x⁻¹ g) (lbl "x" ++ K.encS x) (by simp [K.encS_len, lbl])).map
            fun r => (do
              let r ← r
              .ok (⟨L :: r.1.L, R :: r.1.R, r.1.a⟩, r.2) : Res (IpaProof F G × Transcript))

theorem create_asks (K : WireCodec F G) {c : ℕ} (crs : CRS G) (a : List F) (comm : G) (b : List F) (z : F) (t : Transcript)
    (hc : t.length + 124 ≤ c) : Asks (Nat.clog 2 crs.gens.length + 1) c fun H => create ⟨K, H⟩ t crs a comm b z := by
  unfold create
  simp only
  by_cases h1 : a.length ≠ crs.gens.length
  · simp only [if_pos h1]; exact Asks.const _ c _
  by_cases h2 : b.length ≠ crs.gens.length
  · simp only [if_neg h1, if_pos h2]; exact Asks.const _ c _
  by_cases h3 : crs.gens.length ≠ 2 ^ Nat.log2 crs.gens.length
  · simp only [if_neg h1, if_neg h2, if_pos h3]; exact Asks.const _ c _
  simp only [if_neg h1, if_neg h2, if_neg h3]
  exact Asks.ask (s := t ++ lbl "ipa" ++ lbl "C" ++ K.encE comm ++ lbl "input point" ++ K.encS z ++ lbl "output point" ++
      K.encS (innerProduct a b) ++ lbl "w") (by simp [K.encE_len, K.encS_len, lbl]; omega)
    (fun w H => createGo ⟨K, H⟩ (w • crs.Q) (Nat.clog 2 crs.gens.length) a b crs.gens (lbl "w" ++ K.encS w))
    (fun w => createGo_asks K (by omega) _ _ _ _ _ _ (by simp [K.encS_len, lbl])) fun H => rfl

theorem open_asks (K : WireCodec F G) {c : ℕ} (crs : CRS G) (W : Weights F) (t : Transcript) (qs : List (ProverQuery F G))
    (order : List ℕ) (hc : t.length + 99 * qs.length + 190 ≤ c) :
    Asks (Nat.clog 2 crs.gens.length + 1 + 1 + 1) c fun H => openMulti ⟨K, H⟩ crs W t qs order := by
  refine Asks.ask (s := rPoint K t (qs.map ProverQuery.toVerifier)) (by rw [rPoint_length, List.length_map]; omega)
    (fun r H => do
      let rs := powersOf r qs.length
      let aggs := order.map fun p => (p, aggregate crs.n (group qs rs p))
      let quots ← aggs.mapM fun x => divide W x.2 x.1
      let gx := quots.foldl addPoly []
      let D ← msm gx crs.gens
      let t := appendPoint ⟨K, H⟩ (lbl "r" ++ K.encS r) (lbl "D") D
      let (tt, t) := challenge ⟨K, H⟩ t (lbl "t")
      let g1 := (aggs.map fun x => x.2.map ((tt - (x.1 : F))⁻¹ * ·)).foldl addPoly []
      let E ← msm g1 crs.gens
      let t := appendPoint ⟨K, H⟩ t (lbl "E") E
      let b ← lagrangeCoeffs W crs.n tt
      let p ← create ⟨K, H⟩ t crs (subPoly g1 gx) (E - D) b tt
      .ok (⟨p.1, D⟩, p.2)) (fun r => ?_) fun H => rfl
  simp only
  generalize (order.map fun p => (p, aggregate crs.n (group qs (powersOf r qs.length) p))) = aggs
  cases aggs.mapM fun x => divide W x.2 x.1 with
  | error e => exact Asks.const _ c _
  | ok quots =>
    simp only [bind, Except.bind]
    cases msm (quots.foldl addPoly []) crs.gens with
    | error e => exact Asks.const _ c _
    | ok D =>
      refine Asks.ask (s := lbl "r" ++ K.encS r ++ lbl "D" ++ K.encE D ++ lbl "t") (by simp [K.encE_len, K.encS_len, lbl]; omega)
        (fun tt H => do
          let g1 := (aggs.map fun x => x.2.map ((tt - (x.1 : F))⁻¹ * ·)).foldl addPoly []
          let E ← msm g1 crs.gens
          let t := appendPoint ⟨K, H⟩ (lbl "t" ++ K.encS tt) (lbl "E") E
          let b ← lagrangeCoeffs W crs.n tt
          let p ← create ⟨K, H⟩ t crs (subPoly g1 (quots.foldl addPoly [])) (E - D) b tt
          .ok (⟨p.1, D⟩, p.2)) (fun tt => ?_) fun H => rfl
      simp only
      generalize (aggs.map fun x => x.2.map ((tt - (x.1 : F))⁻¹ * ·)).foldl addPoly [] = g1
      cases msm g1 crs.gens with
      | error e => exact Asks.const _ c _
      | ok E =>
        simp only [bind, Except.bind]
        cases lagrangeCoeffs W crs.n tt with
        | error e => exact Asks.const _ c _
        | ok b =>
          exact (create_asks K (c := c) crs (subPoly g1 (quots.foldl addPoly [])) (E - D) b tt
            (lbl "t" ++ K.encS tt ++ lbl "E" ++ K.encE E) (by simp [K.encE_len, K.encS_len, lbl]; omega)).map fun p => (do
              let p ← p
              .ok (⟨p.1, D⟩, p.2) : Res (MultiProof F G × Transcript))

theorem challengeT_asks (K : WireCodec F G) {c : ℕ} (t : Transcript) (qs : List (VerifierQuery F G)) (D : G)
    (hc : t.length + 99 * qs.length + 190 ≤ c) : Asks 2 c fun H => challengeT ⟨K, H⟩ t qs D :=
  Asks.ask (s := rPoint K t qs) (by rw [rPoint_length]; omega) (fun r H => H (lbl "r" ++ K.encS r ++ lbl "D" ++ K.encE D ++ lbl "t"))
    (fun r => Asks.ask (s := lbl "r" ++ K.encS r ++ lbl "D" ++ K.encE D ++ lbl "t") (by simp [K.encE_len, K.encS_len, lbl]; omega)
      (fun x _ => x) (fun x => Asks.const _ c x) fun H => rfl) fun H => rfl

/-- What `C68_openings_accepted` says, for a hash with values in `E` that `red` turns into challenges, each from at most `c` values. -/
theorem openings_of {E : Type} [Fintype E] {red : E → F} {c : ℕ} (hred : Spread red c) {k : ℕ} {crs : CRS G} (hk : k ≤ 31) (hn : crs.n = 2 ^ k) (hg : crs.gens.length = 2 ^ k)
    (hF : Distinct F crs.n) {W : Weights F} (hW : Weights.new F crs.n = .ok W) (K : WireCodec F G) (t₀ : Transcript)
    {qs : List (ProverQuery F G)} (hne : qs ≠ []) (ht : ∀ q ∈ qs, TrueOpening crs q) {order : List ℕ} (ho : IsOrder qs order)
    (H₀ : List Byte → E) (D : Finset (List Byte)) (hD : ∀ s : List Byte, s.length ≤ t₀.length + 99 * qs.length + 190 → s ∈ D) :
    Fintype.card E * Fintype.card {H : D → E // ¬ ∃ π t', openMulti ⟨K, fun s => red (over H₀ H s)⟩ crs W t₀ qs order = .ok (π, t') ∧
        checkMulti ⟨K, fun s => red (over H₀ H s)⟩ π crs W (qs.map ProverQuery.toVerifier) t₀ = .ok (true, t')} ≤
      (k + 5) * (c * 2 ^ k) * Fintype.card E ^ D.card := by
  let B : Finset F := (Finset.range crs.n).image fun i : ℕ => (i : F)
  have hB : B.card ≤ 2 ^ k := by
    have := Finset.card_image_le (s := Finset.range crs.n) (f := fun (p : ℕ) => (p : F))
    rw [Finset.card_range] at this
    exact this.trans hn.le
  have hmem : ∀ i : ℕ, i < crs.n → (i : F) ∈ B := fun i hi => Finset.mem_image.2 ⟨i, by simpa using hi, rfl⟩
  have hpos : 0 < crs.n := by rw [hn]; exact Nat.two_pow_pos k
  have hclog : Nat.clog 2 crs.gens.length = k := by rw [hg]; exact Nat.clog_pow 2 k (by norm_num)
  let gOf : Res (MultiProof F G × Transcript) → G := fun o => match o with | .ok r => r.1.gx | .error _ => 0
  have hask := (open_asks K crs W t₀ qs order le_rfl).bind
    (fun o H => (o, challengeT ⟨K, H⟩ t₀ (qs.map ProverQuery.toVerifier) (gOf o)))
    fun o => (challengeT_asks K t₀ (qs.map ProverQuery.toVerifier) (gOf o) (c := t₀.length + 99 * qs.length + 190)
      (by rw [List.length_map])).map fun x => (o, x)
  rw [hclog] at hask
  refine (hask.almost_of hred B (fun o => (∃ r, o.1 = .ok r) ∧ o.2 ∉ B) (by omega) (fun H hH => ⟨?_, hH _⟩) H₀ D hD _ ?_).trans
    (Nat.mul_le_mul_right _ (Nat.mul_le_mul (by omega) (Nat.mul_le_mul_left _ hB)))
  · exact C32_creation_total ⟨K, H⟩ hk hn hg hF hW hne ht ho t₀ fun s e => hH s (by
      rw [show (⟨K, H⟩ : Oracle F G).H s = H s from rfl] at e
      rw [e]; simpa using hmem 0 hpos)
  · rintro H ⟨⟨⟨π, t'⟩, h1⟩, h2⟩ hH
    simp only at h1 h2
    refine hH ⟨π, t', h1, ?_⟩
    rw [h1] at h2
    exact C32_completeness ⟨K, fun s => red (over H₀ H s)⟩ hk hn hg hF hW hne ht ho h1 fun i hi e => h2 (by
      simp only [gOf]; rw [e]; exact hmem i hi)

/-- C68 for the multipoint argument.  For any non-empty list of true openings, the proof that `open` creates is accepted by `check` for all
hashes but the part `(k + 5) 2ᵏ / |F|` (13 · 256 / |F| for vectors of length 256).  The hash is random on a finite set of byte strings
containing those up to the given length and arbitrary elsewhere. -/
theorem C68_openings_accepted [Fintype F] {k : ℕ} {crs : CRS G} (hk : k ≤ 31) (hn : crs.n = 2 ^ k) (hg : crs.gens.length = 2 ^ k)
    (hF : Distinct F crs.n) {W : Weights F} (hW : Weights.new F crs.n = .ok W) (K : WireCodec F G) (t₀ : Transcript)
    {qs : List (ProverQuery F G)} (hne : qs ≠ []) (ht : ∀ q ∈ qs, TrueOpening crs q) {order : List ℕ} (ho : IsOrder qs order)
    (H₀ : List Byte → F) (D : Finset (List Byte)) (hD : ∀ s : List Byte, s.length ≤ t₀.length + 99 * qs.length + 190 → s ∈ D) :
    Fintype.card F * Fintype.card {H : D → F // ¬ ∃ π t', openMulti ⟨K, over H₀ H⟩ crs W t₀ qs order = .ok (π, t') ∧
        checkMulti ⟨K, over H₀ H⟩ π crs W (qs.map ProverQuery.toVerifier) t₀ = .ok (true, t')} ≤
      (k + 5) * 2 ^ k * Fintype.card F ^ D.card := by
  have h := openings_of spread_id hk hn hg hF hW K t₀ hne ht ho H₀ D hD
  rw [one_mul] at h
  exact h

/-- The number of openings of a proof. -/
theorem queries_length (C : Crypto F G) (l : List (Key × Value)) {db : MemoryDb F G} (hb : build C l = .ok db) {keys : List Key}
    (hk : keys ≠ []) {qs : List (ProverQuery F G)} {hint : VerificationHint} (h : createProverQueries db keys = .ok (qs, hint)) :
    qs.length ≤ 36 * keys.length := by
  rw [build_iff] at hb
  subst hb
  obtain ⟨L, d, he, hL, hLm, -, -⟩ := createProverQueries_spec C (lastWrite l) hk
  rw [he] at h
  cases h
  rw [List.length_map]
  exact labels_length hL hLm

/-- The opening argument of the trie succeeds for the queries of an honest proof for almost every hash. -/
theorem opener_almost_of {E : Type} [Fintype E] {red : E → F} {c : ℕ} (hred : Spread red c) (hF : Distinct F 256) (K : WireCodec F G) (C : Crypto F G) (Q : G)
    {order : List (ProverQuery F G) → List ℕ} (ho : ∀ qs, IsOrder qs (order qs)) (l : List (Key × Value)) {db : MemoryDb F G}
    (hb : build C l = .ok db) {keys : List Key} (hk : keys ≠ []) {root : G} (hr : Trie.rootCommitment db = .ok root)
    (H₀ : List Byte → E) (D : Finset (List Byte)) (hD : ∀ s : List Byte, s.length ≤ 99 * (36 * keys.length) + 192 → s ∈ D)
    (Lose : (D → E) → Prop) [Fintype {H // Lose H}]
    (hl : ∀ H, (∀ qs hint, createProverQueries db keys = .ok (qs, hint) → ∃ pf : MultiProof F G,
      (multiOpener ⟨K, fun s => red (over H₀ H s)⟩ C Q order).openAll qs = .ok pf ∧ pf.openProof.L.length = 8 ∧ pf.openProof.R.length = 8 ∧
        (multiOpener ⟨K, fun s => red (over H₀ H s)⟩ C Q order).check pf (qs.map ProverQuery.toVerifier) = .ok true) → ¬ Lose H) :
    Fintype.card E * Fintype.card {H : D → E // Lose H} ≤ 13 * (c * 256) * Fintype.card E ^ D.card := by
  obtain ⟨q, qs, hint, h1, -, ht, -, -⟩ := honest_run C l hb hk hr
  obtain ⟨W, hW, -⟩ := new_good hF (by norm_num)
  have hg : (crsOf C Q).gens.length = 2 ^ 8 := by simp [crsOf]
  have hlen := queries_length C l hb hk h1
  have := openings_of hred (k := 8) (crs := crsOf C Q) (by norm_num) rfl hg hF hW K (newTranscript (lbl "vt")) (qs := q :: qs)
    (by simp) (fun q hq => (ht q hq).opening Q) (ho _) H₀ D fun s hs => hD s (by
      have : (newTranscript (lbl "vt")).length = 2 := rfl
      omega)
  refine le_trans (Nat.mul_le_mul_left _ (Fintype.card_subtype_mono _ _ fun H hH hex => ?_)) this
  obtain ⟨π, t', h2, h3⟩ := hex
  refine hl H (fun qs' hint' h4 => ?_) hH
  rw [h1] at h4
  cases h4
  obtain ⟨hL, hR⟩ := openMulti_length _ h2
  rw [hg, Nat.clog_pow 2 8 (by norm_num)] at hL hR
  exact ⟨π, by simp only [multiOpener, hW, bind, Except.bind, h2], hL, hR, by simp only [multiOpener, hW, bind, Except.bind, h3]⟩

/-- If the opening argument succeeds for the queries of the prover, the proof is made, written, read and accepted. -/
theorem proof_accepted (K : WireCodec F G) (C : Crypto F G) (Q : G) (order : List (ProverQuery F G) → List ℕ) (R : List Byte → F)
    (l : List (Key × Value)) {db : MemoryDb F G}
    (hb : build C l = .ok db) {keys : List Key} (hk : keys ≠ []) (hk' : 36 * keys.length < 2 ^ 32) {root : G}
    (hr : Trie.rootCommitment db = .ok root) (hs : Separated C (lastWrite l) (· ∈ keys))
    (hO : ∀ qs hint, createProverQueries db keys = .ok (qs, hint) → ∃ pf : MultiProof F G,
      (multiOpener ⟨K, R⟩ C Q order).openAll qs = .ok pf ∧ pf.openProof.L.length = 8 ∧ pf.openProof.R.length = 8 ∧
        (multiOpener ⟨K, R⟩ C Q order).check pf (qs.map ProverQuery.toVerifier) = .ok true) :
    ∃ (p : VerkleProof G (MultiProof F G)) (bs : List Byte) (uh : UpdateHint G),
        createVerkleProof (multiOpener ⟨K, R⟩ C Q order) db keys = .ok (.ok p) ∧ writeProof K p = .ok bs ∧
        readProof K bs = .ok (some p) ∧
        check C (multiOpener ⟨K, R⟩ C Q order) p keys (keys.map (Trie.get db)) root = .ok (true, some uh) := by
  obtain ⟨q, qs, hint, h1, h2, -, h3, -⟩ := honest_run C l hb hk hr
  obtain ⟨pf, h4, h5, h6, h7⟩ := hO _ _ h1
  have hc : createVerkleProof (multiOpener ⟨K, R⟩ C Q order) db keys =
      .ok (.ok ⟨hint, commsSorted root (q :: qs), pf⟩) := by
    simp only [createVerkleProof, if_neg hk, h1, bind, Except.bind, h4, h2]
  obtain ⟨uh, h8, -⟩ := h3 hs
  obtain ⟨bs, h9, h10⟩ := C24_proof_roundtrip C K (multiOpener ⟨K, R⟩ C Q order).openAll
    (multiOpener ⟨K, R⟩ C Q order).check (fun qs p ho => by
      simp only [multiOpener, bind, Except.bind] at ho
      split at ho
      · cases ho
      split at ho
      · cases ho
      next r hr =>
        cases ho
        have := openMulti_length _ hr
        rw [show (crsOf C Q).gens.length = 2 ^ 8 by simp [crsOf], Nat.clog_pow 2 8 (by norm_num)] at this
        exact this) l hb hk' (p := ⟨hint, commsSorted root (q :: qs), pf⟩) hc
  refine ⟨⟨hint, commsSorted root (q :: qs), pf⟩, bs, uh, hc, h9, h10, ?_⟩
  simp only [check, h8, bind, Except.bind, h7]

/-- What `C68_proofs_accepted_partial` says, for a hash with values in `E` that `red` turns into challenges, each from at most `c` values. -/
theorem proofs_of {E : Type} [Fintype E] {red : E → F} {c : ℕ} (hred : Spread red c) (hF : Distinct F 256) (K : WireCodec F G) (C : Crypto F G) (Q : G)
    {order : List (ProverQuery F G) → List ℕ} (ho : ∀ qs, IsOrder qs (order qs)) (l : List (Key × Value)) {db : MemoryDb F G}
    (hb : build C l = .ok db) {keys : List Key} (hk : keys ≠ []) (hk' : 36 * keys.length < 2 ^ 32) {root : G}
    (hr : Trie.rootCommitment db = .ok root) (hs : Separated C (lastWrite l) (· ∈ keys)) (H₀ : List Byte → E)
    (D : Finset (List Byte)) (hD : ∀ s : List Byte, s.length ≤ 99 * (36 * keys.length) + 192 → s ∈ D) :
    Fintype.card E * Fintype.card {H : D → E // ¬ ∃ (p : VerkleProof G (MultiProof F G)) (bs : List Byte) (uh : UpdateHint G),
        createVerkleProof (multiOpener ⟨K, fun s => red (over H₀ H s)⟩ C Q order) db keys = .ok (.ok p) ∧ writeProof K p = .ok bs ∧
        readProof K bs = .ok (some p) ∧
        check C (multiOpener ⟨K, fun s => red (over H₀ H s)⟩ C Q order) p keys (keys.map (Trie.get db)) root = .ok (true, some uh)} ≤
      13 * (c * 256) * Fintype.card E ^ D.card := by
  refine opener_almost_of hred hF K C Q ho l hb hk hr H₀ D hD _ fun H hO hH => hH ?_
  exact proof_accepted K C Q order _ l hb hk hk' hr hs hO

/-- C68 for tries (partial: if the opened nodes are `Separated`; otherwise checking panics for every hash, see C20).  For every history and
every non-empty list of keys (so few that 36 per key is below 2³²): for all hashes but the part 13 · 256 / |F| a proof is created, written
to bytes, read back from them, and accepted with the values that `get` returns. -/
theorem C68_proofs_accepted_partial [Fintype F] (hF : Distinct F 256) (K : WireCodec F G) (C : Crypto F G) (Q : G)
    {order : List (ProverQuery F G) → List ℕ} (ho : ∀ qs, IsOrder qs (order qs)) (l : List (Key × Value)) {db : MemoryDb F G}
    (hb : build C l = .ok db) {keys : List Key} (hk : keys ≠ []) (hk' : 36 * keys.length < 2 ^ 32) {root : G}
    (hr : Trie.rootCommitment db = .ok root) (hs : Separated C (lastWrite l) (· ∈ keys)) (H₀ : List Byte → F)
    (D : Finset (List Byte)) (hD : ∀ s : List Byte, s.length ≤ 99 * (36 * keys.length) + 192 → s ∈ D) :
    Fintype.card F * Fintype.card {H : D → F // ¬ ∃ (p : VerkleProof G (MultiProof F G)) (bs : List Byte) (uh : UpdateHint G),
        createVerkleProof (multiOpener ⟨K, over H₀ H⟩ C Q order) db keys = .ok (.ok p) ∧ writeProof K p = .ok bs ∧
        readProof K bs = .ok (some p) ∧
        check C (multiOpener ⟨K, over H₀ H⟩ C Q order) p keys (keys.map (Trie.get db)) root = .ok (true, some uh)} ≤
      13 * 256 * Fintype.card F ^ D.card := by
  have h := proofs_of spread_id hF K C Q ho l hb hk hk' hr hs H₀ D hD
  rw [one_mul] at h
  exact h

/-- C68 without `Separated` is false: for a trie in which two neighbouring opened nodes have the same commitment, checking panics with every
hash for every proof the prover returns, whatever the commitment scheme. -/
theorem C68_full_claim_false (C : Crypto F G) (K : WireCodec F G) (Q : G) (order : List (ProverQuery F G) → List ℕ) :
    ∃ (l : List (Key × Value)) (keys : List Key) (db : MemoryDb F G) (root : G), build C l = .ok db ∧ keys ≠ [] ∧
      Trie.rootCommitment db = .ok root ∧ ∀ (H : List Byte → F) (p : VerkleProof G (MultiProof F G)),
        createVerkleProof (multiOpener ⟨K, H⟩ C Q order) db keys = .ok (.ok p) →
        check C (multiOpener ⟨K, H⟩ C Q order) p keys (keys.map (Trie.get db)) root =
          .error "assert commitments.len() == all_paths.len()" := by
  have hk : twinKeys ≠ [] := by simp [twinKeys]
  refine ⟨twinHist, twinKeys, _, _, build_eq C _, hk, root_of_build, fun H p hp => ?_⟩
  obtain ⟨q, qs, hint, h1, h2, -, -, h4⟩ := honest_run C twinHist (build_eq C _) hk root_of_build
  simp only [createVerkleProof, if_neg hk, h1, bind, Except.bind] at hp
  split at hp
  · cases hp
  · cases hp
    rw [h2]
    simp only [check, h4 (twin_not_separated C), bind, Except.bind]

/-- If the opening argument succeeds for the queries of the prover, the updater returns the root of the updated trie. -/
theorem update_accepted (K : WireCodec F G) (C : Crypto F G) (Q : G) (order : List (ProverQuery F G) → List ℕ) (R : List Byte → F)
    {ord : Path → List Stem → List Stem}
    (hord : ∀ p l, (ord p l).Perm l) (l : List (Key × Value)) {db : MemoryDb F G} (hb : build C l = .ok db) {keys : List Key}
    (hk : keys ≠ []) (hnd : keys.Nodup) {updated : List (Option Value)} (hlen : updated.length = keys.length) {root : G}
    (hr : Trie.rootCommitment db = .ok root) (hs : Separated C (lastWrite l) (· ∈ keys))
    (hp : ∀ kv ∈ writes keys updated, PlaceTaken (lastWrite l) kv.1.stem) {db' : MemoryDb F G} {root' : G}
    (hb' : Trie.insert C db (writes keys updated) = .ok db') (hr' : Trie.rootCommitment db' = .ok root')
    (hO : ∀ qs hint, createProverQueries db keys = .ok (qs, hint) → ∃ pf : MultiProof F G,
      (multiOpener ⟨K, R⟩ C Q order).openAll qs = .ok pf ∧ pf.openProof.L.length = 8 ∧ pf.openProof.R.length = 8 ∧
        (multiOpener ⟨K, R⟩ C Q order).check pf (qs.map ProverQuery.toVerifier) = .ok true) :
    ∃ p : VerkleProof G (MultiProof F G), createVerkleProof (multiOpener ⟨K, R⟩ C Q order) db keys = .ok (.ok p) ∧
        verifyAndUpdate C (multiOpener ⟨K, R⟩ C Q order) ord p root keys (keys.map (Trie.get db)) updated = .ok (.ok root') := by
  obtain ⟨p, db₁, root₁, h1, h2, h3, h4, -⟩ := update_core C (multiOpener ⟨K, R⟩ C Q order) hord l hb hk hnd hlen hr
    fun qs hint he => by
      obtain ⟨pf, h5, -, -, h6⟩ := hO qs hint he
      exact ⟨pf, h5, h6⟩
  rw [hb'] at h2
  cases h2
  rw [hr'] at h3
  cases h3
  exact ⟨p, h1, (h4 hs).1 hp⟩

/-- What `C68_update_partial` says, for a hash with values in `E` that `red` turns into challenges, each from at most `c` values. -/
theorem update_of {E : Type} [Fintype E] {red : E → F} {c : ℕ} (hred : Spread red c) (hF : Distinct F 256) (K : WireCodec F G) (C : Crypto F G) (Q : G)
    {order : List (ProverQuery F G) → List ℕ} (ho : ∀ qs, IsOrder qs (order qs)) {ord : Path → List Stem → List Stem}
    (hord : ∀ p l, (ord p l).Perm l) (l : List (Key × Value)) {db : MemoryDb F G} (hb : build C l = .ok db) {keys : List Key}
    (hk : keys ≠ []) (hnd : keys.Nodup) {updated : List (Option Value)} (hlen : updated.length = keys.length) {root : G}
    (hr : Trie.rootCommitment db = .ok root) (hs : Separated C (lastWrite l) (· ∈ keys))
    (hp : ∀ kv ∈ writes keys updated, PlaceTaken (lastWrite l) kv.1.stem) {db' : MemoryDb F G} {root' : G}
    (hb' : Trie.insert C db (writes keys updated) = .ok db') (hr' : Trie.rootCommitment db' = .ok root') (H₀ : List Byte → E)
    (D : Finset (List Byte)) (hD : ∀ s : List Byte, s.length ≤ 99 * (36 * keys.length) + 192 → s ∈ D) :
    Fintype.card E * Fintype.card {H : D → E // ¬ ∃ p : VerkleProof G (MultiProof F G),
        createVerkleProof (multiOpener ⟨K, fun s => red (over H₀ H s)⟩ C Q order) db keys = .ok (.ok p) ∧
        verifyAndUpdate C (multiOpener ⟨K, fun s => red (over H₀ H s)⟩ C Q order) ord p root keys (keys.map (Trie.get db)) updated =
          .ok (.ok root')} ≤
      13 * (c * 256) * Fintype.card E ^ D.card := by
  refine opener_almost_of hred hF K C Q ho l hb hk hr H₀ D hD _ fun H hO hH => hH ?_
  exact update_accepted K C Q order _ hord l hb hk hnd hlen hr hs hp hb' hr' hO

/-- C68 for the stateless updater (partial: with the conditions of C26).  For all hashes but the part 13 · 256 / |F| a proof is created
with which the updater returns the root of the updated trie. -/
theorem C68_update_partial [Fintype F] (hF : Distinct F 256) (K : WireCodec F G) (C : Crypto F G) (Q : G)
    {order : List (ProverQuery F G) → List ℕ} (ho : ∀ qs, IsOrder qs (order qs)) {ord : Path → List Stem → List Stem}
    (hord : ∀ p l, (ord p l).Perm l) (l : List (Key × Value)) {db : MemoryDb F G} (hb : build C l = .ok db) {keys : List Key}
    (hk : keys ≠ []) (hnd : keys.Nodup) {updated : List (Option Value)} (hlen : updated.length = keys.length) {root : G}
    (hr : Trie.rootCommitment db = .ok root) (hs : Separated C (lastWrite l) (· ∈ keys))
    (hp : ∀ kv ∈ writes keys updated, PlaceTaken (lastWrite l) kv.1.stem) {db' : MemoryDb F G} {root' : G}
    (hb' : Trie.insert C db (writes keys updated) = .ok db') (hr' : Trie.rootCommitment db' = .ok root') (H₀ : List Byte → F)
    (D : Finset (List Byte)) (hD : ∀ s : List Byte, s.length ≤ 99 * (36 * keys.length) + 192 → s ∈ D) :
    Fintype.card F * Fintype.card {H : D → F // ¬ ∃ p : VerkleProof G (MultiProof F G),
        createVerkleProof (multiOpener ⟨K, over H₀ H⟩ C Q order) db keys = .ok (.ok p) ∧
        verifyAndUpdate C (multiOpener ⟨K, over H₀ H⟩ C Q order) ord p root keys (keys.map (Trie.get db)) updated =
          .ok (.ok root')} ≤
      13 * 256 * Fintype.card F ^ D.card := by
  have h := update_of spread_id hF K C Q ho hord l hb hk hnd hlen hr hs hp hb' hr' H₀ D hD
  rw [one_mul] at h
  exact h

/-- What `C68_bytes_accepted` says, for a hash with values in `E` that `red` turns into challenges, each from at most `c` values. -/
theorem bytes_of {E : Type} [Fintype E] {red : E → F} {c : ℕ} (hred : Spread red c) (hF : Distinct F 256) (K : WireCodec F G) (C : Crypto F G) (Q : G)
    {order : List (ProverQuery F G) → List ℕ} (ho : ∀ qs, IsOrder qs (order qs)) {qs : List (ProverQuery F G)} (hne : qs ≠ [])
    (hq : ∀ q ∈ qs, Formatted q) (ht : ∀ q ∈ qs, TrueOpening (crsOf C Q) q) (H₀ : List Byte → E) (D : Finset (List Byte))
    (hD : ∀ s : List Byte, s.length ≤ 99 * qs.length + 196 → s ∈ D) :
    Fintype.card E * Fintype.card {H : D → E // ¬ ∃ bs : List Byte,
        createProof ⟨K, fun s => red (over H₀ H s)⟩ C Q order (qs.flatMap fun q => proverQueryBytes K (K.encE q.commitment) q) = .ok (some bs) ∧
        verifyProof ⟨K, fun s => red (over H₀ H s)⟩ C Q (bs ++ qs.flatMap fun q => queryBytes K (q.commitment, asU8 q.point, q.result)) =
          .ok (some true)} ≤
      13 * (c * 256) * Fintype.card E ^ D.card := by
  obtain ⟨W, hW, -⟩ := new_good hF (by norm_num)
  have hg : (crsOf C Q).gens.length = 2 ^ 8 := by simp [crsOf]
  have := openings_of hred (k := 8) (crs := crsOf C Q) (by norm_num) rfl hg hF hW K (newTranscript (lbl "verkle")) (qs := qs)
    hne ht (ho _) H₀ D fun s hs => hD s (by
      have : (newTranscript (lbl "verkle")).length = 6 := rfl
      omega)
  refine le_trans (Nat.mul_le_mul_left _ (Fintype.card_subtype_mono _ _ fun H hH hex => hH ?_)) this
  obtain ⟨π, t', h2, h3⟩ := hex
  obtain ⟨hL, hR⟩ := openMulti_length _ h2
  rw [hg, Nat.clog_pow 2 8 (by norm_num)] at hL hR
  refine ⟨multiToBytes K π, ?_, ?_⟩
  · unfold createProof
    rw [hW, C49_prover K hq]
    simp only [bind, Except.bind]
    rw [h2]
  · have hv := C49_verifier K hL hR (qs.map fun q => (q.commitment, asU8 q.point, q.result))
    rw [List.flatMap_map, List.map_map] at hv
    have hc : qs.map (toQuery ∘ fun q => (q.commitment, asU8 q.point, q.result)) = qs.map ProverQuery.toVerifier := by
      apply List.map_congr_left
      intro q hqm
      simp only [Function.comp, toQuery, ProverQuery.toVerifier]
      rw [show (asU8 q.point).val = q.point from Nat.mod_eq_of_lt (hq q hqm).2]
    rw [hc] at hv
    unfold verifyProof
    rw [hW]
    simp only [bind, Except.bind]
    rw [hv]
    simp only [h3]

/-- C68 for the byte interface.  For all hashes but the part 13 · 256 / |F| the bytes returned by `create_proof` for true openings, followed
by the statements, are accepted by `verify_proof`. -/
theorem C68_bytes_accepted [Fintype F] (hF : Distinct F 256) (K : WireCodec F G) (C : Crypto F G) (Q : G)
    {order : List (ProverQuery F G) → List ℕ} (ho : ∀ qs, IsOrder qs (order qs)) {qs : List (ProverQuery F G)} (hne : qs ≠ [])
    (hq : ∀ q ∈ qs, Formatted q) (ht : ∀ q ∈ qs, TrueOpening (crsOf C Q) q) (H₀ : List Byte → F) (D : Finset (List Byte))
    (hD : ∀ s : List Byte, s.length ≤ 99 * qs.length + 196 → s ∈ D) :
    Fintype.card F * Fintype.card {H : D → F // ¬ ∃ bs : List Byte,
        createProof ⟨K, over H₀ H⟩ C Q order (qs.flatMap fun q => proverQueryBytes K (K.encE q.commitment) q) = .ok (some bs) ∧
        verifyProof ⟨K, over H₀ H⟩ C Q (bs ++ qs.flatMap fun q => queryBytes K (q.commitment, asU8 q.point, q.result)) =
          .ok (some true)} ≤
      13 * 256 * Fintype.card F ^ D.card := by
  have h := bytes_of spread_id hF K C Q ho hne hq ht H₀ D hD
  rw [one_mul] at h
  exact h

end

/-! ### Bandersnatch -/

open Verif.Bander

theorem part_lt {n N : ℕ} (h : r * n ≤ 13 * 256 * N) : 2 ^ 240 * n ≤ N := by
  have hr : 13 * 256 * 2 ^ 240 ≤ r := by decide +kernel
  by_contra hc
  have h1 : 13 * 256 * N < 13 * 256 * (2 ^ 240 * n) := by omega
  have h2 : 13 * 256 * 2 ^ 240 * n ≤ r * n := Nat.mul_le_mul_right _ hr
  rw [mul_assoc] at h2
  exact absurd (lt_of_lt_of_le h1 (h2.trans h)) (lt_irrefl _)

/-- C68 for the C interface over Bandersnatch.  For all hashes but a part of 2⁻²⁴⁰ the bytes returned by `create_proof` for true openings,
followed by the statements, are accepted by `verify_proof`. -/
theorem C68_c_accepted [Fintype (ZMod r)] (K : Ark) {ctx : ProofContext} (hctx : ProofContext.new = .ok ctx) (S : Sqrt (ZMod Bander.q))
    {order : List ℕ → List ℕ} (ho : ∀ l, (order l).Nodup ∧ ∀ p, p ∈ order l ↔ p ∈ l) {qs : List (ProverQuery (ZMod r) BElem)}
    (hne : qs ≠ []) (hf : ∀ q ∈ qs, Formatted q) (ht : ∀ q ∈ qs, TrueOpening (crsOf crypto genPt) q) (H₀ : List Byte → ZMod r)
    (D : Finset (List Byte)) (hD : ∀ s : List Byte, s.length ≤ 99 * qs.length + 196 → s ∈ D) :
    2 ^ 240 * Fintype.card {H : D → ZMod r // ¬ ∃ bs : List Byte,
        cCreateProof K (over H₀ H) ctx S order (qs.flatMap fun q => proverQueryBytes codec (codec.encE q.commitment) q) = .ok bs ∧
        cVerifyProof K (over H₀ H) ctx S (bs ++ qs.flatMap fun q => queryBytes codec (q.commitment, asU8 q.point, q.result)) =
          .ok true} ≤ r ^ D.card := by
  have := C68_bytes_accepted C52_scalar_field.2.1 codec crypto genPt (order := fun qs => order (qs.map ProverQuery.point))
    (fun qs => ⟨(ho _).1, fun p => ((ho _).2 p).trans List.mem_map⟩) hne hf ht H₀ D hD
  rw [ZMod.card] at this
  refine part_lt (le_trans (Nat.mul_le_mul_left _ (Fintype.card_subtype_mono _ _ fun H hH hex => hH ?_)) this)
  obtain ⟨bs, h1, h2⟩ := hex
  exact ⟨bs, (C59_create K (over H₀ H) hctx S order _ bs).2 h1, (C59_verify K (over H₀ H) hctx S _ true).2 h2⟩

/-- C68 for tries over Bandersnatch. -/
theorem C68_bandersnatch_partial [Fintype (ZMod r)] {order : List (ProverQuery (ZMod r) BElem) → List ℕ}
    (ho : ∀ qs, IsOrder qs (order qs)) (l : List (Key × Value)) {db : MemoryDb (ZMod r) BElem} (hb : build crypto l = .ok db)
    {keys : List Key} (hk : keys ≠ []) (hk' : 36 * keys.length < 2 ^ 32) {root : BElem} (hr : Trie.rootCommitment db = .ok root)
    (hs : Separated crypto (lastWrite l) (· ∈ keys)) (H₀ : List Byte → ZMod r) (D : Finset (List Byte))
    (hD : ∀ s : List Byte, s.length ≤ 99 * (36 * keys.length) + 192 → s ∈ D) :
    2 ^ 240 * Fintype.card {H : D → ZMod r // ¬ ∃ (p : VerkleProof BElem (MultiProof (ZMod r) BElem)) (bs : List Byte)
        (uh : UpdateHint BElem),
        createVerkleProof (multiOpener ⟨codec, over H₀ H⟩ crypto genPt order) db keys = .ok (.ok p) ∧ writeProof codec p = .ok bs ∧
        readProof codec bs = .ok (some p) ∧
        check crypto (multiOpener ⟨codec, over H₀ H⟩ crypto genPt order) p keys (keys.map (Trie.get db)) root = .ok (true, some uh)} ≤
      r ^ D.card := by
  have := C68_proofs_accepted_partial C52_scalar_field.2.1 codec crypto genPt ho l hb hk hk' hr hs H₀ D hD
  rw [ZMod.card] at this
  exact part_lt this

/-- The hypotheses of `C68_c_accepted` (and `C68_bytes_accepted`, `C68_openings_accepted`) are met for the openings of two vectors. -/
example [Fintype (ZMod r)] (H₀ : List Byte → ZMod r) : ∃ (K : Ark) (ctx : ProofContext) (S : Sqrt (ZMod Bander.q))
    (D : Finset (List Byte)), 2 ^ 240 * Fintype.card {H : D → ZMod r // ¬ ∃ bs : List Byte,
        cCreateProof K (over H₀ H) ctx S List.dedup
          (sampleQueries.flatMap fun q => proverQueryBytes codec (codec.encE q.commitment) q) = .ok bs ∧
        cVerifyProof K (over H₀ H) ctx S
          (bs ++ sampleQueries.flatMap fun q => queryBytes codec (q.commitment, asU8 q.point, q.result)) = .ok true} ≤ r ^ D.card := by
  obtain ⟨K, -⟩ := exists_ark
  obtain ⟨ctx, hctx, -⟩ := C59_context
  exact ⟨K, ctx, someSqrt _, shortStrings (99 * sampleQueries.length + 196), C68_c_accepted K hctx _
    (fun l => ⟨List.nodup_dedup l, fun p => List.mem_dedup⟩) (List.cons_ne_nil _ _) sampleQueries_ok.1 sampleQueries_ok.2 H₀ _
    fun s h => mem_shortStrings h⟩

/-- The hypotheses of `C68_bandersnatch_partial` are met for a proof of absence of two keys. -/
example [Fintype (ZMod r)] (H₀ : List Byte → ZMod r) : ∃ (db : MemoryDb (ZMod r) BElem) (root : BElem) (D : Finset (List Byte)),
    2 ^ 240 * Fintype.card {H : D → ZMod r // ¬ ∃ (p : VerkleProof BElem (MultiProof (ZMod r) BElem)) (bs : List Byte)
        (uh : UpdateHint BElem),
        createVerkleProof (multiOpener ⟨codec, over H₀ H⟩ crypto genPt anyOrder) db [demoKey 1 5, demoKey 2 5] = .ok (.ok p) ∧
        writeProof codec p = .ok bs ∧ readProof codec bs = .ok (some p) ∧
        check crypto (multiOpener ⟨codec, over H₀ H⟩ crypto genPt anyOrder) p [demoKey 1 5, demoKey 2 5]
          ([demoKey 1 5, demoKey 2 5].map (Trie.get db)) root = .ok (true, some uh)} ≤ r ^ D.card :=
  ⟨_, _, shortStrings _, C68_bandersnatch_partial anyOrder_isOrder [] (build_eq crypto []) (by simp) (by simp)
    (root_of_build (C := crypto) (m := lastWrite [])) (empty_separated crypto _) H₀ _ fun s h => mem_shortStrings h⟩

theorem wideUpd_demo : wideRun proofHist updKeys = some true := by decide +kernel

theorem wideUpd_separated : Separated wide (lastWrite proofHist) (· ∈ updKeys) := by
  by_contra h
  have hb := build_eq wide proofHist
  have hr := root_of_build (C := wide) (m := lastWrite proofHist)
  obtain ⟨p, h1, _, h3⟩ := C20_honest_proofs_verify_partial wide _ (yesOpener_complete wide) proofHist hb (keys := updKeys)
    (by simp [updKeys]) hr
  have h4 := wideUpd_demo
  unfold wideRun at h4
  simp only [hb, hr, bind, Except.bind, h1, h3 h] at h4
  simp at h4

/-- The hypotheses of `C68_proofs_accepted_partial` and `C68_update_partial` are met for a trie with values, reads and writes. -/
example (H₀ : List Byte → ZMod 521) : ∃ db root db' root', ∃ D : Finset (List Byte), build wide proofHist = .ok db ∧
    Trie.rootCommitment db = .ok root ∧
    Trie.insert wide db (writes updKeys updVals) = .ok db' ∧ Trie.rootCommitment db' = .ok root' ∧
    Fintype.card (ZMod 521) * Fintype.card {H : D → ZMod 521 // ¬ ∃ (p : VerkleProof _ (MultiProof (ZMod 521) _)) (bs : List Byte)
        (uh : UpdateHint _),
        createVerkleProof (multiOpener ⟨wideOracle.K, over H₀ H⟩ wide 3 anyOrder) db updKeys = .ok (.ok p) ∧
        writeProof wideOracle.K p = .ok bs ∧ readProof wideOracle.K bs = .ok (some p) ∧
        check wide (multiOpener ⟨wideOracle.K, over H₀ H⟩ wide 3 anyOrder) p updKeys (updKeys.map (Trie.get db)) root =
          .ok (true, some uh)} ≤ 13 * 256 * Fintype.card (ZMod 521) ^ D.card ∧
    Fintype.card (ZMod 521) * Fintype.card {H : D → ZMod 521 // ¬ ∃ p : VerkleProof _ (MultiProof (ZMod 521) _),
        createVerkleProof (multiOpener ⟨wideOracle.K, over H₀ H⟩ wide 3 anyOrder) db updKeys = .ok (.ok p) ∧
        verifyAndUpdate wide (multiOpener ⟨wideOracle.K, over H₀ H⟩ wide 3 anyOrder) (fun _ l => l) p root updKeys
          (updKeys.map (Trie.get db)) updVals = .ok (.ok root')} ≤ 13 * 256 * Fintype.card (ZMod 521) ^ D.card := by
  have hb := build_eq wide proofHist
  have hr := root_of_build (C := wide) (m := lastWrite proofHist)
  obtain ⟨p, db', root', h1, h2, h3, _, h5⟩ := C26_stateless_update_partial wide _ (yesOpener_complete wide)
    (ord := fun _ l => l) (fun _ l => List.Perm.refl l) proofHist hb (keys := updKeys) (by simp [updKeys])
    (by decide +kernel) (updated := updVals) rfl hr
  refine ⟨_, _, db', root', shortStrings (99 * (36 * updKeys.length) + 192), hb, hr, h2, h3, ?_, ?_⟩
  · exact C68_proofs_accepted_partial wide_distinct _ wide 3 anyOrder_isOrder proofHist hb (by simp [updKeys]) (by decide) hr
      wideUpd_separated H₀ _ fun s h => mem_shortStrings h
  · exact C68_update_partial wide_distinct _ wide 3 anyOrder_isOrder (fun _ l => List.Perm.refl l) proofHist hb (by simp [updKeys])
      (by decide +kernel) rfl hr wideUpd_separated upd_placeTaken h2 h3 H₀ _ fun s h => mem_shortStrings h

end Verif.Props
