import Verif.Props.RomClients
import Verif.Props.Complete

/-!
# C70: a stateless client that follows a chain of blocks

`verify_and_update` (verkle-trie/src/proof/stateless_updater.rs lines 12-31) takes a root and returns a root.  A client without the
trie calls it once per block, each time with the root returned before.  Here the calls are put together: whatever proofs such a
client accepts, it has the root of the trie after all the writes; an honest node serves a client for every chain of blocks; and
a program that chooses the whole chain after looking at the hash gains no more from a chain than from one block.

The client (`followChain`) and the server (`serve`) are not functions of the repository, only the calls they consist of.
-/

set_option autoImplicit false
set_option linter.unusedSectionVars false

namespace Verif.Props
open Verif Verif.Spec Verif.Trie Verif.Proof Verif.Ipa Verif.Wire
open scoped Classical

variable {F G : Type} [Field F] [DecidableEq F] [AddCommGroup G] [DecidableEq G] [Module F G]

/-- What a stateless client is sent for a block: a proof, the keys with their old values, the new values. -/
structure Block (G Pf : Type) where
  proof : VerkleProof G Pf
  keys : List Key
  values : List (Option Value)
  updated : List (Option Value)

/-- A client that has a root only: `verify_and_update` for one block after the other, each time with the root returned before.  It
stops at the first block that is refused. -/
def followChain (C : Crypto F G) (O : Opener F G) (ord : Path → List Stem → List Stem) :
    G → List (Block G O.Pf) → Res (Except VerificationError G)
  | root, [] => .ok (.ok root)
  | root, b :: bs =>
    match verifyAndUpdate C O ord b.proof root b.keys b.values b.updated with
    | .error e => .error e
    | .ok (.error e) => .ok (.error e)
    | .ok (.ok r) => followChain C O ord r bs

/-- The blocks tell the truth about the trie `db` and the tries after each of them, and `r` is the root of the last one: the old
values of the written keys are the stored ones. -/
def Truthful {Pf : Type} (C : Crypto F G) : MemoryDb F G → List (Block G Pf) → G → Prop
  | db, [], r => Trie.rootCommitment db = .ok r
  | db, b :: bs, r =>
    (∀ k o v, ((k, o), some v) ∈ (b.keys.zip b.values).zip b.updated → Trie.get db k = o) ∧
      ∃ db', Trie.insert C db (writes b.keys b.updated) = .ok db' ∧ Truthful C db' bs r

/-- All the writes of a chain. -/
def chainWrites {Pf : Type} (bs : List (Block G Pf)) : List (Key × Value) := bs.flatMap fun b => writes b.keys b.updated

theorem followChain_cons {C : Crypto F G} {O : Opener F G} {ord : Path → List Stem → List Stem} {root r : G} {b : Block G O.Pf}
    {bs : List (Block G O.Pf)} (h : followChain C O ord root (b :: bs) = .ok (.ok r)) :
    ∃ r', verifyAndUpdate C O ord b.proof root b.keys b.values b.updated = .ok (.ok r') ∧ followChain C O ord r' bs = .ok (.ok r) := by
  simp only [followChain] at h
  cases hv : verifyAndUpdate C O ord b.proof root b.keys b.values b.updated with
  | error e => rw [hv] at h; simp at h
  | ok x =>
    rw [hv] at h
    cases x with
    | error e => simp at h
    | ok r' => exact ⟨r', rfl, h⟩

theorem followChain_step {C : Crypto F G} {O : Opener F G} {ord : Path → List Stem → List Stem} {root r r' : G} {b : Block G O.Pf}
    {bs : List (Block G O.Pf)} (h1 : verifyAndUpdate C O ord b.proof root b.keys b.values b.updated = .ok (.ok r'))
    (h2 : followChain C O ord r' bs = .ok (.ok r)) : followChain C O ord root (b :: bs) = .ok (.ok r) := by
  simp only [followChain, h1, h2]

theorem build_append {C : Crypto F G} {l l' : List (Key × Value)} {db db' : MemoryDb F G} (hb : build C l = .ok db)
    (h : Trie.insert C db l' = .ok db') : build C (l ++ l') = .ok db' := by
  rw [build_iff] at hb
  subst hb
  rw [insert_spec] at h
  rw [build_eq, ← h, lastWrite_append]

/-- For a truthful chain, the last root is that of the trie after inserting all the writes at once. -/
theorem Truthful.root {Pf : Type} {C : Crypto F G} {r : G} : ∀ {bs : List (Block G Pf)} {l : List (Key × Value)} {db : MemoryDb F G},
    build C l = .ok db → Truthful C db bs r →
    ∃ db', Trie.insert C db (chainWrites bs) = .ok db' ∧ Trie.rootCommitment db' = .ok r
  | [], l, db, _, h => ⟨db, rfl, h⟩
  | b :: bs, l, db, hb, ⟨_, db₁, h1, h2⟩ => by
    obtain ⟨db', h3, h4⟩ := Truthful.root (build_append hb h1) h2
    refine ⟨db', ?_, h4⟩
    rw [build_iff] at hb
    subst hb
    rw [insert_spec] at h1 ⊢
    cases h1
    rw [insert_spec] at h3
    rw [← h3]
    simp only [chainWrites, List.flatMap_cons, applyAll_append]

/-! ### Whatever the client accepts -/

/-- C70 (partial: hints consistent at the stems of written keys, and up to a break of the commitments, as in C63).  Let a client start with the root of a
reachable trie and accept a chain of blocks, whatever the proofs, and let vectors be extracted from each of the accepted
arguments.  Then either the vectors of some block break the commitments of the trie reached before that block, or every old value
of a written key was the stored one at its time and the client ends with the root of the trie after all the writes. -/
theorem C70_client_follows_partial (hF : BigField F) (C : Crypto F G) (O : Opener F G)
    {ord : Path → List Stem → List Stem} (hord : ∀ p l, (ord p l).Perm l) : ∀ (bs : List (Block G O.Pf)) (l : List (Key × Value))
    {db : MemoryDb F G} (_ : build C l = .ok db) {root : G} (_ : Trie.rootCommitment db = .ok root) {r : G}
    (_ : followChain C O ord root bs = .ok (.ok r)) (_ : ∀ b ∈ bs, b.keys.length = b.values.length)
    (_ : ∀ b ∈ bs, ∀ k v, (k, some v) ∈ b.keys.zip b.updated → ConsistentAt b.proof.hint b.keys k.stem) (W : List (Block G O.Pf) → G → Byte → F)
    (_ : ∀ bs₁ b bs₂ r₁, bs = bs₁ ++ b :: bs₂ → followChain C O ord root bs₁ = .ok (.ok r₁) →
      CheckExtracts C (W bs₁) b.proof b.keys b.values r₁),
    (∃ bs₁ b bs₂ r₁, bs = bs₁ ++ b :: bs₂ ∧ followChain C O ord root bs₁ = .ok (.ok r₁) ∧
      CheckBreak C (lastWrite (l ++ chainWrites bs₁)) (W bs₁) b.proof b.keys b.values r₁) ∨
    (Truthful C db bs r ∧ ∃ db', Trie.insert C db (chainWrites bs) = .ok db' ∧ Trie.rootCommitment db' = .ok r)
  | [], l, db, _, root, hr, r, h, _, _, _, _ => by
    simp only [followChain, Except.ok.injEq] at h
    subst h
    exact Or.inr ⟨hr, db, rfl, hr⟩
  | b :: bs, l, db, hb, root, hr, r, h, hlen, hc, W, hW => by
    obtain ⟨r', h1, h2⟩ := followChain_cons h
    rcases C63_accepted_update_partial hF C O hord l hb hr b.proof b.keys b.values b.updated h1 (hlen b (by simp))
      (hc b (by simp)) (W []) (hW [] b bs root rfl rfl) with h3 | ⟨h3, db', h4, h5⟩
    · exact Or.inl ⟨[], b, bs, root, rfl, rfl, by simpa [chainWrites] using h3⟩
    · rcases C70_client_follows_partial hF C O hord bs _ (build_append hb h4) h5 h2 (fun c hm => hlen c (by simp [hm]))
        (fun c hm => hc c (by simp [hm])) (fun bs₁ => W (b :: bs₁))
        (fun bs₁ c bs₂ r₁ e h8 => hW (b :: bs₁) c bs₂ r₁ (by simp [e]) (followChain_step h1 h8)) with ⟨bs₁, c, bs₂, r₁, e, h8, h6⟩ | ⟨h6, _⟩
      · refine Or.inl ⟨b :: bs₁, c, bs₂, r₁, by simp [e], followChain_step h1 h8, ?_⟩
        simpa [chainWrites, List.append_assoc] using h6
      · have h7 : Truthful C db (b :: bs) r := ⟨h3, db', h4, h6⟩
        exact Or.inr ⟨h7, h7.root hb⟩

/-! ### An honest node -/

/-- What a node with the trie does for a block that reads `keys` and writes the new values: it creates a proof, sends it with the
stored values and inserts the new values. -/
def serve (C : Crypto F G) (O : Opener F G) :
    MemoryDb F G → List (List Key × List (Option Value)) → Res (Except ProofCreationError (List (Block G O.Pf) × MemoryDb F G))
  | db, [] => .ok (.ok ([], db))
  | db, (keys, updated) :: rest => do
    match ← createVerkleProof O db keys with
    | .error e => .ok (.error e)
    | .ok p =>
      let db' ← Trie.insert C db (writes keys updated)
      match ← serve C O db' rest with
      | .error e => .ok (.error e)
      | .ok (bs, db'') => .ok (.ok (⟨p, keys, keys.map (Trie.get db), updated⟩ :: bs, db''))

theorem serve_step {C : Crypto F G} {O : Opener F G} {db db₁ db' : MemoryDb F G} {keys : List Key} {updated : List (Option Value)}
    {rest : List (List Key × List (Option Value))} {p : VerkleProof G O.Pf} {bs : List (Block G O.Pf)}
    (h1 : createVerkleProof O db keys = .ok (.ok p)) (h2 : Trie.insert C db (writes keys updated) = .ok db₁)
    (h3 : serve C O db₁ rest = .ok (.ok (bs, db'))) :
    serve C O db ((keys, updated) :: rest) = .ok (.ok (⟨p, keys, keys.map (Trie.get db), updated⟩ :: bs, db')) := by
  simp only [serve, h1, h2, h3, bind, Except.bind]

/-- Each block asks for distinct keys, at least one, and has one new value or none for each. -/
def Formed (reqs : List (List Key × List (Option Value))) : Prop :=
  ∀ x ∈ reqs, x.1 ≠ [] ∧ x.1.Nodup ∧ x.2.length = x.1.length

/-- The conditions of C26 hold for each block of a chain: the opened nodes are `Separated` and the places of the written keys are
taken. -/
def Served (C : Crypto F G) : List (Key × Value) → List (List Key × List (Option Value)) → Prop
  | _, [] => True
  | l, (keys, updated) :: rest =>
    Separated C (lastWrite l) (· ∈ keys) ∧ (∀ kv ∈ writes keys updated, PlaceTaken (lastWrite l) kv.1.stem) ∧
      Served C (l ++ writes keys updated) rest

/-- All the writes asked for. -/
def allWrites (reqs : List (List Key × List (Option Value))) : List (Key × Value) := reqs.flatMap fun x => writes x.1 x.2

/-- C70 for an honest node (partial: the client goes through for exactly the chains that meet the conditions of C26).  A node with
the trie serves every chain of blocks, with the proofs and true values asked for, and ends with the trie after all the writes.  The
client that is sent these blocks ends with the root of that trie if every block meets the conditions of C26, and panics otherwise. -/
theorem C70_honest_chain_partial (C : Crypto F G) (O : Opener F G) (hO : CompleteOpener C O)
    {ord : Path → List Stem → List Stem} (hord : ∀ p l, (ord p l).Perm l) : ∀ (reqs : List (List Key × List (Option Value)))
    (l : List (Key × Value)) {db : MemoryDb F G} (_ : build C l = .ok db) {root : G} (_ : Trie.rootCommitment db = .ok root)
    (_ : Formed reqs),
    ∃ bs db' root', serve C O db reqs = .ok (.ok (bs, db')) ∧ bs.map (fun b => (b.keys, b.updated)) = reqs ∧
      Trie.insert C db (allWrites reqs) = .ok db' ∧ Trie.rootCommitment db' = .ok root' ∧
      (Served C l reqs → followChain C O ord root bs = .ok (.ok root')) ∧
      (¬ Served C l reqs → ∃ e, followChain C O ord root bs = .error e)
  | [], l, db, _, root, hr, _ => ⟨[], db, root, rfl, rfl, rfl, hr, fun _ => rfl, fun h => absurd trivial h⟩
  | (keys, updated) :: rest, l, db, hb, root, hr, hf => by
    obtain ⟨hk, hnd, hlen⟩ := hf (keys, updated) (by simp)
    obtain ⟨p, db₁, root₁, h1, h2, h3, h4, h5⟩ := C26_stateless_update_partial C O hO hord l hb hk hnd hlen hr
    obtain ⟨bs, db', root', i1, i2, i3, i4, i5, i6⟩ := C70_honest_chain_partial C O hO hord rest _ (build_append hb h2) h3
      fun x hx => hf x (by simp [hx])
    refine ⟨⟨p, keys, keys.map (Trie.get db), updated⟩ :: bs, db', root', ?_, by simp [i2], ?_, i4, ?_, ?_⟩
    · exact serve_step h1 h2 i1
    · rw [build_iff] at hb
      subst hb
      rw [insert_spec] at h2
      cases h2
      rw [insert_spec] at i3 ⊢
      rw [← i3]
      simp only [allWrites, List.flatMap_cons, applyAll_append]
    · rintro ⟨hs, hp, hrest⟩
      simp only [followChain, (h4 hs).1 hp, i5 hrest]
    · intro hn
      by_cases hs : Separated C (lastWrite l) (· ∈ keys)
      · by_cases hp : ∀ kv ∈ writes keys updated, PlaceTaken (lastWrite l) kv.1.stem
        · obtain ⟨e, he⟩ := i6 fun h => hn ⟨hs, hp, h⟩
          exact ⟨e, by simp only [followChain, (h4 hs).1 hp, he]⟩
        · have hp' : ∃ kv ∈ writes keys updated, ¬ PlaceTaken (lastWrite l) kv.1.stem := by
            by_contra hc
            exact hp fun kv hm => by_contra fun h => hc ⟨kv, hm, h⟩
          exact ⟨"no entry found for key", by simp only [followChain, (h4 hs).2 hp']⟩
      · exact ⟨"assert commitments.len() == all_paths.len()", by simp only [followChain, h5 hs]⟩

/-- C70 for an honest node and almost every hash (partial: with the conditions of C26).  With the opening argument of the
repository, the client ends with the root of the full trie for all hashes but the part `n · 13 · 256 / |F|`, where `n` is the
number of blocks. -/
theorem C70_honest_chain_random_partial [Fintype F] (hF : Ipa.Distinct F 256) (K : WireCodec F G) (C : Crypto F G) (Q : G)
    {order : List (ProverQuery F G) → List ℕ} (ho : ∀ qs, IsOrder qs (order qs)) {ord : Path → List Stem → List Stem}
    (hord : ∀ p l, (ord p l).Perm l) (kmax : ℕ) (H₀ : List Byte → F) (D : Finset (List Byte))
    (hD : ∀ s : List Byte, s.length ≤ 99 * (36 * kmax) + 192 → s ∈ D) : ∀ (reqs : List (List Key × List (Option Value)))
    (l : List (Key × Value)) {db : MemoryDb F G} (_ : build C l = .ok db) {root : G} (_ : Trie.rootCommitment db = .ok root)
    (_ : Formed reqs) (_ : ∀ x ∈ reqs, x.1.length ≤ kmax) (_ : Served C l reqs) {db' : MemoryDb F G} {root' : G}
    (_ : Trie.insert C db (allWrites reqs) = .ok db') (_ : Trie.rootCommitment db' = .ok root'),
    Fintype.card F * Fintype.card {H : D → F // ¬ ∃ bs : List (Block G (MultiProof F G)),
        serve C (multiOpener ⟨K, over H₀ H⟩ C Q order) db reqs = .ok (.ok (bs, db')) ∧
        followChain C (multiOpener ⟨K, over H₀ H⟩ C Q order) ord root bs = .ok (.ok root')} ≤
      reqs.length * (13 * 256) * Fintype.card F ^ D.card
  | [], l, db, _, root, hr, _, _, _, db', root', h1, h2 => by
    cases h1
    rw [hr] at h2
    cases h2
    have : IsEmpty {H : D → F // ¬ ∃ bs : List (Block G (MultiProof F G)),
        serve C (multiOpener ⟨K, over H₀ H⟩ C Q order) db [] = .ok (.ok (bs, db)) ∧
        followChain C (multiOpener ⟨K, over H₀ H⟩ C Q order) ord root bs = .ok (.ok root)} :=
      ⟨fun H => H.2 ⟨[], rfl, rfl⟩⟩
    rw [Fintype.card_eq_zero_iff.2 this]
    simp
  | (keys, updated) :: rest, l, db, hb, root, hr, hf, hkm, hsv, db', root', h1, h2 => by
    obtain ⟨hk, hnd, hlen⟩ := hf (keys, updated) (by simp)
    obtain ⟨hs, hp, hrest⟩ := hsv
    obtain ⟨db₁, root₁, j1, j2⟩ : ∃ db₁ root₁, Trie.insert C db (writes keys updated) = .ok db₁ ∧
        Trie.rootCommitment db₁ = .ok root₁ := by
      have hb' := hb
      rw [build_iff] at hb'
      subst hb'
      exact ⟨_, _, insert_spec _ _ _, rootCommitment_spec _ _⟩
    have j3 : Trie.insert C db₁ (allWrites rest) = .ok db' := by
      rw [build_iff] at hb
      subst hb
      rw [insert_spec] at j1 h1
      cases j1
      rw [insert_spec, ← h1]
      simp only [allWrites, List.flatMap_cons, applyAll_append]
    have hkl : keys.length ≤ kmax := hkm (keys, updated) (by simp)
    have a1 := C68_update_partial hF K C Q ho hord l hb hk hnd hlen hr hs hp j1 j2 H₀ D fun s h =>
      hD s (h.trans (by show 99 * (36 * keys.length) + 192 ≤ _; omega))
    have a2 := C70_honest_chain_random_partial hF K C Q ho hord kmax H₀ D hD rest _ (build_append hb j1) j2
      (fun x hx => hf x (by simp [hx])) (fun x hx => hkm x (by simp [hx])) hrest j3 h2
    have a3 := (Fintype.card_subtype_mono (fun H : D → F => ¬ ∃ bs : List (Block G (MultiProof F G)),
        serve C (multiOpener ⟨K, over H₀ H⟩ C Q order) db ((keys, updated) :: rest) = .ok (.ok (bs, db')) ∧
        followChain C (multiOpener ⟨K, over H₀ H⟩ C Q order) ord root bs = .ok (.ok root')) (fun H =>
      (¬ ∃ p : VerkleProof G (MultiProof F G),
        createVerkleProof (multiOpener ⟨K, over H₀ H⟩ C Q order) db keys = .ok (.ok p) ∧
        verifyAndUpdate C (multiOpener ⟨K, over H₀ H⟩ C Q order) ord p root keys (keys.map (Trie.get db)) updated =
          .ok (.ok root₁)) ∨ ¬ ∃ bs : List (Block G (MultiProof F G)),
        serve C (multiOpener ⟨K, over H₀ H⟩ C Q order) db₁ rest = .ok (.ok (bs, db')) ∧
        followChain C (multiOpener ⟨K, over H₀ H⟩ C Q order) ord root₁ bs = .ok (.ok root')) (by
      intro H hH
      by_contra hc
      rw [not_or, not_not, not_not] at hc
      obtain ⟨⟨p, c1, c2⟩, bs, c3, c4⟩ := hc
      exact hH ⟨⟨p, keys, keys.map (Trie.get db), updated⟩ :: bs, serve_step c1 j1 c3,
        followChain_step c2 c4⟩)).trans (Fintype.card_subtype_or _ _)
    calc _ ≤ Fintype.card F * (_ + _) := Nat.mul_le_mul_left _ a3
      _ ≤ 13 * 256 * Fintype.card F ^ D.card + rest.length * (13 * 256) * Fintype.card F ^ D.card := by
        rw [Nat.mul_add]; exact Nat.add_le_add a1 a2
      _ = _ := by simp only [List.length_cons]; ring

/-! ### A program that chooses the chain -/

/-- The first block about which the client would be deceived, with the writes before it.  It is found from the blocks alone, the
hash plays no part. -/
noncomputable def firstFalse {Pf : Type} (C : Crypto F G) (ord : Path → List Stem → List Stem) :
    List (Key × Value) → List (Block G Pf) → Option (List (Key × Value) × Block G Pf)
  | _, [] => none
  | l, b :: bs =>
    if ∀ qs uh r, createVerifierQueries C b.proof.hint b.proof.comms b.keys b.values (branchComm C (lastWrite l) []) =
          .ok (some (qs, uh)) →
        updateRoot C ord uh b.keys b.values b.updated (branchComm C (lastWrite l) []) = .ok (.ok r) →
        r = branchComm C (applyAll (lastWrite l) (writes b.keys b.updated)) [] ∧
          ∀ k o v, ((k, o), some v) ∈ (b.keys.zip b.values).zip b.updated → o = lastWrite l k
    then firstFalse C ord (l ++ writes b.keys b.updated) bs
    else some (l, b)

theorem verifyAndUpdate_parts {C : Crypto F G} {O : Opener F G} {ord : Path → List Stem → List Stem} {p : VerkleProof G O.Pf}
    {root r : G} {keys : List Key} {values updated : List (Option Value)}
    (h : verifyAndUpdate C O ord p root keys values updated = .ok (.ok r)) :
    ∃ qs uh, createVerifierQueries C p.hint p.comms keys values root = .ok (some (qs, uh)) ∧
      check C O p keys values root = .ok (true, some uh) ∧ updateRoot C ord uh keys values updated root = .ok (.ok r) := by
  simp only [verifyAndUpdate, check, bind, Except.bind] at h ⊢
  cases hq : createVerifierQueries C p.hint p.comms keys values root with
  | error e => rw [hq] at h; simp at h
  | ok o =>
    rw [hq] at h
    cases o with
    | none => simp at h
    | some x =>
      obtain ⟨qs, uh⟩ := x
      simp only at h
      cases hck : O.check p.proof qs with
      | error e => rw [hck] at h; simp at h
      | ok b =>
        rw [hck] at h
        cases b with
        | false => simp at h
        | true =>
          simp only [Bool.true_eq_false, if_false, unwrap] at h
          exact ⟨qs, uh, rfl, by simp only [hck], h⟩

/-- A client that accepts a chain that is not truthful accepts its first false block. -/
theorem firstFalse_of {C : Crypto F G} {O : Opener F G} {ord : Path → List Stem → List Stem} {r : G} :
    ∀ {bs : List (Block G O.Pf)} {l : List (Key × Value)}, followChain C O ord (branchComm C (lastWrite l) []) bs = .ok (.ok r) →
    ¬ Truthful C (specDb C (lastWrite l)) bs r →
    ∃ bs₁ b bs₂ r', bs = bs₁ ++ b :: bs₂ ∧ firstFalse C ord l bs = some (l ++ chainWrites bs₁, b) ∧
      verifyAndUpdate C O ord b.proof (branchComm C (lastWrite (l ++ chainWrites bs₁)) []) b.keys b.values b.updated =
        .ok (.ok r') ∧
      ¬ ∀ qs uh r, createVerifierQueries C b.proof.hint b.proof.comms b.keys b.values
          (branchComm C (lastWrite (l ++ chainWrites bs₁)) []) = .ok (some (qs, uh)) →
        updateRoot C ord uh b.keys b.values b.updated (branchComm C (lastWrite (l ++ chainWrites bs₁)) []) = .ok (.ok r) →
        r = branchComm C (applyAll (lastWrite (l ++ chainWrites bs₁)) (writes b.keys b.updated)) [] ∧
          ∀ k o v, ((k, o), some v) ∈ (b.keys.zip b.values).zip b.updated → o = lastWrite (l ++ chainWrites bs₁) k
  | [], l, h, hn => by
    simp only [followChain, Except.ok.injEq] at h
    exact absurd (by rw [Truthful, rootCommitment_spec, h]) hn
  | b :: bs, l, h, hn => by
    obtain ⟨r', h1, h2⟩ := followChain_cons h
    by_cases hg : ∀ qs uh r, createVerifierQueries C b.proof.hint b.proof.comms b.keys b.values (branchComm C (lastWrite l) []) =
          .ok (some (qs, uh)) →
        updateRoot C ord uh b.keys b.values b.updated (branchComm C (lastWrite l) []) = .ok (.ok r) →
        r = branchComm C (applyAll (lastWrite l) (writes b.keys b.updated)) [] ∧
          ∀ k o v, ((k, o), some v) ∈ (b.keys.zip b.values).zip b.updated → o = lastWrite l k
    · obtain ⟨qs, uh, h3, _, h4⟩ := verifyAndUpdate_parts h1
      obtain ⟨h5, h6⟩ := hg qs uh r' h3 h4
      rw [h5, ← lastWrite_append] at h2
      obtain ⟨bs₁, c, bs₂, r₂, i1, i2, i3, i4⟩ := firstFalse_of h2 fun ht => hn
        ⟨fun k o v hm => (h6 k o v hm).symm, _, insert_spec _ _ _, by rw [← lastWrite_append]; exact ht⟩
      have e : l ++ chainWrites (b :: bs₁) = l ++ writes b.keys b.updated ++ chainWrites bs₁ := by
        simp [chainWrites]
      refine ⟨b :: bs₁, c, bs₂, r₂, by rw [i1]; rfl, ?_, by rw [e]; exact i3, by rw [e]; exact i4⟩
      rw [e, firstFalse, if_pos hg, i2]
    · refine ⟨[], b, bs, r', rfl, ?_, ?_, ?_⟩
      · rw [firstFalse, if_neg hg]; simp [chainWrites]
      · simpa [chainWrites] using h1
      · simpa only [chainWrites, List.flatMap_nil, List.append_nil] using hg

/-- The same for the opening argument of the repository. -/
theorem firstFalse_multi {K : WireCodec F G} {H : List Byte → F} {C : Crypto F G} {Q : G} {order : List (ProverQuery F G) → List ℕ}
    {ord : Path → List Stem → List Stem} {r : G} {bs : List (Block G (MultiProof F G))} {l : List (Key × Value)}
    (h : followChain C (multiOpener ⟨K, H⟩ C Q order) ord (branchComm C (lastWrite l) []) bs = .ok (.ok r))
    (hn : ¬ Truthful C (specDb C (lastWrite l)) bs r) :
    ∃ (bs₁ : List (Block G (MultiProof F G))) (b : Block G (MultiProof F G)) (bs₂ : List (Block G (MultiProof F G))) (r' : G),
      bs = bs₁ ++ b :: bs₂ ∧ firstFalse C ord l bs = some (l ++ chainWrites bs₁, b) ∧
      verifyAndUpdate C (multiOpener ⟨K, H⟩ C Q order) ord b.proof (branchComm C (lastWrite (l ++ chainWrites bs₁)) []) b.keys
        b.values b.updated = .ok (.ok r') ∧
      ¬ ∀ qs uh r, createVerifierQueries C b.proof.hint b.proof.comms b.keys b.values
          (branchComm C (lastWrite (l ++ chainWrites bs₁)) []) = .ok (some (qs, uh)) →
        updateRoot C ord uh b.keys b.values b.updated (branchComm C (lastWrite (l ++ chainWrites bs₁)) []) = .ok (.ok r) →
        r = branchComm C (applyAll (lastWrite (l ++ chainWrites bs₁)) (writes b.keys b.updated)) [] ∧
          ∀ k o v, ((k, o), some v) ∈ (b.keys.zip b.values).zip b.updated → o = lastWrite (l ++ chainWrites bs₁) k :=
  firstFalse_of (O := multiOpener ⟨K, H⟩ C Q order) h hn

/-- A client that starts with the root of the trie accepts the chain although it does not tell the truth.  There is one old value per
key, the hints are consistent at the stems of the written keys and there are at most `qmax` queries in each block. -/
def Deceives (K : WireCodec F G) (C : Crypto F G) (Q : G) (order : List (ProverQuery F G) → List ℕ)
    (ord : Path → List Stem → List Stem) (db : MemoryDb F G) (root : G) (qmax : ℕ) (H : List Byte → F)
    (bs : List (Block G (MultiProof F G))) : Prop :=
  (∀ b ∈ bs, b.keys.length = b.values.length ∧
    (∀ k v, (k, some v) ∈ b.keys.zip b.updated → ConsistentAt b.proof.hint b.keys k.stem) ∧
    ∀ root qs uh, createVerifierQueries C b.proof.hint b.proof.comms b.keys b.values root = .ok (some (qs, uh)) →
      qs.length ≤ qmax) ∧
  ∃ r, followChain C (multiOpener ⟨K, H⟩ C Q order) ord root bs = .ok (.ok r) ∧ ¬ Truthful C db bs r

/-- The output of a program is such a chain. -/
def ForgesChain (K : WireCodec F G) (C : Crypto F G) (Q : G) (order : List (ProverQuery F G) → List ℕ)
    (ord : Path → List Stem → List Stem) (db : MemoryDb F G) (root : G) (qmax : ℕ)
    (A : Prog (List Byte) F (List (Block G (MultiProof F G)))) (H : List Byte → F) : Prop :=
  Deceives K C Q order ord db root qmax H (A.run H)

/-- What `C70_chain_random_oracle_partial` says, for a hash with values in `E` that `red` turns into challenges, each from at most `B` values.  The
output of a run, `.ret (A.run H)`, wins for the challenges of the run. -/
theorem rom_chain_of {E : Type} [Fintype E] {red : E → F} {B : ℕ} (hred : Spread red B) {N qmax : ℕ} (hF : BigField F) (K : WireCodec F G) (C : Crypto F G) (Q : G)
    (order : List (ProverQuery F G) → List ℕ) {ord : Path → List Stem → List Stem} (hord : ∀ p l, (ord p l).Perm l)
    (l : List (Key × Value)) {db : MemoryDb F G} (hb : build C l = .ok db) {root : G} (hr : Trie.rootCommitment db = .ok root)
    (A : Prog (List Byte) E (List (Block G (MultiProof F G)))) (hA : A.Within N) (H₀ : List Byte → E) (D : Finset (List Byte))
    (hD : ∀ s : List Byte, s.length ≤ 99 * qmax + 192 → s ∈ D)
    (h : (N + 11) * (B * (513 + qmax + 2 * (N + 11))) * Fintype.card E ^ D.card <
      Fintype.card E * Fintype.card {H : D → E // ForgesChain K C Q order ord db root qmax (.ret (A.run (over H₀ H))) (fun s => red (over H₀ H s))}) :
    ∃ (qs : List (VerifierQuery F G)) (X : MultiTree F G qs.length (255 + qs.length) 8), X.Distinct 256 ∧
      (∀ i j u, ∀ p ∈ (X.ipa i j u).leaves, ∃ H : D → E, ForgesChain K C Q order ord db root qmax (.ret (A.run (over H₀ H))) (fun s => red (over H₀ H s)) ∧
        (∃ bs₁ b bs₂ db₁ r₁, A.run (over H₀ H) = bs₁ ++ b :: bs₂ ∧ build C (l ++ chainWrites bs₁) = .ok db₁ ∧
          Trie.rootCommitment db₁ = .ok r₁ ∧ MakesQueries C r₁ (b.proof, b.keys, b.values) qs ∧ b.proof.proof = ⟨p.2, X.D i⟩) ∧
        drawn ⟨K, fun s => red (over H₀ H s)⟩ (newTranscript (lbl "vt")) ⟨p.2, X.D i⟩ qs = (X.r i, X.t i j, X.w i j u, p.1)) ∧
      ((∃ ρ ∈ X.rels qs.get 256, ρ ≠ 0 ∧ ∑ i : Fin 256, ρ.1 i • C.g i + ρ.2 • Q = 0) ∨
      ∃ H : D → E, ForgesChain K C Q order ord db root qmax (.ret (A.run (over H₀ H))) (fun s => red (over H₀ H s)) ∧ ∃ bs₁ b bs₂ db₁ r₁,
        A.run (over H₀ H) = bs₁ ++ b :: bs₂ ∧ build C (l ++ chainWrites bs₁) = .ok db₁ ∧ Trie.rootCommitment db₁ = .ok r₁ ∧
          MakesQueries C r₁ (b.proof, b.keys, b.values) qs ∧ ProofBreak C (lastWrite (l ++ chainWrites bs₁)) (vecOf qs X) qs) := by
  rw [build_iff] at hb
  subst hb
  rw [rootCommitment_spec] at hr
  have hr : branchComm C (lastWrite l) [] = root := by simpa using hr
  subst hr
  obtain ⟨out, hout⟩ : ∃ out : List (Block G (MultiProof F G)) → VerkleProof G (MultiProof F G) × List Key × List (Option Value),
      ∀ bs l' b, firstFalse C ord l bs = some (l', b) → out bs = (b.proof, b.keys, b.values) :=
    ⟨fun bs => match firstFalse C ord l bs with
      | some (_, b) => (b.proof, b.keys, b.values)
      | none => (⟨⟨[], [], []⟩, [], ⟨⟨[], [], 0⟩, 0⟩⟩, [], []), fun bs l' b e => by simp only [e]⟩
  obtain ⟨hist, hhist⟩ : ∃ hist : List (Block G (MultiProof F G)) → List (Key × Value),
      ∀ bs l' b, firstFalse C ord l bs = some (l', b) → hist bs = l' :=
    ⟨fun bs => match firstFalse C ord l bs with
      | some (l', _) => l'
      | none => l, fun bs l' b e => by simp only [e]⟩
  obtain ⟨qs, X, h1, h2, h3⟩ := rom_trie_at_of hred hF K C Q order A hA (fun bs => lastWrite (hist bs))
    (fun bs => branchComm C (lastWrite (hist bs)) []) out
    (fun H => ForgesChain K C Q order ord (specDb C (lastWrite l)) (branchComm C (lastWrite l) []) qmax (.ret (A.run H)) (fun s => red (H s))) (fun H hH => by
      obtain ⟨hf, r, h5, h6⟩ := hH
      obtain ⟨bs₁, b, bs₂, r', i1, i2, i3, i4⟩ := firstFalse_multi h5 h6
      obtain ⟨j1, j2, j3⟩ := hf b (i1.symm ▸ by simp)
      obtain ⟨qs, uh, k1, k2, k3⟩ := verifyAndUpdate_parts i3
      have e1 : out (A.run H) = (b.proof, b.keys, b.values) := hout _ _ _ i2
      have e2 : hist (A.run H) = l ++ chainWrites bs₁ := hhist _ _ _ i2
      rw [e1, e2]
      refine ⟨qs, uh, k1, j3 _ _ _ k1, ⟨_, k2⟩, fun vec hext => ?_⟩
      by_contra hnb
      refine i4 fun qs' uh' r k4 k5 => ?_
      rw [k1] at k4
      cases k4
      exact updateRoot_accepted hF k1 j1 j2 hext hnb hord k5) H₀ D hD h
  refine ⟨qs, X, h1, fun i j u p hp => ?_, h3.imp_right ?_⟩
  · obtain ⟨H, h4, h0, h5, h6⟩ := h2 i j u p hp
    have h4' := h4
    obtain ⟨hf, r, h7, h8⟩ := h4'
    obtain ⟨bs₁, b, bs₂, r', i1, i2, _, _⟩ := firstFalse_multi h7 h8
    have e1 : out (A.run (over H₀ H)) = (b.proof, b.keys, b.values) := hout _ _ _ i2
    have e2 : hist (A.run (over H₀ H)) = l ++ chainWrites bs₁ := hhist _ _ _ i2
    rw [e1, e2] at h0
    rw [e1] at h5
    exact ⟨H, h4, ⟨bs₁, b, bs₂, _, _, i1, build_eq _ _, rootCommitment_spec _ _, h0, h5⟩, h6⟩
  · rintro ⟨H, h4, h0, h5⟩
    have h4' := h4
    obtain ⟨hf, r, h7, h8⟩ := h4'
    obtain ⟨bs₁, b, bs₂, r', i1, i2, _, _⟩ := firstFalse_multi h7 h8
    have e2 : hist (A.run (over H₀ H)) = l ++ chainWrites bs₁ := hhist _ _ _ i2
    have e1 : out (A.run (over H₀ H)) = (b.proof, b.keys, b.values) := hout _ _ _ i2
    rw [e1, e2] at h0
    rw [e2] at h5
    exact ⟨H, h4, bs₁, b, bs₂, _, _, i1, build_eq _ _, rootCommitment_spec _ _, h0, h5⟩

/-- C70 for programs (partial: with the conditions of C63 on the hints).  Let a program ask the hash at most `N` times and output a
chain of blocks of any length.  If it deceives a client that follows the chain for more than the part
`(N + 11) (513 + q + 2 (N + 11)) / |F|` of the hashes - no more than for a single block, C66 - there are runs of the program,
all with the same queries in the first false block, from which a non-trivial relation between the generators and `Q` is computed, or
vectors breaking the commitments of the trie reached before that block. -/
theorem C70_chain_random_oracle_partial [Fintype F] {N qmax : ℕ} (hF : BigField F) (K : WireCodec F G) (C : Crypto F G) (Q : G)
    (order : List (ProverQuery F G) → List ℕ) {ord : Path → List Stem → List Stem} (hord : ∀ p l, (ord p l).Perm l)
    (l : List (Key × Value)) {db : MemoryDb F G} (hb : build C l = .ok db) {root : G} (hr : Trie.rootCommitment db = .ok root)
    (A : Prog (List Byte) F (List (Block G (MultiProof F G)))) (hA : A.Within N) (H₀ : List Byte → F) (D : Finset (List Byte))
    (hD : ∀ s : List Byte, s.length ≤ 99 * qmax + 192 → s ∈ D)
    (h : (N + 11) * (513 + qmax + 2 * (N + 11)) * Fintype.card F ^ D.card <
      Fintype.card F * Fintype.card {H : D → F // ForgesChain K C Q order ord db root qmax A (over H₀ H)}) :
    ∃ (qs : List (VerifierQuery F G)) (X : MultiTree F G qs.length (255 + qs.length) 8), X.Distinct 256 ∧
      (∀ i j u, ∀ p ∈ (X.ipa i j u).leaves, ∃ H : D → F, ForgesChain K C Q order ord db root qmax A (over H₀ H) ∧
        (∃ bs₁ b bs₂ db₁ r₁, A.run (over H₀ H) = bs₁ ++ b :: bs₂ ∧ build C (l ++ chainWrites bs₁) = .ok db₁ ∧
          Trie.rootCommitment db₁ = .ok r₁ ∧ MakesQueries C r₁ (b.proof, b.keys, b.values) qs ∧ b.proof.proof = ⟨p.2, X.D i⟩) ∧
        drawn ⟨K, over H₀ H⟩ (newTranscript (lbl "vt")) ⟨p.2, X.D i⟩ qs = (X.r i, X.t i j, X.w i j u, p.1)) ∧
      ((∃ ρ ∈ X.rels qs.get 256, ρ ≠ 0 ∧ ∑ i : Fin 256, ρ.1 i • C.g i + ρ.2 • Q = 0) ∨
      ∃ H : D → F, ForgesChain K C Q order ord db root qmax A (over H₀ H) ∧ ∃ bs₁ b bs₂ db₁ r₁,
        A.run (over H₀ H) = bs₁ ++ b :: bs₂ ∧ build C (l ++ chainWrites bs₁) = .ok db₁ ∧ Trie.rootCommitment db₁ = .ok r₁ ∧
          MakesQueries C r₁ (b.proof, b.keys, b.values) qs ∧ ProofBreak C (lastWrite (l ++ chainWrites bs₁)) (vecOf qs X) qs) :=
  rom_chain_of spread_id hF K C Q order hord l hb hr A hA H₀ D hD (by rw [one_mul]; exact h)

/-! ### The full claim is false -/

/-- C70 without the condition on the hints is false, even for a chain of one block: with parameters that have no break at all and a
complete and sound opening argument, the client accepts a block with true old values and ends with a root other than that of the
trie. -/
theorem C70_full_claim_false {ord : Path → List Stem → List Stem} (hord : ∀ p l, (ord p l).Perm l) :
    ∃ db root b db₂ root₂ r, build negCrypto soloHist = .ok db ∧ Trie.rootCommitment db = .ok root ∧
      (∀ qs, lookupOpener.check b.proof.proof qs = .ok true → Extracts negCrypto id qs) ∧
      (∀ m qs, ¬ ProofBreak negCrypto m id qs) ∧
      b.keys.map (Trie.get db) = b.values ∧
      followChain negCrypto lookupOpener ord root [b] = .ok (.ok r) ∧
      Trie.insert negCrypto db (chainWrites [b]) = .ok db₂ ∧ Trie.rootCommitment db₂ = .ok root₂ ∧ r ≠ root₂ := by
  obtain ⟨db, root, p, db₂, root₂, r, h1, h2, h3, _, h5, h6, h7, h8, h9⟩ := C63_full_claim_false hord
  refine ⟨db, root, ⟨p, [sibKey], [none], [some (valOf 3)]⟩, db₂, root₂, r, h1, h2, h3, fun m => negCrypto_no_break m, by simp [h5],
    followChain_step h6 rfl, h7, h8, h9⟩

/-- An honest node cannot serve a client for a chain whose first block writes the first value of a trie: the client panics. -/
theorem C70_honest_chain_false (C : Crypto F G) (O : Opener F G) (hO : CompleteOpener C O)
    {ord : Path → List Stem → List Stem} (hord : ∀ p l, (ord p l).Perm l) (rest : List (List Key × List (Option Value)))
    (hf : Formed rest) :
    ∃ db root bs db', build C [] = .ok db ∧ Trie.rootCommitment db = .ok root ∧
      serve C O db (([demoKey 1 5], [some oneVal]) :: rest) = .ok (.ok (bs, db')) ∧
      ∃ e, followChain C O ord root bs = .error e := by
  obtain ⟨bs, db', root', h1, _, _, _, _, h2⟩ := C70_honest_chain_partial C O hO hord (([demoKey 1 5], [some oneVal]) :: rest) []
    (build_eq C []) (rootCommitment_spec _ _) (by
      intro x hx
      rcases List.mem_cons.1 hx with rfl | hx
      · simp
      · exact hf x hx)
  refine ⟨_, _, bs, db', build_eq C [], rootCommitment_spec _ _, h1, h2 fun ⟨_, h, _⟩ => ?_⟩
  obtain ⟨_, _, _, u, hu, _⟩ := h (demoKey 1 5, oneVal) (by simp [writes])
  obtain ⟨⟨b, hb⟩, _⟩ := hu
  exact hb rfl

/-! ### Concrete cases -/

/-- A block that writes nothing leaves the root. -/
theorem solo_read (C : Crypto F G) (ord : Path → List Stem → List Stem) (r c c' : G) :
    updateRoot C ord ⟨[(soloKey.stem, (.present, 1))], [([], r), ([1], c), ([1, 2], c')], []⟩ [soloKey]
      [some (valOf 7)] [none] r = .ok (.ok r) := by
  have hs : collectUpdates (([soloKey].zip [some (valOf 7)]).zip [none]) [] = [] := rfl
  unfold updateRoot
  simp only [List.length_singleton]
  rw [if_neg (usizeNot_ne _), if_neg (usizeNot_ne _), if_neg (by simp), hs]
  rfl

/-- The hypotheses of `C70_client_follows_partial` can all hold, without a break, for a chain of two blocks: the client reads the
value of a key and then writes another. -/
example : ∃ db root b₁ b₂ r, BigField ℚ ∧ build negCrypto soloHist = .ok db ∧ Trie.rootCommitment db = .ok root ∧
    followChain negCrypto lookupOpener (fun _ l => l) root [b₁, b₂] = .ok (.ok r) ∧
    (∀ b ∈ [b₁, b₂], b.keys.length = b.values.length) ∧ (∀ b ∈ [b₁, b₂], ∀ k v, (k, some v) ∈ b.keys.zip b.updated → ConsistentAt b.proof.hint b.keys k.stem) ∧
    (∀ bs₁ b bs₂ r₁, [b₁, b₂] = bs₁ ++ b :: bs₂ → followChain negCrypto lookupOpener (fun _ l => l) root bs₁ = .ok (.ok r₁) →
      CheckExtracts negCrypto id b.proof b.keys b.values r₁) ∧
    (∀ m qs, ¬ ProofBreak negCrypto m id qs) ∧ chainWrites [b₁, b₂] = [(soloKey, valOf 8)] := by
  obtain ⟨p, hh, hp⟩ := accept_hint lookupOpener_complete (by simp [soloQueries]) (soloQueries_true negCrypto)
    (solo_queries negCrypto)
  obtain ⟨r, hr⟩ := solo_update negCrypto (branchComm negCrypto (lastWrite soloHist) [])
    (stemComm negCrypto (lastWrite soloHist) soloKey.stem) (suffixComm negCrypto (lastWrite soloHist) soloKey.stem 0) (valOf 8)
  have hr0 := solo_read negCrypto (fun _ l => l) (branchComm negCrypto (lastWrite soloHist) [])
    (stemComm negCrypto (lastWrite soloHist) soloKey.stem) (suffixComm negCrypto (lastWrite soloHist) soloKey.stem 0)
  have hc : HintConsistent p.hint [soloKey] := hh ▸ solo_consistent
  have hx := lookup_extracts hp
  refine ⟨_, _, ⟨p, [soloKey], [some (valOf 7)], [none]⟩, ⟨p, [soloKey], [some (valOf 7)], [some (valOf 8)]⟩, r, bigField_rat,
    build_eq _ _, rootCommitment_spec _ _,
    followChain_step (r' := branchComm negCrypto (lastWrite soloHist) []) ?_ (followChain_step (r' := r) ?_ rfl),
    by simp, by simp [hc.consistentAt], ?_, fun m => negCrypto_no_break m, rfl⟩
  · simp only [verifyAndUpdate, hp, bind, Except.bind, Bool.true_eq_false, if_false, unwrap, hr0]
  · simp only [verifyAndUpdate, hp, bind, Except.bind, Bool.true_eq_false, if_false, unwrap, hr]
  · intro bs₁ b bs₂ r₁ e h
    match bs₁, e, h with
    | [], e, h =>
      simp only [followChain, Except.ok.injEq] at h
      simp only [List.nil_append, List.cons.injEq] at e
      rw [← h, ← e.1]
      exact hx
    | [_], e, h =>
      simp only [List.cons_append, List.nil_append, List.cons.injEq] at e
      rw [← e.1] at h
      simp only [followChain, verifyAndUpdate, hp, bind, Except.bind, Bool.true_eq_false, if_false, unwrap, hr0, Except.ok.injEq] at h
      rw [← h, ← e.2.1]
      exact hx
    | _ :: _ :: bs, e, h =>
      simp only [List.cons_append, List.cons.injEq] at e
      exact absurd e.2.2 (by simp)

/-- A block that reads and a block that writes. -/
def twoBlocks : List (List Key × List (Option Value)) := [(updKeys, updKeys.map fun _ => none), (updKeys, updVals)]

theorem twoBlocks_formed : Formed twoBlocks := by
  intro x hx
  simp only [twoBlocks, List.mem_cons, List.not_mem_nil, or_false] at hx
  rcases hx with rfl | rfl
  · exact ⟨by simp [updKeys], by decide +kernel, by simp⟩
  · exact ⟨by simp [updKeys], by decide +kernel, rfl⟩

theorem twoBlocks_served : Served wide proofHist twoBlocks := by
  have h : writes updKeys (updKeys.map fun _ => none) = [] := rfl
  refine ⟨wideUpd_separated, by rw [h]; simp, ?_⟩
  rw [h, List.append_nil]
  exact ⟨wideUpd_separated, upd_placeTaken, trivial⟩

/-- The hypotheses of `C70_honest_chain_partial` and `C70_honest_chain_random_partial` are met for a trie with values and a chain of
two blocks. -/
example (H₀ : List Byte → ZMod 521) : ∃ db root bs db' root', ∃ D : Finset (List Byte), build wide proofHist = .ok db ∧
    Trie.rootCommitment db = .ok root ∧ serve wide (yesOpener (ZMod 521) (ZMod 521)) db twoBlocks = .ok (.ok (bs, db')) ∧
    followChain wide (yesOpener (ZMod 521) (ZMod 521)) (fun _ l => l) root bs = .ok (.ok root') ∧
    Fintype.card (ZMod 521) * Fintype.card {H : D → ZMod 521 // ¬ ∃ bs : List (Block _ (MultiProof (ZMod 521) _)),
        serve wide (multiOpener ⟨wideOracle.K, over H₀ H⟩ wide 3 anyOrder) db twoBlocks = .ok (.ok (bs, db')) ∧
        followChain wide (multiOpener ⟨wideOracle.K, over H₀ H⟩ wide 3 anyOrder) (fun _ l => l) root bs = .ok (.ok root')} ≤
      twoBlocks.length * (13 * 256) * Fintype.card (ZMod 521) ^ D.card := by
  have hb := build_eq wide proofHist
  have hr := root_of_build (C := wide) (m := lastWrite proofHist)
  obtain ⟨bs, db', root', h1, _, h3, h4, h5, _⟩ := C70_honest_chain_partial wide _ (yesOpener_complete wide)
    (ord := fun _ l => l) (fun _ l => List.Perm.refl l) twoBlocks proofHist hb hr twoBlocks_formed
  refine ⟨_, _, bs, db', root', shortStrings (99 * (36 * 6) + 192), hb, hr, h1, h5 twoBlocks_served, ?_⟩
  exact C70_honest_chain_random_partial wide_distinct _ wide 3 anyOrder_isOrder (fun _ l => List.Perm.refl l) 6 H₀ _
    (fun s h => mem_shortStrings h) twoBlocks proofHist hb hr twoBlocks_formed (by
      intro x hx
      simp only [twoBlocks, List.mem_cons, List.not_mem_nil, or_false] at hx
      rcases hx with rfl | rfl <;> exact le_of_eq rfl) twoBlocks_served h3 h4

/-- The number of queries of the honest hint for one key, whatever the root and the commitments. -/
theorem solo_count (C : Crypto F G) (c c' root : G) {qs : List (VerifierQuery F G)} {uh : UpdateHint G}
    (h : createVerifierQueries C ⟨[1], [.present], []⟩ [c, c'] [soloKey] [some (valOf 7)] root = .ok (some (qs, uh))) :
    qs.length ≤ 6 := by
  have h' : ∃ qs uh, createVerifierQueries C ⟨[1], [.present], []⟩ [c, c'] [soloKey] [some (valOf 7)] root = .ok (some (qs, uh)) ∧
      qs.length = 6 := ⟨_, _, rfl, rfl⟩
  obtain ⟨qs', uh', e, e'⟩ := h'
  rw [h] at e
  cases e
  exact e'.le

/-- What `chain_zero` says, for a hash with values in `E` that `red` turns into challenges, each from at most `c` values. -/
theorem chain_zero_of {E : Type} [Fintype E] {red : E → F} {c : ℕ} (hred : Spread red c) (hF : BigField F) (C : Crypto F G) (hC : ∀ i, C.g i = 0) (K : WireCodec F G) (Q : G)
    (order : List (ProverQuery F G) → List ℕ) (H₀ : List Byte → E) (hbig : c * 20000 < Fintype.card E) :
    ∃ (db : MemoryDb F G) (root : G) (A : Prog (List Byte) F (List (Block G (MultiProof F G)))) (D : Finset (List Byte)),
      build C [] = .ok db ∧ Trie.rootCommitment db = .ok root ∧ A.Within 11 ∧ (∀ s : List Byte, s.length ≤ 99 * 6 + 192 → s ∈ D) ∧
      (11 + 11) * (c * (513 + 6 + 2 * (11 + 11))) * Fintype.card E ^ D.card < Fintype.card E *
        Fintype.card {H : D → E // ForgesChain K C Q order (fun _ l => l) db root 6 A (fun s => red (over H₀ H s))} := by
  obtain ⟨db, root, rootHex, A, _, _, D, hb, hr, _, hA, _, _, ho, hD, h, _, _⟩ := clients_zero_of hred hF C hC K Q order H₀ hbig
  let f : (VerkleProof G (MultiProof F G) × List Key × List (Option Value)) × List (Option Value) →
    Prog (List Byte) F (List (Block G (MultiProof F G))) := fun o => .ret [⟨o.1.1, o.1.2.1, o.1.2.2, o.2⟩]
  refine ⟨db, root, A.bind f, D, hb, hr, Prog.Within.bind (f := f) (n := 0) (fun _ => trivial) hA, hD,
    win_mono (fun H hH => ?_) h⟩
  obtain ⟨π, hπ⟩ := ho H
  simp only [ForgesUpdate, hπ] at hH
  obtain ⟨h1, h2, _, r, h4, h5⟩ := hH
  have hrun : (A.bind f).run H = [⟨⟨⟨[1], [.present], []⟩, [stemComm C (lastWrite soloHist) soloKey.stem,
        suffixComm C (lastWrite soloHist) soloKey.stem 0], π⟩, [soloKey], [some (valOf 7)], [some (valOf 8)]⟩] := by
    rw [Prog.run_bind, hπ]; rfl
  unfold ForgesChain
  rw [hrun]
  refine ⟨fun b hb => ?_, r, followChain_step h4 rfl, fun ht => h5 ?_⟩
  · rw [List.mem_singleton] at hb
    subst hb
    exact ⟨h1, h2, fun root qs uh e => solo_count C _ _ root e⟩
  · obtain ⟨t1, db', t2, t3⟩ := ht
    exact ⟨t1, db', t2, t3⟩

/-- If all generators are zero, a false chain is accepted: the hypotheses of `C70_chain_random_oracle_partial` are met. -/
theorem chain_zero [Fintype F] (hF : BigField F) (C : Crypto F G) (hC : ∀ i, C.g i = 0) (K : WireCodec F G) (Q : G)
    (order : List (ProverQuery F G) → List ℕ) (H₀ : List Byte → F) (hbig : 20000 < Fintype.card F) :
    ∃ (db : MemoryDb F G) (root : G) (A : Prog (List Byte) F (List (Block G (MultiProof F G)))) (D : Finset (List Byte)),
      build C [] = .ok db ∧ Trie.rootCommitment db = .ok root ∧ A.Within 11 ∧ (∀ s : List Byte, s.length ≤ 99 * 6 + 192 → s ∈ D) ∧
      (11 + 11) * (513 + 6 + 2 * (11 + 11)) * Fintype.card F ^ D.card < Fintype.card F *
        Fintype.card {H : D → F // ForgesChain K C Q order (fun _ l => l) db root 6 A (over H₀ H)} := by
  have h := chain_zero_of spread_id hF C hC K Q order H₀ (by rw [one_mul]; exact hbig)
  simp only [one_mul] at h
  exact h

/-- Those of `C70_chain_random_oracle_partial` are met over Bandersnatch, if the generators are zero. -/
noncomputable example (Q : Bander.BElem) (H₀ : List Byte → ZMod Bander.r) : True :=
  letI := Classical.decEq Bander.BElem
  haveI : NeZero Bander.r := ⟨by decide +kernel⟩
  have _h := chain_zero C52_scalar_field.1 { Bander.crypto with g := fun _ => 0 } (fun _ => rfl) Bander.codec Q
    (fun qs => (qs.map ProverQuery.point).dedup) H₀ (by rw [ZMod.card]; decide +kernel)
  trivial

end Verif.Props
