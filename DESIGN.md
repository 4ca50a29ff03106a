# Formal model of rust-verkle in Lean 4: design

Everything is in `lean/Verif/`. The properties are `properties.jsonl` (C01..C89), the status per property is
`MANIFEST.json`, the attempts to break the theorems are `seeded/LOG.jsonl`.

## 1. Trusted base

* Lean's kernel, and for every property theorem at most the axioms `propext`, `Classical.choice`, `Quot.sound`
  (checked with `#print axioms` in `lean/Verif/Audit.lean`). No `sorry`, no added axiom, no `native_decide`, no `bv_decide`.
* The reading of /repo into the model. The code is not run; every definition cites file and lines.
* Standard-library semantics assumed by the model: `HashMap` is a partial function, `BTreeMap`/`BTreeSet` iterate in
  ascending (lexicographic) order, `Vec` is a list, iterator adaptors are the list functions, `rayon` maps are maps
  and a `rayon` sum adds the parts of some division of the list (every division is covered, `C37_parallel`).
  The iteration order of a `HashMap`/`HashSet` is a parameter of the model and every theorem holds for every order.
  `usize` has 64 bits. Arithmetic overflow is a panic, as in debug builds and in the release profile of `/repo/Cargo.toml`
  (`debug-assertions = true`); other workspaces that use the crates may build without the checks.
* Arkworks, by contract: prime-field arithmetic, `inverse`, `batch_inversion` (zero entries stay zero), `sqrt`, `legendre`,
  `from_le_bytes_mod_order`, canonical (de)serialization of field elements and points, multi-scalar multiplication, wNAF
  multiplication, and that its extended-coordinate formulas compute the affine addition law. The Bandersnatch constants
  (`a`, `d`, `q`, `r`, the subgroup) are written down from the curve's definition; that the affine law is a group of prime
  order `r` modulo the two-torsion point is proved (C52), not assumed. Its validated decoder of uncompressed points accepts
  exactly the points of the subgroup of order `r` (`PointCheck`, used by C61). On pairs of coordinates off the curve its subtraction is the
  extended-coordinate formula with the negated point, and a multi-scalar multiplication with one scalar one and otherwise zero scalars or zero points keeps
  `x = 0` (`Formulas`, used only by the forgeries of C87).
* `ethereum_types::U256` arithmetic panics on overflow; the `hex` crate decodes pairs of hex digits; `serde` and `serde_json`
  are not in the repository and modelled from their documented behaviour (derived readers and writers, grammar of RFC 8259; C88); `sled`/`rocksdb` are a byte-string map with
  atomic batches.
* SHA-256 is an arbitrary function, except in C64 and `Vectors/`, where it is the function of FIPS 180-4. No cryptographic hardness is assumed; where a property is only true up to a break of
  the commitment scheme the theorem returns the break explicitly.
* Soundness of the opening arguments is special soundness (C55, C56): from several accepted runs with different challenges an
  opening or a linear relation between the generators is computed. C65 (challenges chosen at random by the verifier) and C66
  (challenges from a random hash, the prover being any program with a bound on its questions) show that such runs exist for
  every prover that is accepted for more than a small part of the challenges or hashes. Provers are
  deterministic; for provers with coins the count is over coins and challenges together (`Props/Coins.lean` and `Props/DigestCoins.lean`, C65, C66, C75, C79, C83, C84, C86; the same step
  applies to the others); for challenges chosen by the verifier C78 gives an algorithm that finds the runs and a bound on the number of runs it
  makes; for C66 it is only proved that they exist. In C66, C68, C69 and C70 the hash is a uniformly random function into the scalar field on a finite set of strings and arbitrary elsewhere.
  C83 has the same statements for a uniformly random function into 32-byte digests, which are reduced modulo `r` as in the code, with programs
  that see the digests. That SHA-256 behaves like a random function is the usual assumption and is not stated.

### What is modelled

| code | model |
|------|-------|
| `verkle-trie/src/trie.rs`, `constants.rs`, `lib.rs` (`group_to_field`) | `Trie/Model.lean` |
| `verkle-trie/src/database.rs`, `database/{memory_db,generic,default,meta}.rs`, `verkle-db/src/lib.rs` | `Trie/Model.lean`, `Db/Model.lean`, `Db/Codec.lean` |
| `verkle-trie/src/proof.rs`, `proof/{key_path_finder,opening_data,prover,verifier}.rs` | `Proof/Model.lean`, `Wire/Model.lean` (bytes) |
| `verkle-trie/src/proof/stateless_updater.rs` | `Proof/Updater.lean` |
| `verkle-trie/src/proof/golang_proof_format.rs`, `errors.rs` | `Ffi/Witness.lean`, `Ffi/Json.lean` (derived `Serialize`, `Deserialize`), `Ffi/JsonText.lean` (text) |
| `ipa-multipoint/src/{ipa,transcript,math_utils}.rs` | `Ipa/Model.lean` |
| `ipa-multipoint/src/{lagrange_basis,multiproof}.rs` | `Ipa/Lagrange.lean`, `Ipa/Multi.lean` |
| `ipa-multipoint/src/{committer,crs,default_crs}.rs` | `Msm/Model.lean`, `Bander/Crs.lean`, `Bander/DefaultCrs.lean` |
| `banderwagon/src/{msm,msm_windowed_sign}.rs` | `Msm/Model.lean` |
| `banderwagon/src/element.rs`, `trait_impls/*.rs` | `Bander/Model.lean`, `Bander/Concrete.lean`, `Bander/Torsion.lean` (points, uncompressed encoding), `Bander/Serialize.lean` (traits) |
| `verkle-spec/src/*.rs` | `Eip/Model.lean` |
| `ffi_interface/src/{lib,serialization}.rs` | `Ffi/Commitments.lean`, `Ffi/Requests.lean`, `Ffi/Witness.lean` |
| `bindings/java/rust_code/src/{lib,parsers,utils}.rs` (a reference is `null` or the array's bytes; JNI calls by contract) | `Ffi/Java.lean` |
| `bindings/c/src/lib.rs` (a pointer with a length is a byte string), from which the C# binding is generated; the opening arguments on points | `Ffi/CBind.lean`, `Ipa/Points.lean` |
| the same functions on memory (allocations, null and dangling pointers, boxed contexts); `bindings/csharp/.../RustVerkle.cs` | `Ffi/Raw.lean` |

Not modelled: loading of the native library by C# and Java, `verkle-db/src/{rocksdb,sled}_impl.rs` (by contract; `sled_impl.rs` has no batches, so `VerkleDb` exists over rocksdb only), `config.rs` (a
constructor), benches, tests, `ipa-multipoint/src/main.rs`, concurrency, memory use (except in the decoding of proofs, C73), and timing.

## 2. Modelling conventions

* `u8` is `Byte := Fin 256`; a fixed-size array is a list with its length (`Bytes n`).
* A panic is `Except.error`. `&mut self` becomes a returned state.
* The scalar field is any field `F`, the group any `F`-module `G`, `g : ℕ → G` the generators, `h : G → F` the
  map-to-field function with `h 0 = 0` (for banderwagon: x/y of (0,1)). All trie theorems hold for every such choice.
* The trie code is generic over the storage trait; so is the model (`HigherDb`). It is instantiated with the in-memory
  database and with the cache+batch+disk database.
* Elements are classes of two points except where bytes of points matter: C54 and C58-C61, where the code is run on points. That
  the trie on points computes what the trie on elements does is C62 (`Trie/Hom.lean`).
  The typed disk of C11, C12 answers every read; on points a read of a record outside the subgroup panics instead (C61).

### Test vectors of the repository

The code cannot be run here. To check the reading of /repo the expected bytes of its own tests are replayed on the model by the
kernel (`Vectors/`): SHA-256 is written out and checked against FIPS 180-4, the model is evaluated at the real curve, the real
reference string and this hash, with points as coordinate triples (`natOps`, proved to compute the same as the abstract group
through C54's transfer theorems). These are tests, no claim of `MANIFEST.json` rests on them.

| test in /repo | theorem |
|------|-------|
| `transcript.rs` `test_vector_0..4` | `transcript_0` .. `transcript_4` |
| `element.rs` `fixed_test_vectors`, `consistent_group_to_field` | `fixed_test_vectors`, `group_to_field` |
| `crs.rs` `crs_consistency` (first and last generator and the hash of all, on the stored table) | `crs_consistency` |
| `ipa.rs` `test_ipa_consistency` (commitment, output, proof bytes accepted, final challenge; the prover writes these bytes) | `ipa_consistency`, `ipa_prover` |
| `multiproof.rs` `multiproof_consistency` (proof bytes accepted, final challenge; the prover writes these bytes) | `multi_consistency`, `multi_prover` |
| `ffi_interface` `exec_witness_works` (a Kaustinen witness), from its text on; `golang_proof_format.rs` `test_serde_works` | `exec_witness_works`, `exec_witness_text_works`, `test_serde_works` |
| `trie.rs` `simple_insert`, `simple_update`, `insert_longest_path`, `insert_and_traverse_longest_path` | same names |
| `tests/golang_interop.rs` `golang_rust_interop` (the root the Go implementation has) | `golang_rust_interop` |
| `verkle-spec` `smoke_test_hash64`; `ffi_interface` `smoke_test_hash64`, `get_tree_key_add_commitment_equivalence`, `smoke_test_add_commitment_fixed` | `smoke_test_hash64`, `smoke_test_tree_key_hash`, `get_tree_key`, `smoke_test_add_commitment_fixed` |

The prover is replayed round by round (`Vectors/Rounds.lean`): the numbers and points of each round are written down as literals and
the kernel checks that the model's round takes one to the next. Not replayed: that the trie's prover writes the witnesses' openings
(`Witness.lean` checks the verifier's side).

## 3. Plan per property

| id | model | proof |
|----|-------|-------|
| C01-C08, C10 | `Trie`: create/process instructions, tables, generic over db | one refinement theorem: after any inserts the whole in-memory db equals `specDb m`, a function of the final map `m`; the rest are corollaries |
| C09 | `specDb` | induction on depth, extracting a collision |
| C11 | `VerkleDb` cache/batch/storage; runs of inserts, flushes and restarts | simulation for the runs where it holds (`DeepFromOpening`, `NoOverwriteOfFlushed`; `_partial`): cached entries are right outside the zone below four bytes shared at opening, where nothing is cached; counterexample theorems where it does not |
| C12 | batch, flush, crash as transitions | invariant over transitions; after a flush the disk is the in-memory database, and opening a trie on it changes nothing |
| C13-C15 | byte-level row keys and records | injectivity and round-trip, negation for the ineffective length check |
| C16 | db enumeration functions | list lemmas; negation for the reopened cached db |
| C17 | `find_key_path` on `specDb m` | induction on remaining path |
| C18, C19, C23 | prover and verifier query construction with sorted maps | both sides equal one declarative set of openings; sorted lists with equal members are equal |
| C20 | C19 + C32 | composition; the commitment de-duplication of the prover makes the full claim false, so counterexample + `_partial` |
| C21 | verifier queries read as statements about the true trie | path induction; the full claim is false (several forged-claim theorems), `_partial` for undisputed claims: the conditions concern the claim's own key and the entry of its own stem only |
| C22 | panic values in the verifier model | negation with witnesses; `_partial`: no panic on honest proofs |
| C24, C25 | byte codec of hint and proof | round-trip; negations |
| C26, C27 | sparse tree updater | refinement to `specDb`; negation for the empty-slot case and the length checks |
| C28, C29 | IPA over any field/module, oracle transcript | induction on the number of rounds |
| C30, C31 | Lagrange basis functions | polynomial identities (Mathlib `Lagrange`) |
| C32, C35 | multipoint prover/verifier | algebra over C28, C30, C31 |
| C33, C34 | byte codecs, transcript state | list lemmas |
| C36, C37 | Booth recoding, windowed tables, parallel sums, committer dispatch | digit-sum invariant; induction over the division of the list |
| C38-C40 | affine/projective coordinates over a field with the curve constants | field algebra |
| C41, C42, C45, C46 | key derivation over naturals below 2^256 | `omega`/`decide`-free arithmetic |
| C43, C44 | chunking loop | induction on chunks against an independent EVM push-data spec |
| C55, C56 | families of accepted runs (`Ipa/Rewind.lean`, `Ipa/RewindMulti.lean`) | the extractor is a computed function: interpolation in the challenges, residues at the points, Vandermonde in `r`; its failures are computed linear relations; `C21_rewound_claims_true_partial` composes it with C21 |
| C47-C51, C54, C57, C58, C60 | byte interface | list lemmas and linearity |
| C59 | C binding on points | a relation "point represents element" carried through prover and verifier (`Ipa/Points.lean`), then C49 |
| C62 | the trie along the map from points to elements | the map commutes with every database operation and every step of `insert` |
| C63 | the updater behind an accepted proof | the hint used by the updater is true wherever it is read (`HintFor`), by the extraction of C21; then the update theorem of C26 |
| C61 | trie, committer and record codec on points | parity of a point (is `r` times it neutral) is a homomorphism; the parities of the 257 table points and one scalar multiplication in the kernel |
| C52, C53 | the concrete curve, the reference string as bytes and as hexadecimal strings | associativity by polynomial identities, order from an element of order `r`, no element of order two and at most `(q+1)/2 < 3r` elements; the table entry by entry in the kernel |
| C64 | `generate_random_elements` at SHA-256 and the real curve | every candidate index is checked in the kernel: the next entry of the table, or a certificate that `(ax²-1)(dx²-1)` or `1-ax²` is `d` times a square |
| C65 | strategies of the prover (`Ipa/Count.lean`) | counting: a strategy convincing on more than the part `(2n + 2q + 4k)/F` of the challenges has at each stage enough heavy answers to build the family of C55, C56 |
| C66 | programs asking a hash (`Ipa/Rom.lean`), outputting queries, bytes, trie proofs, updates, witnesses or Java arguments | an answer is bad if it repeats an earlier answer, is named by an earlier question or is one of the few that would make runs fork; without bad answers the linked questions of the verifier are asked in order, so a winning run without bad answers would not exist unless runs fork everywhere; bad answers are counted question by question |
| C67 | the serialisation traits on coordinates (`Bander/Serialize.lean`) | composition of C39, C54 and the two-torsion facts of C61 |
| C68 | the honest prover as a program asking a hash (`Props/Complete.lean`) | the prover fails only if a challenge is zero or lies in the domain; `openMulti` asks `k + 5` questions of bounded length, each answer is bad for at most `2^k` values, counted question by question |
| C69 | the verifiers of the inner product argument as programs asking a hash (`Props/RomIpa.lean`) | forking as for C66 at the questions for `w` and the rounds (two and four answers), then C55; the negation folds `e₀ - x₁ e_h`, chosen after the first challenge `x₁`, to zero |
| C70 | a client calling `verify_and_update` in a loop and a node serving it (`Props/Follow.lean`; the two loops are not code of the repository) | induction over the blocks with C63 (accepted), C26 (honest) and C68 (almost every hash); for programs the forking of C66 is applied to the first false block, which is found from the output alone, so the number of blocks does not enter the bound |
| C71 | lists of writes to accounts (`Props/State.lean`; the loops are not code of the repository) | keys by C41, different inputs by C46, reads by C01, roots by C09, chunks by C43; the collision in the conclusion is between slots actually used |
| C72 | `create_verkle_proof` and `write` as modelled for C18 and C24 | every opened node but the root lies on the path of an asked stem or is a half of it; counting without repetition since the labels are ascending |
| C73 | the decoders of C24 and C25 with a count of the bytes asked for (`Wire/Memory.lean`; shown to return the same results); spare capacity of growing vectors and nodes of sets not counted | by the loops: each successful iteration has consumed what it stores; the buffer of `proof.rs:92` is the exception |
| C74 | `create_verifier_queries` and `check` on arbitrary proofs, as for C21 and C22 | the invariant of the loop over the keys (`SInv`) says which openings are collected; `zip` ignores what is beyond the stems |
| C75 | as C21, C63, C66 and C71 | a claimed value forces the status `present`; with one stem the hint has one entry that counts, so it is consistent; the number of queries is bounded by C74 |
| C76 | the in-memory database as for C07 | the database is a function of the map; paths shared by two stems are counted by induction on the set of stems; an insert off the path only moves the pointer of a displaced stem |
| C77 | the provers over both databases, the order of the groups a parameter | the prover only uses single reads, on which the two databases agree for the runs of C11; then C03, C23 and C35; the failure is evaluated in the kernel |
| C78 | strategies and an algorithm that runs them on drawn challenges (`Ipa/Sample.lean`) | at each stage `2 g e` draws for each challenge needed; with the weight of the heavy challenges the part of the draws in which one stage fails is at most `k (1 - 1/(2g))^(2ge)`, at most one half; induction over the stages |
| C79 | the verifier on two proofs, the root any element | the openings of both are followed side by side from the root: without a break they pass the same commitments and vectors down to the smaller depth; an empty place or a stem there then decides; the contradicting pair is a stem node whose unused entry is the hash of a second one; against a random hash (`Props/RomPair.lean`, the root chosen by the program): by C66 applied to the runs that win and whose openings are not found, these are few for either proof, so some winning run has both |
| C80 | inserts and proofs on the in-memory database, `Trie/Footprint.lean` | removing rows outside a set commutes with every read and write of an insert if the set holds the rows on the path (`restrict_insert`), also when it panics; an insert adds pointers only to stems whose rows are in the set; in a reachable trie a path meets at most one stem, below which there are no rows; the prover reads only rows around the paths, since its openings are of branches on the paths and of the stems of the keys (`Proof/Footprint.lean`) |
| C81 | the two databases through their interface, any writes and flushes | one row at a time (`RowView`): batch over storage is the last write, the cache is empty or the last write; counterexamples by evaluation |
| C82 | the C functions on memory with allocations, undefined behaviour as an outcome; the C# class as a transition system | reads and writes of slices against `HoldsAt`/`RoomAt`; an invariant for the contexts of the objects; counterexamples by evaluation |
| C83 | a random function from strings to digests, `digestScalar` as in `transcript.rs`; `Spread red B`: each challenge from at most B values | the counting lemmas `fork_of`, `hits_all` over the values of the hash, with preimages of bad challenges; the division by `r` is injective on a fibre and below 9 |
| C84 | the program's output contains the writes (`RootOf`: root of the trie they make), or the writes to the state | `rom_trie_at_of` with the trie read from the output; `ForgesX.wins` turn openings of a winning run into a break of that run's trie |
| C85 | contents of the two halves of a stem (`EqualHalves`, `TwinHalves`), breaks by nodes of one trie (`SelfBreak`) | `separated_of`: neighbouring opened nodes with one commitment have one vector; by kinds of nodes (a branch has no entry 1 at 0, vectors of branches determine their paths) only the two halves of a stem remain; then C20, C26, C83; chains of blocks (C70) block by block (`C85_chain`) |
| C86 | a program (`Prog`) whose output is the input of the honest prover | `adaptive_of`: the program followed by the prover asks `N + 13` questions; the prover fails only if some answer is in the domain `0..255` (`hits_all`); a chain of blocks fails only if one of its blocks does (`chain_followed`); the byte interfaces by C49 and C59 |
| C87 | affine pairs that need not satisfy the curve equation (`OnAxis`: equal to zero for `is_zero`), the contract `Formulas` for arkworks' operations on them | the transcript absorbs only the compressed form, so the `y` of the point `D` is chosen after the challenge `t`; half of the tries succeed (`lucky_half`), each try is a fresh question (`fibre_count`, each challenge from at least 8 digests); for many claims `b` and `-b` are tried in pairs, of which one has the sign that is needed (`lucky_pair`, `misses_pair`), and `E` is zero for few `r` and `t` only (`sumE_zero_few`); for points of the group a forger of uncompressed proofs is one of compressed proofs (`compress_forges`), then C83 |
| C88 | JSON values with fields in order and repeated (`JValue`), the derived readers and writers, a parser with a bound on its calls | the parser is compared with an inductive grammar: soundness by induction on the bound, completeness by induction on the grammar with what may follow a value; the readers are compared with `SaysWitness` field by field; composed with C51 and C83 |
| C89 | `witnessText` of C88, `create_verkle_proof` as for C72 | lengths of the texts of all records, spellings with one prefix, claims with one record for each key; the numbers of points and stems from C72 |

Where the code violates a property the negation is proved with a concrete witness and the strongest part that holds is
kept under a `_partial` name. Those cases are listed in section 4.

## 4. Disagreements between code and property

Each item was found while proving; the theorem that shows it is in brackets. The properties concerned are `partial` in the
manifest and keep the strongest part that holds.

### Storage
1. `VerkleDb` answers from a cache that is not refreshed after `flush`: overwriting a flushed value gives a wrong root, stale
   reads, or a panic [`C11_overwrite_after_flush_wrong_root`, `C11_stale_read`, `C11_insert_panics`].
2. A reopened `VerkleDb` lists no children; the on-disk listing of a stem's leaves is incomplete [`C12_reopened_lists_nothing`,
   `C16_stem_listing_incomplete`].
3. `BranchMeta::from_bytes` tests `!len == 96` (bitwise complement), which never fires: short records panic, long ones are
   accepted [`C15_short_branch_record_panics`, `C15_long_branch_record_accepted`].

### Trie proofs
4. The prover removes adjacent equal commitments while the verifier counts paths: one stem with equal halves makes an honest
   proof panic in the verifier [`C19_full_claim_false`, `C20_full_claim_false`]. It is the only case, apart from breaks of the commitments
   [`C85_separated`], and storage of contracts meets it: slots 256 t + i and 256 t + 128 + i with the same value, nothing else in
   the group, both in one proof [`C85_storage_panics`].
5. Accepted proofs can lie: five forgeries that need no break of the commitment scheme - absence shown by the key's own
   stem, absence below a stem, two values for a repeated key, presence at a shared path, presence by a stray zero
   [`C21_absence_forged_by_own_stem`, ...].
6. The verifier panics on malformed proofs in eight ways [`C22_full_claim_false`].
7. The hint decoder panics on extension state 3 and ignores bit 2 of the depth byte, the order and repetition of stems
   [`C25_panics`, `C25_not_injective`].
8. `update_root` panics when a written key belongs to an empty place of the trie, e.g. the first insertion into an empty trie
   [`C26_full_claim_false`; `C26_stateless_update_partial` gives the exact condition].
9. The length checks of `update_root` also compare with a bitwise complement: surplus new values are dropped, missing ones
   count as no change [`C27_full_claim_false`, `C27_extra_ignored`, `C27_missing_ignored`].
10. `verify_execution_witness` panics, rather than returning false, on malformed hex, extension state 3 and non-canonical
    scalars, and on every text that is not JSON for a record [`C51_status_panics`, `C51_invalid`, `C88_panics`].
27. A hint that names the key's own stem as the other stem is accepted even when the claimed absence is true; the updater then
    takes the stem for a new one and replaces all its values by the written ones, so a wrong root is returned
    [`C63_update_drops_value`, `C63_full_claim_false`].

### Opening argument
11. The plain IPA verifier ignores surplus `R` points on which the two other verifiers panic [`C29_full_claim_false`].
12. A zero challenge makes `create` panic; an evaluation challenge inside the domain makes an honest multiproof fail;
    an empty list of queries panics [side conditions of C28, C32; `C32_empty_panics`].
13. `IPAProof::from_bytes` compares lengths as `u32` and panics on other lengths [`C33_overlong_accepted`].

### Multi-scalar multiplication and encodings
14. The windowed multiplication is wrong for windows of 25 to 30 bits and panics for 0 and for 31 or more; more scalars than
    bases panic [`C36_large_windows_wrong`, `C36_other_windows_panic`, `C36_full_claim_false`].
15. `map_to_scalar_field` is not injective [`C38_full_claim_false`]; at most five elements have the same image [`C38_at_most_five`].
16. `Element::from_bytes` ignores the leading bytes of over-long input [`C39_other_lengths`]; the scalar decoder of the byte
    interface ignores trailing bytes [`C48_full_claim_false`].
17. Uncompressed commitment bytes are not determined by the element: two byte strings per element [`C54_not_unique`].
18. The request parsers of the byte interface panic on some lengths, on empty requests and on bad scalars
    [`C49_empty_request_panics`, `C49_verifier_only_partial`, `C47_sparse_panics`].

### Java binding
19. `verifyPreStateRoot` maps extension state 3 to "absent at depth 0" to avoid a panic, and then panics in `check` by
    subtracting from depth 0; `null` in place of a value or of an array panics too; a value which does not have 32 bytes counts
    as absent and surplus values are ignored [`C57_full_claim_false`, `C57_accepted_partial`].
20. `updateSparse` panics, rather than raising an exception, if scalars are missing or not canonical
    [`C58_update_outcome_partial`]. `compress` and `hash` take any two canonical coordinates for a commitment: (0, 2) is not on the
    curve and gives the results of the neutral element; for second coordinate zero `hash` panics and `hashMany` does not
    [`C58_any_bytes`, `C58_full_claim_false`].

### C binding
21. `multi_scalar_mul` ignores a cut-off scalar at the end of its input and every scalar after the 256th, where the Rust
    interface reports an error [`C60_full_claim_false`].
22. `create_proof` and `verify_proof` abort (a panic inside `extern "C"`) on requests for which the Rust interface reports an
    error [`C59_verify`, `C59_create`]; the uncompressed reader takes coordinates of points off the curve [`C59_unchecked`], see item 35.

### Disk records
25. `Element::deserialize_uncompressed` always runs arkworks' subgroup check, whichever validation is asked for. 126 of the 257
    points of the default reference string are outside the subgroup (the first generator is), so about half of all commitments
    are written to disk but cannot be read back: the `unwrap` of the record panics. After inserting value one at key zero and
    flushing, the database cannot be reopened [`C61_generators`, `C61_commitment_readable`, `C61_stem_unreadable`,
    `C61_reopen_panics`, `C14_full_claim_false`].
26. The bytes stored for a stem depend on the order of writes, not only on the contents: the difference of two values is
    reduced modulo `r`, which swaps the two points of an element [`C62_stored_points_depend_on_history`].
28. The check of item 25 also makes the uncompressed serialisation trait refuse elements it has written, whatever validation is asked for;
    exactly one of the two points of each element can be read back [`C67_full_claim_false`, `C67_one_of_two`].
29. The three verifiers of `ipa.rs` absorb the commitment, the input point and the result, but not the public vector `b`.  A prover that may
    choose `b` gets false inner products accepted by them with almost every hash [`C69_free_vector_false`].  The only caller in the
    repository derives `b` from the absorbed point, for which the argument is sound [`C69_ipa_random_oracle_partial`].
30. `VerificationHint::read` allocates and zeroes a buffer of the announced number of depths before it reads them (`proof.rs:90-93`), so
    an input of eight bytes makes it ask for up to 4 GiB [`C73_amplification`, `C73_full_claim_false`].
31. `create_verifier_queries` pairs the stems with the depths and statuses by `zip` (`verifier.rs:41-51`) and never compares the lengths, so
    surplus entries are ignored: whoever passes a proof on can lengthen it without changing the verdict [`C74_stretch`,
    `C74_full_claim_false`].
32. The verifier opens entry 0 of a node (the marker of a stem) only where the hint ends, so a node can serve as a stem for one proof and be
    passed for another. Against a root that is no trie's, proofs of two values of one key are accepted [`C79_two_values_forged`]. A node that
    checks proofs against roots of unknown origin must not expect them to define one map.
33. The writes of `VerkleDb` return the previous entry of the batch only, not of storage or cache (`default.rs`), so a write over a flushed row
    reports that nothing was there; a row written first within and then below the cached depths is read from the cache with its old entry
    [`C81_disk_returns`, `C81_stale`, `C81_full_claim_false`].  The trie takes the old value of a leaf
    from what `insert_leaf` returns (`trie.rs:516`), so this is the cause of the wrong roots of item 1.
34. The C# method `PedersenHash` passes arrays of any length as pointers to 32 bytes: with an address of 20 bytes the native code reads, and with a
    short array for the hash it writes, outside of the array. After `Dispose`, and for null or empty arrays, it returns without a hash. Only
    `pedersen_hash` looks for null pointers [`C82_csharp_full_claim_false`, `C82_null_unchecked`].
35. `verify_proof_uncompressed` (`bindings/c/src/lib.rs:256-309`) accepts forged proofs. It reads points without a check that they are on the curve.
    The transcript absorbs the compressed form `±x` of a point, so the `y` of a point off the curve is not bound by it. Two elements are equal
    if their quotients `x / y` are (`element.rs:11-34`), so every point `(0, y)` is zero. A prover chooses `x = b` of the point `D`, learns the challenge `t`, computes
    the element `E` of the verifier, and sends `D = (b, b / ratio E)`: the sum `E - D` is then `(0, y)`. With `a = 0` and all `L`, `R` equal to `(0, 1)` the
    last check compares zero with zero. This proves that any commitment (other than the neutral element) has the value zero at any point, and
    in a trie zero values say that a key is absent: one forged opening of the root makes any key absent [`C87_absence`]. One proof does so
    for any list of such claims at once, so for all keys of a trie [`C87_program_many`, `C87_absence_many`]. The sign of `y` must match the one the transcript assumed, which needs two tries on average
    [`C87_forgery`, `C87_program`, `C87_full_claim_false`]. The compressed interface is not affected [`C83_c`], and neither is the
    uncompressed one if its caller checks the points [`C87_sound_partial`]. The proof relies on arkworks' addition and multi-scalar
    multiplication using the complete formulas for points off the curve too (contract `Formulas`); arkworks' source is not in the sandbox. A
    forgery of values other than zero was not found.

### Tree keys and code chunks
23. `chunkify_code` panics on empty code; a `PUSH32` on the last byte of the last chunk but one produces an extra zero chunk,
    whose header is wrong [`C43_empty_panics`, `C43_full_claim_false`, `C44_extra_chunk_wrong`].
24. Tree-key derivation overflows (panics) for storage slots from `2^256-2^248` and code chunks from `2^256-128`; code chunk
    `2^248-64` has the key of storage slot 64 [`C45_full_claim_false`, `C41_bound_sharp`].
