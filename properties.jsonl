{"id": "C01", "title": "Reads return the last write", "statement": "After any sequence of insert calls on a fresh in-memory trie, get(k) returns Some(v) where v is the value of the last insert for k in the sequence, and None when k was never inserted.", "quantifier": "every finite sequence of (32-byte key, 32-byte value) inserts and every key", "why_tests_cant": "The insert path branches on how the new key's prefix overlaps with every stem already in the tree; tests sample a handful of overlap patterns, the property ranges over all of them.", "anchors": ["verkle-trie/src/trie.rs: TrieTrait::insert, TrieTrait::get, create_insert_instructions, process_instructions, update_leaf_table"]}
{"id": "C02", "title": "Inserting never panics", "statement": "No sequence of insert calls on a fresh in-memory trie reaches an unwrap of None, a failed assert, an expected-branch-found-stem panic or an out-of-range slice.", "quantifier": "every finite sequence of inserts of 32-byte keys and values", "why_tests_cant": "The panics are guarded by invariants that relate three tables; only an inductive invariant over all histories excludes them.", "anchors": ["verkle-trie/src/trie.rs: create_insert_instructions, process_instructions, update_branch_table, expand_path", "verkle-trie/src/database/memory_db.rs: get_branch_meta"]}
{"id": "C03", "title": "Root is history independent", "statement": "Two insert sequences that leave the same final key-to-value map leave the same root commitment and root hash, whatever the order, grouping, overwriting or repetition of the inserts.", "quantifier": "every pair of finite insert sequences with equal final maps", "why_tests_cant": "Order independence quantifies over all permutations and overwrite patterns of unboundedly many inserts.", "anchors": ["verkle-trie/src/trie.rs: insert, root_commitment, root_hash"]}
{"id": "C04", "title": "Root equals the from-scratch commitment", "statement": "After any insert sequence the root commitment equals the commitment computed recursively from the final map alone: a branch commits to its children's hashes at their byte index, a stem commits to (1, stem, hash C1, hash C2), C1 and C2 commit to the 2x128 value halves with the 2^128 presence marker on the low half.", "quantifier": "every finite insert sequence", "why_tests_cant": "The code only ever applies deltas; that the accumulated deltas equal the full commitment is an invariant over histories.", "anchors": ["verkle-trie/src/trie.rs: update_stem_table, update_branch_table, process_instructions"]}
{"id": "C05", "title": "Re-inserting a present pair changes nothing", "statement": "Inserting (k, v) when get(k) is already Some(v) leaves the entire database and the root unchanged.", "quantifier": "every reachable trie state and every key present in it", "why_tests_cant": "Needs the walk from the root to the stem to be shown side-effect free for every tree shape.", "anchors": ["verkle-trie/src/trie.rs: create_insert_instructions (shared_path.len()==31 case)"]}
{"id": "C06", "title": "A zero value is distinct from absence", "statement": "Inserting the all-zero value makes get return Some(0) rather than None, and the committed vector of the stem at that slot differs from the vector of the stem without the slot.", "quantifier": "every reachable trie, every key not yet present", "why_tests_cant": "The marker must survive every later delta update, in either half of the suffix range.", "anchors": ["verkle-trie/src/trie.rs: update_stem_table", "verkle-trie/src/constants.rs: TWO_POW_128"]}
{"id": "C07", "title": "The tree shape is canonical", "statement": "After any insert sequence, looking up the child of a branch at a path gives: a branch exactly when at least two inserted stems start with that path, that unique stem when exactly one does and the parent is a branch, and nothing otherwise.", "quantifier": "every finite insert sequence and every byte path", "why_tests_cant": "Canonicity is a statement about all prefixes of all inserted stems, after arbitrary chain splits.", "anchors": ["verkle-trie/src/trie.rs: create_insert_instructions, process_instructions (ChainInsert)", "verkle-trie/src/database/memory_db.rs: get_branch_child"]}
{"id": "C08", "title": "Every stored node is internally consistent", "statement": "After any insert sequence every stored branch record satisfies hash = map-to-field(commitment) and commitment = sum of child hashes times generators; every stored stem record has its C1, C2, stem commitment and three hashes equal to those recomputed from the leaves.", "quantifier": "every finite insert sequence and every stored node", "why_tests_cant": "An inductive invariant over all nodes, including those not on the last insert's path.", "anchors": ["verkle-trie/src/trie.rs: update_stem_table, update_branch_table", "verkle-trie/src/database/meta.rs: StemMeta, BranchMeta"]}
{"id": "C09", "title": "The root binds the whole map", "statement": "If two insert sequences give equal root commitments then their final maps are equal, unless an explicit break of the commitment scheme is exhibited: two different 256-vectors with the same commitment, or two different node commitments with the same hash, or a node hash equal to the extension marker 1.", "quantifier": "every pair of finite insert sequences", "why_tests_cant": "A collision-extraction argument ranges over all pairs of tries.", "anchors": ["verkle-trie/src/trie.rs: root_commitment", "verkle-trie/src/lib.rs: group_to_field"]}
{"id": "C10", "title": "Inserts touch only the key's path", "statement": "An insert of key k leaves unchanged get(k') for every other key, every stem record of a different stem, and every branch record whose path is not a prefix of k.", "quantifier": "every reachable trie, every inserted pair, every other key, stem and path", "why_tests_cant": "A frame property over all untouched nodes.", "anchors": ["verkle-trie/src/trie.rs: process_instructions"]}
{"id": "C11", "title": "The cached disk database behaves like the in-memory one", "statement": "A trie on the cache+batch+disk database gives the same get results and the same root as a trie on the in-memory database, for the same inserts with flushes and restarts interleaved anywhere (a restart loses the inserts since the last flush).", "quantifier": "every interleaving of inserts, flushes and restarts", "why_tests_cant": "Staleness only shows for specific depth patterns and flush points; the claim is about all of them.", "anchors": ["verkle-trie/src/database/default.rs: VerkleDb", "verkle-trie/src/trie.rs: flush_database"]}
{"id": "C12", "title": "Flush is a durable, all-or-nothing checkpoint", "statement": "After flush the disk content alone answers every read as before the flush; a crash at any point leaves the disk exactly as it was after the last completed flush.", "quantifier": "every interleaving of writes, flushes and one crash, with the underlying batch write atomic", "why_tests_cant": "Crash points and interleavings are unbounded.", "anchors": ["verkle-trie/src/database/default.rs: Flush for VerkleDb", "verkle-trie/src/database/generic.rs: GenericBatchWriter", "verkle-db/src/lib.rs"]}
{"id": "C13", "title": "Disk rows of different items never collide", "statement": "The row keys used for leaves, stems and branches are pairwise distinct for distinct items, so writing one item never changes what another item reads.", "quantifier": "every pair of distinct items (leaf key, stem, branch path)", "why_tests_cant": "Injectivity over unbounded key space.", "anchors": ["verkle-trie/src/database/generic.rs: LabelledDB"]}
{"id": "C14", "title": "Node records survive the disk encoding", "statement": "Decoding the stored bytes of a stem record, a branch record or a child pointer returns the record that was stored; a child pointer never decodes as the other kind.", "quantifier": "every stem record, branch record and child pointer", "why_tests_cant": "Round-trip over all field and group elements.", "anchors": ["verkle-trie/src/database/meta.rs: to_bytes, from_bytes"]}
{"id": "C15", "title": "Malformed node records are rejected with an error", "statement": "Decoding a byte string of the wrong length as a stem or branch record returns an error and neither panics nor ignores bytes.", "quantifier": "every byte string", "why_tests_cant": "All lengths and contents.", "anchors": ["verkle-trie/src/database/meta.rs: BranchMeta::from_bytes, StemMeta::from_bytes"]}
{"id": "C16", "title": "Child enumeration is complete and ordered", "statement": "Listing the children of a branch (or the leaves of a stem) returns each present child exactly once with its index, in ascending index order, and nothing else.", "quantifier": "every reachable database and every branch path or stem", "why_tests_cant": "Quantifies over all 256 slots of all nodes of all databases.", "anchors": ["verkle-trie/src/database/memory_db.rs: get_branch_children, get_stem_children", "verkle-trie/src/database/default.rs: get_branch_children, get_stem_children"]}
{"id": "C17", "title": "Key path classification is correct", "statement": "The path walk used for proofs ends in Found(v) exactly when get(k)=Some(v), StemFound exactly when the stem is present but the key is not, DifferentStem(s) exactly when the unique inserted stem under the walked prefix is s and differs from k's stem, Empty exactly when no inserted stem has the walked prefix; it never panics and its depth is at most 31.", "quantifier": "every reachable trie and every key", "why_tests_cant": "Depends on tree shape and key overlap in unboundedly many ways.", "anchors": ["verkle-trie/src/proof/key_path_finder.rs: find_key_path"]}
{"id": "C18", "title": "Proof creation is total", "statement": "Creating a proof for a non-empty key list on any reachable trie never panics, and for an empty list returns the EmptyKeySet error.", "quantifier": "every reachable trie, every list of keys and every transcript oracle whose challenges are not zero", "why_tests_cant": "Panics hide behind node-kind expectations at each opened path.", "anchors": ["verkle-trie/src/proof/prover.rs: create_verkle_proof", "verkle-trie/src/proof/opening_data.rs: collect_opening_data"]}
{"id": "C19", "title": "Prover and verifier ask the same questions", "statement": "For an honestly created proof, the verifier reconstructs exactly the prover's list of (commitment, point, value) openings, in the same order.", "quantifier": "every reachable trie, every non-empty key list, with the true values", "why_tests_cant": "Two independently written algorithms must agree on every mixture of present, absent-by-other-stem and absent-by-empty keys.", "anchors": ["verkle-trie/src/proof/prover.rs: create_prover_queries", "verkle-trie/src/proof/verifier.rs: create_verifier_queries"]}
{"id": "C20", "title": "Honest proofs verify", "statement": "A proof created for any non-empty key list verifies against the root commitment with the values returned by get.", "quantifier": "every reachable trie and every non-empty key list", "why_tests_cant": "Needs agreement of two algorithms plus completeness of the opening argument on all inputs.", "anchors": ["verkle-trie/src/proof.rs: VerkleProof::check", "verkle-trie/src/proof/prover.rs: create_verkle_proof"]}
{"id": "C21", "title": "Accepted proofs tell the truth", "statement": "If the verifier accepts a proof for keys and claimed values against the root of a trie, and the opening argument is sound (each opening it checks is true), then every claimed value equals get of that key, presence and absence alike.", "quantifier": "every reachable trie, every key/value claim, every adversarial proof object", "why_tests_cant": "An adversary chooses the proof; tests only try honest ones.", "anchors": ["verkle-trie/src/proof/verifier.rs: create_verifier_queries", "verkle-trie/src/proof.rs: check"]}
{"id": "C22", "title": "Verification never panics on untrusted proofs", "statement": "Checking an arbitrary (decoded) proof against arbitrary keys, values and root returns true or false and never panics.", "quantifier": "every proof object, key list, value list and root", "why_tests_cant": "The space of malformed proofs is unbounded.", "anchors": ["verkle-trie/src/proof/verifier.rs: create_verifier_queries"]}
{"id": "C23", "title": "Proof requests are insensitive to key order and duplicates", "statement": "The proof (openings, hint, commitments) created for a key list depends only on the set of keys in it.", "quantifier": "every reachable trie and every pair of non-empty key lists with the same elements", "why_tests_cant": "All permutations and multiplicities.", "anchors": ["verkle-trie/src/proof/opening_data.rs: collect_opening_data"]}
{"id": "C24", "title": "Proof encoding round-trips", "statement": "Reading back the bytes written for a proof (verification hint, commitments, opening proof) yields the same proof and leaves no bytes over.", "quantifier": "every proof an honest prover can create", "why_tests_cant": "Round-trip over unbounded sizes and contents.", "anchors": ["verkle-trie/src/proof.rs: VerificationHint::read/write, VerkleProof::read/write"]}
{"id": "C25", "title": "Decoding proof bytes is total and canonical", "statement": "Reading arbitrary bytes as a verification hint returns a value or an error without panicking, and two different byte strings of consumed input never decode to the same hint.", "quantifier": "every byte string", "why_tests_cant": "All byte strings.", "anchors": ["verkle-trie/src/proof.rs: VerificationHint::read"]}
{"id": "C26", "title": "Stateless update computes the real new root", "statement": "Given a verified proof and new values for the proven keys, the root returned by the stateless updater equals the root of the full trie after inserting those keys and values.", "quantifier": "every reachable trie, every set of keys with honest proof, every assignment of updated values", "why_tests_cant": "Two unrelated implementations (delta update on a partial tree, insert on the full tree) must agree for all shapes.", "anchors": ["verkle-trie/src/proof/stateless_updater.rs: verify_and_update, update_root, SparseVerkleTree"]}
{"id": "C27", "title": "Stateless update rejects ill-formed requests", "statement": "The stateless updater returns an error (no panic, no silently ignored entry) when the key, value and updated-value lists differ in length, and when keys repeat.", "quantifier": "every triple of lists", "why_tests_cant": "All lengths.", "anchors": ["verkle-trie/src/proof/stateless_updater.rs: update_root, has_unique_elements"]}
{"id": "C28", "title": "Inner product argument completeness", "statement": "A proof produced by the inner product prover for a vector, its commitment, a public vector and their inner product is accepted by the verifier, for every power-of-two size, generators and transcript.", "quantifier": "every size 2^n, vectors, generators, and transcript oracle with invertible challenges", "why_tests_cant": "Recursive halving over arbitrary size and field.", "anchors": ["ipa-multipoint/src/ipa.rs: create, verify"]}
{"id": "C29", "title": "The three inner-product verifiers agree", "statement": "The plain, multi-exponentiation and semi-multi-exponentiation verifiers return the same verdict on every proof, honest or not.", "quantifier": "every proof object, commitment, point, result, generators and transcript", "why_tests_cant": "Equivalence over adversarial proofs.", "anchors": ["ipa-multipoint/src/ipa.rs: verify, verify_multiexp, verify_semi_multiexp"]}
{"id": "C30", "title": "Division on the domain is exact", "statement": "For a vector of evaluations on the domain and an index i, the computed quotient q satisfies q(j)*(j-i) = f(j)-f(i) for all j different from i and is the evaluation vector of the polynomial (f - f(i))/(X - i), so it has degree below the domain size minus one.", "quantifier": "every evaluation vector of length 256 and every index", "why_tests_cant": "Polynomial identity over the whole field.", "anchors": ["ipa-multipoint/src/lagrange_basis.rs: divide_by_linear_vanishing, PrecomputedWeights"]}
{"id": "C31", "title": "Barycentric evaluation is polynomial evaluation", "statement": "For a point outside the domain, the inner product of the vector with the computed Lagrange coefficients equals the evaluation at that point of the unique interpolating polynomial.", "quantifier": "every evaluation vector and every point outside the domain", "why_tests_cant": "Polynomial identity over the whole field.", "anchors": ["ipa-multipoint/src/lagrange_basis.rs: evaluate_lagrange_coefficients, evaluate_outside_domain"]}
{"id": "C32", "title": "Multipoint proof completeness", "statement": "A multipoint proof created for any non-empty list of true openings is accepted by the verifier with the same commitments, points and values in the same order.", "quantifier": "every non-empty list of polynomials and in-domain points, every transcript oracle avoiding the degenerate challenges", "why_tests_cant": "Aggregation over arbitrary many queries with arbitrary point overlaps.", "anchors": ["ipa-multipoint/src/multiproof.rs: MultiPoint::open, MultiPointProof::check"]}
{"id": "C33", "title": "Multipoint proof bytes round-trip", "statement": "Decoding the encoding of a multipoint or inner product proof returns the same proof; the encoding has the documented fixed length; decoding input of another length fails rather than misreading.", "quantifier": "every proof and every byte string", "why_tests_cant": "All proofs and lengths.", "anchors": ["ipa-multipoint/src/multiproof.rs: to_bytes, from_bytes", "ipa-multipoint/src/ipa.rs: to_bytes, from_bytes"]}
{"id": "C34", "title": "Challenges depend on everything absorbed", "statement": "Two transcripts that absorbed the same sequence of labels and message kinds but differ in some message have different pre-hash states when the next challenge is drawn.", "quantifier": "every pair of same-shaped absorb sequences since the last challenge", "why_tests_cant": "Injectivity over unbounded sequences.", "anchors": ["ipa-multipoint/src/transcript.rs: append_message, challenge_scalar"]}
{"id": "C35", "title": "Query grouping does not change the proof", "statement": "Grouping prover queries by evaluation point yields the same aggregated quotient and the same aggregated polynomial as processing queries one by one.", "quantifier": "every query list and challenge", "why_tests_cant": "All groupings.", "anchors": ["ipa-multipoint/src/multiproof.rs: group_prover_queries, open"]}
{"id": "C36", "title": "Windowed multi-scalar multiplication is exact", "statement": "The precomputed signed-window multiplication returns the sum of scalar_i times base_i for every scalar in the field and every supported window size; scalars beyond the number of bases are ignored.", "quantifier": "every list of bases, scalars below 2^253 and window size", "why_tests_cant": "Carry and sign handling at every window boundary, for 2^253 scalars.", "anchors": ["banderwagon/src/msm_windowed_sign.rs: mul, precompute_points, get_booth_index"]}
{"id": "C37", "title": "Committer dispatch is transparent", "statement": "Committing a vector, a sparse vector or a single scalar gives the mathematical linear combination of generators whichever of the internal strategies is picked, and is linear in the vector.", "quantifier": "every vector of length at most 256, every sparse list", "why_tests_cant": "Three code paths, all sizes.", "anchors": ["ipa-multipoint/src/committer.rs: DefaultCommitter, commit_sparse, commit_lagrange"]}
{"id": "C38", "title": "Group element equality is class equality", "statement": "Equality of group elements is an equivalence relation that identifies exactly the points (x,y) and (-x,-y), and the hash-to-field and compressed encoding are constant on classes and distinguish different classes.", "quantifier": "every pair of curve points", "why_tests_cant": "Ranges over the whole curve.", "anchors": ["banderwagon/src/element.rs: PartialEq, to_bytes, map_to_field"]}
{"id": "C39", "title": "Group element decoding accepts exactly the encodings", "statement": "Decoding compressed bytes succeeds exactly for canonical x of a subgroup-class point and then re-encoding gives back the same bytes; decoding the encoding of an element gives an equal element.", "quantifier": "every 32-byte string and every element", "why_tests_cant": "All 2^256 inputs.", "anchors": ["banderwagon/src/element.rs: from_bytes, to_bytes, get_point_from_x, subgroup_check"]}
{"id": "C40", "title": "Batch hashing equals one-by-one hashing", "statement": "Batch mapping of commitments to field elements gives, position by position, the same results as mapping each on its own.", "quantifier": "every list of elements", "why_tests_cant": "All lists, including ones mixing identity elements.", "anchors": ["banderwagon/src/element.rs: batch_map_to_scalar_field, map_to_scalar_field"]}
{"id": "C41", "title": "Account, storage and code slots never overlap", "statement": "For one account, the (tree index, sub index) positions of header fields, storage slots and code chunks are pairwise different for different items; storage and code positions are injective in slot number and chunk number.", "quantifier": "every storage slot below 2^256-2^248, every chunk number below 2^200, every header field", "why_tests_cant": "Arithmetic over 256-bit numbers.", "anchors": ["verkle-spec/src/storage.rs: Storage::new", "verkle-spec/src/code.rs: Code::new", "verkle-spec/src/header.rs: Header::new", "verkle-spec/src/parameters.rs"]}
{"id": "C42", "title": "Keys of one group share a stem", "statement": "All keys derived from the same address and tree index agree on their first 31 bytes and differ in the last byte exactly when their sub index differs; in particular header fields, the first 64 storage slots and the first 128 code chunks live under the account's header stem.", "quantifier": "every address, hash function, slot and chunk", "why_tests_cant": "All inputs.", "anchors": ["verkle-spec/src/util.rs: swap_last_byte, hash_addr_int", "verkle-spec/src/storage.rs", "verkle-spec/src/code.rs"]}
{"id": "C43", "title": "Code chunking loses nothing", "statement": "Concatenating bytes 1..31 of all chunks yields the code followed only by zero bytes; every chunk has 32 bytes; the number of chunks is the least number of 31-byte pieces covering the code.", "quantifier": "every non-empty byte code", "why_tests_cant": "All codes, all push patterns at chunk boundaries.", "anchors": ["verkle-spec/src/code.rs: chunkify_code"]}
{"id": "C44", "title": "Chunk headers count leading push data", "statement": "The first byte of each chunk equals the number of its leading bytes that are push data of an instruction started in an earlier chunk, capped at 31, as in the EVM's own instruction decoding.", "quantifier": "every byte code and every chunk", "why_tests_cant": "All instruction alignments.", "anchors": ["verkle-spec/src/code.rs: chunkify_code, compute_leftover_push_data"]}
{"id": "C45", "title": "Slot derivation never overflows", "statement": "Deriving the tree key of any storage slot or code chunk succeeds for every 256-bit number.", "quantifier": "every 256-bit slot or chunk number", "why_tests_cant": "Boundary values of a 256-bit space.", "anchors": ["verkle-spec/src/storage.rs: Storage::new", "verkle-spec/src/code.rs: Code::new"]}
{"id": "C46", "title": "Tree key hashing input is unambiguous", "statement": "Different (address, tree index) pairs give different vectors of scalars fed to the Pedersen hash, so two keys collide only if the commitment or hash does.", "quantifier": "every pair of 64-byte inputs", "why_tests_cant": "Injectivity over 2^512 inputs.", "anchors": ["verkle-spec/src/util.rs: chunk64, chunk_bytes", "verkle-spec/src/lib.rs: hash64"]}
{"id": "C47", "title": "Incremental commitment updates equal recommitting", "statement": "update_commitment and update_commitment_sparse applied to the commitment of a vector return the commitment of the vector with the entries replaced, for any list of distinct indices; repeated indices accumulate deltas.", "quantifier": "every vector, index list, old and new values", "why_tests_cant": "All vectors and index lists.", "anchors": ["ffi_interface/src/lib.rs: update_commitment, update_commitment_sparse"]}
{"id": "C48", "title": "Scalar byte encoding is canonical", "statement": "fr_from_le_bytes(fr_to_le_bytes(x)) = x for every scalar; decoding rejects exactly the strings that are not 32 bytes or encode a number at or above the modulus.", "quantifier": "every scalar and every byte string", "why_tests_cant": "All inputs.", "anchors": ["ffi_interface/src/serialization.rs: fr_to_le_bytes, fr_from_le_bytes"]}
{"id": "C49", "title": "Proof request byte formats are parsed exactly", "statement": "Splitting the byte form of a list of prover or verifier queries recovers exactly the encoded list; input whose length is not a multiple of the record size is an error.", "quantifier": "every list of queries and every byte string", "why_tests_cant": "All lengths.", "anchors": ["ffi_interface/src/serialization.rs: deserialize_proof_query, deserialize_verifier_query", "ffi_interface/src/lib.rs: create_proof, verify_proof"]}
{"id": "C50", "title": "Commitments are homomorphic across the byte interface", "statement": "add_commitment(commit(a), commit(b)) equals commit(a+b), in particular the tree key hash may be computed from a cached commitment of the address part plus the commitment of the tree-index part.", "quantifier": "every pair of scalar vectors, every address and index", "why_tests_cant": "All inputs.", "anchors": ["ffi_interface/src/lib.rs: add_commitment, commit_to_scalars, get_tree_key_hash"]}
{"id": "C51", "title": "Execution-witness conversion preserves the claims", "statement": "Converting the JSON execution witness yields exactly the keys (stem plus suffix) and current values listed in its state diff, in order, and exactly the listed depths, extension flags, other stems and commitments.", "quantifier": "every well-formed execution witness", "why_tests_cant": "Unbounded nested lists.", "anchors": ["verkle-trie/src/proof/golang_proof_format.rs: keys_with_current_values, from_verkle_proof_go_to_verkle_proof"]}
{"id": "C52", "title": "Group elements form the vector space the proofs assume", "statement": "The elements (points of Bandersnatch passing the subgroup check, two opposite representatives identified) form a commutative group of prime order r, the order of the scalar field; the code's equality, addition, negation, hash and encodings computed on any representative are functions of the element alone.", "quantifier": "every pair of curve points, every representative in extended coordinates, every byte string of 32 bytes", "why_tests_cant": "About 2^252 elements; associativity and the exact order cannot be tested exhaustively.", "anchors": ["banderwagon/src/element.rs: Element, from_bytes, to_bytes, map_to_scalar_field, PartialEq", "banderwagon/src/trait_impls/ops.rs"]}
{"id": "C53", "title": "The reference string consists of distinct valid elements", "statement": "The built-in table of 257 points decodes without panicking into 256 generators and Q, all in the prime-order group, pairwise different and not neutral, with Q the group generator; a reference string generated from any seed with any hash function has the requested number of pairwise different group elements; writing and reading a reference string gives back the same points.", "quantifier": "the whole built-in table; every seed, hash function and size; every reference string", "why_tests_cant": "The table is loaded without any check (from_bytes_unchecked_uncompressed); generated strings depend on an arbitrary seed.", "anchors": ["ipa-multipoint/src/crs.rs: CRS::new, CRS::from_bytes, CRS::to_bytes, assert_dedup, generate_random_elements", "ipa-multipoint/src/default_crs.rs: HEX_ENCODED_CRS"]}
{"id": "C54", "title": "Operations on commitment bytes depend only on the commitment", "statement": "hash_commitment, hash_commitments and serialize_commitment give the hash and the 32-byte encoding of the group element whichever of its two 64-byte forms they are given; hash_commitments agrees with hash_commitment on each entry; deserialize_commitment undoes serialize_commitment on the level of elements and rejects every other string of 32 bytes.", "quantifier": "every group element, every 64-byte form of it, every list of them, every string of 32 bytes", "why_tests_cant": "Tests compare bytes of the generator and a few multiples; the two forms of one element and the whole set of rejected strings are out of reach.", "anchors": ["ffi_interface/src/lib.rs: hash_commitment, hash_commitments", "ffi_interface/src/serialization.rs: serialize_commitment, deserialize_commitment"]}
{"id": "C55", "title": "Accepted inner-product proofs know an opening", "statement": "From a family of runs accepted by any of the three inner-product verifiers for one commitment, vector b and result y (two non-zero challenges w, for each a tree with four distinct non-zero challenges per round) one can compute either a non-trivial linear relation between the generators and Q, or a vector that opens the commitment and whose inner product with b is y. For the honest prover the vector computed is the prover's and all computed relations are trivial.", "quantifier": "every field, group, reference string of 2^k generators, commitment, b, y, every family of accepted runs with distinct challenges, every hash per run", "why_tests_cant": "Tests only run honest provers; soundness speaks about all provers and all proofs the verifier accepts.", "anchors": ["ipa-multipoint/src/ipa.rs: verify, verify_multiexp, verify_semi_multiexp, generate_challenges"]}
{"id": "C56", "title": "Accepted multipoint proofs know all openings", "statement": "From a family of runs accepted by MultiPoint::check for one list of queries at points of the domain (as many challenges r as queries, for each n plus #queries challenges t outside the domain, for each two w, for each a tree as in C55) one can compute either a non-trivial linear relation between the generators and Q, or for each query a vector that opens its commitment and has the claimed result at its point, the same for equal commitments. Such families exist for every list of true openings.", "quantifier": "every field, group, reference string of 2^k generators, list of queries, family of accepted runs with distinct challenges, every hash per run", "why_tests_cant": "Tests only run honest provers and a few flipped bits; soundness speaks about all proofs the verifier accepts.", "anchors": ["ipa-multipoint/src/multiproof.rs: check", "ipa-multipoint/src/ipa.rs: verify_multiexp"]}
{"id": "C57", "title": "Java pre-state verifier agrees with the native one", "statement": "verifyPreStateRoot returns true exactly when its arrays encode a proof, keys, values and a root which the native verifier accepts; it agrees with the execution-witness verifier on the same claims; honestly created proofs are accepted; on every other input it returns false and does not panic.", "quantifier": "every argument (null references and arrays of any length included), every field, group, codec, hash and iteration order", "why_tests_cant": "The Java tests feed a handful of recorded proofs; the arguments are arbitrary arrays from the caller.", "anchors": ["bindings/java/rust_code/src/lib.rs: verifyPreStateRoot", "bindings/java/rust_code/src/utils.rs", "verkle-trie/src/proof.rs: check"]}
{"id": "C58", "title": "Java commitment functions compute on group elements", "statement": "commit, commitAsCompressed, updateSparse, compress, compressMany, hash, hashMany and addCommitment give the bytes of the specified group element or scalar for well-formed arguments, and raise IllegalArgumentException for all others.", "quantifier": "every argument (null references included), every representative of every element, every list of scalars and indices", "why_tests_cant": "An element has several byte representatives and the arrays are unbounded; the tests compare a few fixed vectors.", "anchors": ["bindings/java/rust_code/src/lib.rs", "bindings/java/rust_code/src/parsers.rs", "ffi_interface/src/lib.rs"]}
{"id": "C59", "title": "C binding proofs agree with the Rust interface in both formats", "statement": "create_proof and verify_proof of the C binding write exactly what the functions of the same name of ffi_interface return, and abort exactly when those panic or return an error; the uncompressed variants, on any 64-byte forms of group elements, create an uncompressed form of the same proof and give the same answer; honestly created proofs verify in both formats.", "quantifier": "every request of any length; every choice of representative point for every element; every iteration order; every hash", "why_tests_cant": "The functions compute on points, of which two represent each element, and which one arises depends on the whole computation; requests are arbitrary bytes.", "anchors": ["bindings/c/src/lib.rs", "ipa-multipoint/src/ipa.rs: from_bytes_unchecked_uncompressed, to_bytes_uncompressed", "ipa-multipoint/src/multiproof.rs: open, check, from_bytes_unchecked_uncompressed", "ffi_interface/src/lib.rs: create_proof, verify_proof"]}
{"id": "C60", "title": "C binding commitments and Pedersen hash", "statement": "multi_scalar_mul writes the compressed commitment to the given scalars, at most 256 canonical ones, and refuses every other input; pedersen_hash writes the hash of address and tree index, and writes nothing if a pointer is null.", "quantifier": "every byte string; every address and index", "why_tests_cant": "Lengths are unbounded and come from the caller; tests pass a few well-formed vectors.", "anchors": ["bindings/c/src/lib.rs: multi_scalar_mul, pedersen_hash", "ipa-multipoint/src/committer.rs: commit_lagrange"]}
{"id": "C61", "title": "A trie written to disk can be read back", "statement": "After any insertions and a flush, every stem and branch record on disk decodes to the record that was written, so the trie can be reopened.", "quantifier": "every list of insertions and flushes on an empty VerkleDb; the default reference string; every disk holding the flushed tables", "why_tests_cant": "Whether a record decodes depends on which of the two points of an element the whole computation produced; the repository has no test that reopens a VerkleDb.", "anchors": ["verkle-trie/src/database/meta.rs: to_bytes, from_bytes", "banderwagon/src/trait_impls/serialize.rs", "ipa-multipoint/src/default_crs.rs", "verkle-trie/src/trie.rs: Trie::new"]}
{"id": "C62", "title": "Which point stands for an element does not matter to the trie", "statement": "The code computes on curve points, two of which stand for one group element. For every history the trie on points succeeds, answers reads as the trie on elements does, and has a root commitment standing for the specified element and the specified root hash; what is stored depends on the final contents only.", "quantifier": "every list of insertions and flushes, both databases, every choice of points standing for the default generators", "why_tests_cant": "Which of the two points arises depends on the whole history of additions and reductions; tests look at compressed bytes and hashes, which hide it.", "anchors": ["verkle-trie/src/trie.rs", "banderwagon/src/element.rs", "verkle-trie/src/database/meta.rs: to_bytes", "ipa-multipoint/src/committer.rs: scalar_mul"]}
{"id": "C63", "title": "An update behind an accepted proof is the real update", "statement": "If verify_and_update returns a root for a proof, keys, old values and new values, then whatever the proof is, provided the opening argument is sound and the commitment scheme is not broken, the old values of the written keys are the stored ones and the returned root is the root of the full trie after inserting the new values.", "quantifier": "every reachable trie, every adversarial proof object, every keys, claimed old values and new values, every iteration order of the hash sets", "why_tests_cant": "The proof and its hint come from an adversary; tests update only behind honest proofs.", "anchors": ["verkle-trie/src/proof/stateless_updater.rs: verify_and_update, update_root", "verkle-trie/src/proof/verifier.rs: create_verifier_queries"]}
{"id": "C64", "title": "The default reference string is the one generated from its seed", "statement": "CRS::new(256, b\"eth_verkle_oct_2021\") with SHA-256 does not panic and its bytes are the table of default_crs.rs entry by entry; reading the table back gives the same points, so CRS::default() has no generator other than the hashed ones.", "quantifier": "every candidate index up to the 256th accepted one, and every square-root function of the field (either sign)", "why_tests_cant": "One test compares the two on one machine's square root; it does not show why the rejected indices are rejected, and a sign convention of the field's square root could change the points.", "anchors": ["ipa-multipoint/src/crs.rs: new, generate_random_elements, to_bytes, from_bytes", "ipa-multipoint/src/default_crs.rs", "banderwagon/src/lib.rs: try_reduce_to_element"]}
{"id": "C65", "title": "A prover that convinces often knows the openings", "statement": "Any strategy of a prover against random challenges, for the inner product argument or for the multipoint argument, that makes the verifier of the code accept for more than a small explicit part of all challenges (about (2n + 2q + 4k)/|F|) yields runs from which openings of the commitments with the claimed results, or a non-trivial relation between the generators, are computed. The honest prover convinces on almost all challenges.", "quantifier": "every strategy of the prover, every set of queries, every number of rounds, field and group", "why_tests_cant": "It quantifies over all adversaries and counts over all challenges of a 253-bit field.", "anchors": ["ipa-multipoint/src/ipa.rs: verify, generate_challenges", "ipa-multipoint/src/multiproof.rs: check"]}
{"id": "C66", "title": "No program forges proofs against a random hash", "statement": "Any program that asks the hash of the transcript at most N times and outputs queries and a proof, and whose output is accepted by the verifier of the code for more than the part (N + k + 3)(2n + q + 1 + 2(N + k + 3))/|F| of all hashes, has runs with the same queries from which openings of the commitments with the claimed results, or a non-trivial relation between the generators, are computed. The same holds for programs that output the bytes handed to verify_proof of the Rust byte interface or of the C interface. In particular the transcript binds each challenge to everything before it. The honest prover wins for almost all hashes.", "quantifier": "every program, every number of questions, every set of queries chosen by the program, every field and group with injective encodings", "why_tests_cant": "It quantifies over all adversaries and counts over all hash functions; the weak Fiat-Shamir mistakes it excludes (a message or a challenge missing from the transcript) leave all honest runs unchanged.", "anchors": ["ipa-multipoint/src/transcript.rs: challenge_scalar, append_point, append_scalar", "ipa-multipoint/src/multiproof.rs: check", "ipa-multipoint/src/ipa.rs: verify_multiexp, generate_challenges", "ffi_interface/src/lib.rs: verify_proof", "bindings/c/src/lib.rs: verify_proof"]}
{"id": "C67", "title": "Serialisation traits of group elements round-trip", "statement": "Writing a group element with the serialisation trait, compressed or uncompressed, and reading the bytes back gives the element and consumes exactly the bytes written (serialized_size of them); the compressed reader accepts only such bytes; no reader panics; elements that compare equal are hashed equally and different ones feed the hasher different bytes; the iterator sum is the sum.", "quantifier": "every element in every coordinate representation, every reader contents, both compression modes, both validation modes, every hasher", "why_tests_cant": "An element is held as one of two points with arbitrary coordinates; the tests write the default generator and a few multiples. Whether an uncompressed element can be read back depends on which of its two points is held.", "anchors": ["banderwagon/src/trait_impls/serialize.rs: serialize_with_mode, serialized_size, deserialize_with_mode", "banderwagon/src/trait_impls/ops.rs: Hash, Sum", "banderwagon/src/element.rs: compressed_serialized_size"]}
{"id": "C68", "title": "Honest proofs are accepted for almost every hash", "statement": "Reading the hash of the transcript as a random function into the scalar field: for all but a part (k+5)2^k/|F| of the hashes (2^-240 for Bandersnatch and vectors of 256 entries) the prover returns a proof for any non-empty list of true openings and the verifier accepts it. The same holds for the bytes of create_proof handed to verify_proof (Rust and C), for proofs of every trie and list of keys, through their byte form, with the values that get returns, and for the stateless update from such a proof, which returns the root of the updated trie.", "quantifier": "every list of true openings, every history and list of keys, every update, all hashes on a finite set of strings long enough for the transcript", "why_tests_cant": "The tests use one hash and a few queries. The prover inverts challenges and divides by differences of a challenge and the points of the domain; that this fails rarely, for every input, is a count over all hashes.", "anchors": ["ipa-multipoint/src/multiproof.rs: open, check", "ipa-multipoint/src/ipa.rs: create, verify_multiexp", "ipa-multipoint/src/transcript.rs: challenge_scalar", "verkle-trie/src/proof/prover.rs: create_verkle_proof", "verkle-trie/src/proof.rs: check", "verkle-trie/src/proof/stateless_updater.rs: verify_and_update", "ffi_interface/src/lib.rs: create_proof, verify_proof", "bindings/c/src/lib.rs: create_proof, verify_proof"]}
{"id": "C69", "title": "The inner product argument alone resists forgers that ask a random hash", "statement": "Reading the hash of the transcript as a random function into the scalar field: a program that asks it N times and outputs a commitment, a public vector, a claimed inner product and a proof, accepted by one of the three verifiers of ipa.rs for more than the part (N+k+1)(4+2(N+k+1))/|F| of the hashes, can be rerun to compute a vector that opens the commitment and has the claimed inner product, or a non-trivial relation between the generators and Q. Honest proofs are accepted by all three verifiers for all hashes but the part (k+1)/|F|.", "quantifier": "every program, every length 2^k, every transcript label and reference string, all hashes on a finite set of strings long enough for the transcript", "why_tests_cant": "The test creates one honest proof. What a prover may choose freely after seeing challenges shows only in a statement about all programs: the public vector b is not absorbed by the transcript.", "anchors": ["ipa-multipoint/src/ipa.rs: create, verify, verify_multiexp, verify_semi_multiexp, generate_challenges", "ipa-multipoint/src/transcript.rs: challenge_scalar, append_point, append_scalar"]}
{"id": "C70", "title": "A stateless client that follows a chain of blocks has the root of the full trie", "statement": "A client that knows only the root of a trie and calls verify_and_update for one block after the other, each time with the root returned before, ends with the root of the trie after all the writes of the blocks whatever the proofs it accepts, and the old values of the written keys were the stored ones at their time, unless the vectors extracted from one accepted proof break the commitments of the trie reached before that block. A program that asks the random hash N times and outputs a whole chain deceives the client for no larger part of the hashes than the bound for one block. A node that holds the trie can serve such a client for every chain of reads and writes.", "quantifier": "every starting history, every number of blocks, every proof and every list of keys, old and new values in each block, every program with N questions", "why_tests_cant": "The test of the updater makes one update of one key from an honest proof. Errors that a wrong root causes in later blocks, and a prover who chooses the chain as a whole, need an induction over all chains.", "anchors": ["verkle-trie/src/proof/stateless_updater.rs: verify_and_update, update_root", "verkle-trie/src/proof/prover.rs: create_verkle_proof", "verkle-trie/src/trie.rs: insert, root_commitment"]}
{"id": "C71", "title": "Account state stored under the derived keys reads back", "statement": "Insert any list of writes to accounts - version, balance, nonce, code hash, code size, storage slots, code chunks, of any addresses - under the keys derived by verkle-spec. Every item then reads as last written, items never written are absent, the root determines the value of every item, and code written with chunkify_code is read back byte for byte from its chunks, unless two different hash inputs among those used have the same first 31 bytes of hash (or, for the root, the commitments are explicitly broken).", "quantifier": "every hash function of 64 bytes, every list of writes, all storage slots below 2^256 - 2^248 and chunks below 2^248 - 64, every non-empty code", "why_tests_cant": "The tests compare a few derived keys and chunk lists with constants. That no two of the 2^256 slots, chunks and header fields of any accounts meet in the trie, and that later writes elsewhere never disturb them, ranges over all pairs of items and all histories.", "anchors": ["verkle-spec/src/header.rs: Header::new", "verkle-spec/src/storage.rs: Storage::new", "verkle-spec/src/code.rs: Code::new, chunkify_code", "verkle-spec/src/util.rs: hash_addr_int, swap_last_byte", "verkle-trie/src/trie.rs: insert, get, root_commitment"]}
{"id": "C72", "title": "The size of a proof is bounded by the stems asked for and their depths", "statement": "A proof created for a list of keys and written out takes exactly 588 bytes, one byte per distinct stem, 31 bytes per foreign stem it names and 32 bytes per commitment. It names at most one foreign stem per distinct stem asked for that is not stored, and carries at most as many commitments as the sum of the depths it reports and the number of halves of stored stems asked for. So it takes at most 588 bytes plus 1025 per distinct key, whatever the trie contains, and asking for more values of the same half of a stem costs no byte. The number of openings handed to the multipoint argument is bounded likewise.", "quantifier": "every insert history, every list of keys with repetitions in any order, every opening argument with eight rounds", "why_tests_cant": "Tests compare the length of a few fixed proofs. A bound that holds for every shape of trie and every request needs an argument about which nodes the prover opens, and how it removes duplicates.", "anchors": ["verkle-trie/src/proof/prover.rs: create_verkle_proof, create_prover_queries", "verkle-trie/src/proof/opening_data.rs: collect_opening_data, open_query", "verkle-trie/src/proof.rs: VerkleProof::write, VerificationHint::write"]}
{"id": "C73", "title": "Decoding a proof takes memory in proportion to the input", "statement": "Whatever bytes are given to VerkleProof::read, the memory it asks for is at most a constant factor times the number of bytes given, whether it returns a proof, an error or panics.", "quantifier": "all byte strings", "why_tests_cant": "The tests decode bytes written by the encoder. Inputs that announce more than they contain are never tried, and the memory asked for is not observed by any test.", "anchors": ["verkle-trie/src/proof.rs: VerificationHint::read, VerkleProof::read", "ipa-multipoint/src/multiproof.rs: MultiPointProof::from_bytes", "ipa-multipoint/src/ipa.rs: IPAProof::from_bytes"]}
{"id": "C74", "title": "Accepted proofs and the work of checking them are bounded by the request", "statement": "Whatever proof is presented, if it is accepted for a request then its size, and the number of openings checked, are bounded by a constant times the number of distinct keys asked for; nothing can be added to an accepted proof without changing the verdict.", "quantifier": "all proofs, all requests, all roots, every opening argument", "why_tests_cant": "The tests check proofs made by the prover for the same request. What an adversary may add to a proof without being noticed ranges over all proofs.", "anchors": ["verkle-trie/src/proof/verifier.rs: create_verifier_queries", "verkle-trie/src/proof.rs: VerkleProof::check, VerkleProof::read"]}
{"id": "C75", "title": "Proofs about one stem that show a value are true throughout", "statement": "If a proof for distinct keys of a single stem is accepted and claims a value for at least one of them, then every claim it makes, of values and of absence, is true, whatever the hint in the proof says; the same holds for roots returned by the stateless updater, for a client that reads the items at the head of an account, and against programs that ask a random hash.", "quantifier": "all histories, all sets of keys of one stem, all proofs and hints, all roots", "why_tests_cant": "A forged proof may have any hint and any commitments; tests only try proofs of the prover. The claim singles out the requests for which none of the known forgeries of C21 works.", "anchors": ["verkle-trie/src/proof/verifier.rs: create_verifier_queries", "verkle-trie/src/proof.rs: VerkleProof::check", "verkle-trie/src/proof/stateless_updater.rs: verify_and_update", "verkle-spec/src/header.rs"]}
{"id": "C76", "title": "Storage is linear in the contents and an insert changes a bounded number of rows", "statement": "After any history of inserts the in-memory database holds exactly one leaf row per distinct key, one row and one pointer per distinct stem, the root and at most 30 further branch rows for each stem but the first; a single insert changes at most 35 rows.", "quantifier": "all histories, all keys and values", "why_tests_cant": "Rows left behind when a stem is displaced, or created twice, would show only for particular histories and prefixes; tests compare roots and values, not the set of stored rows.", "anchors": ["verkle-trie/src/trie.rs: create_insert_instructions, process_instructions", "verkle-trie/src/database/memory_db.rs"]}
{"id": "C77", "title": "The proof is determined by the contents and the keys asked for", "statement": "Two tries that hold the same map give the same proof, byte for byte, for the same set of keys: insert history, grouping, order and repetition of the keys, the iteration order of the prover's hash map, and the database behind the trie (in memory, or on disk at any point between inserts, flushes and restarts) make no difference.", "quantifier": "every pair of histories with the same final map, every pair of key lists with the same set, every iteration order, every hash function and every set of generators", "why_tests_cant": "Tests compare proofs for one history on one database; hash map iteration order and the cache/batch/disk layering vary from run to run, and the divergence after overwriting a flushed value needs a flush between two writes of one key.", "anchors": ["verkle-trie/src/proof/prover.rs: create_verkle_proof, create_prover_queries", "verkle-trie/src/proof/opening_data.rs", "verkle-trie/src/database/default.rs: get_leaf, get_stem_meta, get_branch_child", "ipa-multipoint/src/multiproof.rs: group_prover_queries"]}
{"id": "C78", "title": "The openings are found with a bounded number of runs", "statement": "There is an algorithm that runs a prover of the inner product argument, of the multipoint argument or of proofs against the root of a trie on challenges drawn at random, their number fixed beforehand: q (n + q) 2 4^k (2 g e)^(k + 3) for q queries on a domain of n = 2^k points, where 2^e bounds 2 (n + q). If the prover makes the verifier of the code accept on more than the part (2n + 2q + 4k)/|F| + (k + 3)/g of all challenges, then for at least half of the draws the algorithm finds accepted runs from which openings of the commitments with the claimed results, or a non-trivial relation between the generators, are computed. The algorithm's result depends on the prover's answers to the drawn challenges only.", "quantifier": "every strategy of the prover, every set of queries, every number of rounds, field and group, every g", "why_tests_cant": "It quantifies over all adversaries and counts over all draws of challenges from a 253-bit field.", "anchors": ["ipa-multipoint/src/ipa.rs: verify, generate_challenges", "ipa-multipoint/src/multiproof.rs: check", "verkle-trie/src/proof.rs: check"]}
{"id": "C79", "title": "Proofs against one root agree", "statement": "Let two proofs be accepted against the same root, which may be any group element and need not be the root of a trie, and let vectors be extracted from their opening arguments (assumed, or computed from accepted runs of the multipoint argument). Then vectors or elements occurring in the two proofs break the commitment scheme, or the two proofs make the same claim, value or absence, about every key on which both make an undisputed claim and to whose stem they give the same depth; if the depths differ, contradicting claims are possible only if the proof with the smaller depth shows a stem there and both open the same vector, with the marker of a stem. At different depths contradictions do happen: for every hash, every set of generators and every complete opening argument there are a root and two accepted proofs of different values of one key. A program that asks a random hash a bounded number of times and outputs a root of its choice and two proofs contradicting each other at the same depth for more than a small part of the hashes yields such a break.", "quantifier": "every root, every pair of accepted proofs with arbitrary hints, keys and values, every group, hash and opening argument", "why_tests_cant": "It is about arbitrary, also dishonest, proofs against arbitrary roots; tests only check proofs made by the prover against roots of tries. The contradicting pair needs a root no insert produces.", "anchors": ["verkle-trie/src/proof/verifier.rs: create_verifier_queries", "verkle-trie/src/proof.rs: check"]}
{"id": "C80", "title": "A node that keeps part of the rows", "statement": "What an insert does depends only on the rows on the paths of the keys written. Any two databases, also ones no insert produced, that agree on a set of rows holding for every key written its leaf, the record of its stem and its path, and the record and path of every stem found on it, fail with the same panic or give results that agree on the same set. For a trie reached by inserts and any keys, at most two stem records, 32 path rows and one leaf per key suffice: every database holding part of the rows of the trie, among them these, takes all writes to these keys without a panic, keeps only rows of the resulting trie, reads the same values at the keys and has the same root. The record of the other stem found on the path is needed: without it a write panics. A database holding part of the rows of another, among them the root, the children of the branches on the paths of the keys, the records of the stems among them and the leaves of the stems of the keys, gives the same proof of these keys, the same error or the same panic.", "quantifier": "every history of inserts, every set of keys, every list of writes to them, every database that keeps at least the named rows; every pair of databases for the first part", "why_tests_cant": "Tests run on whole databases; which of the rows matter ranges over all subsets of the rows of all tries.", "anchors": ["verkle-trie/src/trie.rs: create_insert_instructions, process_instructions, update_leaf_table, update_stem_table, update_branch_table", "verkle-trie/src/database/memory_db.rs", "verkle-trie/src/proof/prover.rs: create_verkle_proof", "verkle-trie/src/proof/opening_data.rs, verkle-trie/src/proof/key_path_finder.rs"]}
{"id": "C81", "title": "The databases are tables", "statement": "Through the database interface (insert_leaf, insert_stem, add_stem_as_branch_child, insert_branch and the reads), after any sequence of writes every read gives the last entry written to its row or what was there before, and a write returns what the read gave before it. In memory this holds for all sequences of writes with any depths. For the cached database on disk, with flushes between the writes, the reads are right if every row is written always within the cached depths or always below them, and wrong otherwise; what a write returns is exactly the last entry written to the row since the last flush, so a flushed entry is reported as missing.", "quantifier": "every initial database or disk, every sequence of writes and flushes, every row and depth", "why_tests_cant": "Tests write through the trie only and never flush between writes; the rows, depths and orders of writes are unbounded.", "anchors": ["verkle-trie/src/database.rs: WriteOnlyHigherDb, ReadOnlyHigherDb", "verkle-trie/src/database/memory_db.rs", "verkle-trie/src/database/default.rs"]}
{"id": "C82", "title": "The C and C# entry points keep to the caller's memory", "statement": "With a live context, readable input of the announced length and room for the output, every function of the C binding returns what it returns on byte strings and writes the result to the output and nothing else, also for overlapping buffers; contexts are live from context_new to context_free. pedersen_hash does nothing if a pointer is null. Whatever a program does with objects of the C# class in any order, every context is freed at most once and used only before, and none is left after all objects are disposed of; PedersenHash writes the hash of its arguments. (The C# method does not look at the lengths of the arrays and accesses memory outside of arrays of less than 32 bytes; after Dispose, and for null or empty arrays, it returns without a hash; the other C functions do not look for null pointers.)", "quantifier": "every memory and set of live contexts, all pointers and lengths, every sequence of creations, disposals and hashes with any changes of the arrays between them, every choice of the allocator", "why_tests_cant": "Undefined behaviour often goes unnoticed in a test; the states of memory and the sequences of calls are unbounded.", "anchors": ["bindings/c/src/lib.rs", "bindings/csharp/csharp_code/Verkle.Bindings/RustVerkle.cs"]}
{"id": "C83", "title": "Soundness and completeness with SHA-256 digests reduced modulo r", "statement": "Let the hash be a random function from strings to 32 bytes and let challenges be the digests reduced modulo the order r of the scalar field, as challenge_scalar makes them. Then each challenge comes from at most 9 digests (9 cannot be improved, the challenges are not uniform), and the soundness of openings, trie proofs, updates, witnesses, accounts, states, chains, contradicting proofs and of the C interface hold for programs that see the digests, with 9 / 2^256 for 1 / r in the bounds; proofs made by the prover are accepted for all but a part of 2^-241 of the hashes. With at most 2^80 questions and 2^20 keys, a program with a success of more than 2^-90 reveals a relation between the generators or a break of the trie's commitments.", "quantifier": "every program that asks the hash at most N times, every history, key set, proof and claim; every hash outside of the strings that matter", "why_tests_cant": "The statements are about all programs and about shares of the set of all hash functions.", "anchors": ["ipa-multipoint/src/transcript.rs", "ipa-multipoint/src/multiproof.rs", "ipa-multipoint/src/ipa.rs", "verkle-trie/src/proof.rs", "bindings/c/src/lib.rs"]}
{"id": "C84", "title": "No prover finds contents of a trie and a proof that is wrong about them", "statement": "Let a program see SHA-256 digests (a random function to 32 bytes, reduced modulo r), ask for at most N, and put out the writes a trie is made of together with a proof, keys and values; the writes may depend on the digests. If, for more than the part 9 (N + 11) (513 + q + 2 (N + 11)) / 2^256 of the hashes, check accepts against the root of that trie something the trie does not contain, there are runs of the program in which it does so, from which a non-trivial relation between the generators, or vectors breaking the commitments of the trie of one of those runs, are computed. The same for an account of the state after writes put out by the program, and for verify_and_update. For one stem or account, with at most 2^80 questions and 2^20 keys, a part of 2^-90 is enough.", "quantifier": "every program that asks the hash at most N times, deterministic or tossing coins from a finite set, every dependence of the writes and the proof on the digests, every group and generators", "why_tests_cant": "The statement is about all programs, all contents they may choose and shares of the set of all hash functions.", "anchors": ["verkle-trie/src/proof.rs", "verkle-trie/src/proof/verifier.rs", "verkle-trie/src/proof/stateless_updater.rs", "verkle-trie/src/trie.rs", "ipa-multipoint/src/transcript.rs", "ipa-multipoint/src/multiproof.rs"]}
{"id": "C85", "title": "Honest proofs fail exactly where two equal halves of a stem are both asked for", "statement": "For every sequence of writes and every non-empty list of keys, the proof made by the prover is accepted with the values returned by get, and the stateless updater given that proof for distinct keys returns the root of the updated trie if the place of every written key is taken - unless both halves (suffixes below 128, and 128 and above) of one stem of the trie are asked for and hold the same values at corresponding places, in which case checking the proof panics; or else nodes of the trie explicitly break its commitments. The same block by block for a client that follows a chain of blocks. With the multiproof of the code over Bandersnatch and SHA-256 as a random function to 32 bytes, the proof is accepted for all hashes but a part of 2^-241. In the state of accounts the case cannot arise for header items (version, balance, nonce, code hash, code size, first 64 storage slots), and it does arise for main storage: a contract whose storage slots 256 t .. 256 t + 127 hold the same values as 256 t + 128 .. 256 t + 255, not all empty, when a slot of each is asked for.", "quantifier": "every sequence of writes, every non-empty list of keys in any order with repetitions, every list of new values, every iteration order of the hash sets, every state of accounts and list of items", "why_tests_cant": "Tests try a few tries; the statement says for which of all tries and requests the prover's own proof is refused, and the case found needs equal contents in two halves of a stem.", "anchors": ["verkle-trie/src/proof/prover.rs", "verkle-trie/src/proof/verifier.rs", "verkle-trie/src/proof.rs", "verkle-trie/src/proof/stateless_updater.rs", "verkle-spec/src/storage.rs", "verkle-spec/src/header.rs"]}
{"id": "C86", "title": "Nobody can choose a state for which the honest prover fails", "statement": "Let a program see SHA-256 digests (a random function to 32 bytes, reduced modulo r), ask for at most N, and put out true openings; the multiproof that open makes for them with the same hash is accepted by check for all hashes but the part 9 * 2^k (N + k + 5) / 2^256. If it puts out the writes of a trie and at most n keys, not asking for two equal halves of a stem, and the prover's proof is not made, written, read back and accepted with the values of the trie for more than the part 9 * 256 (N + 13) / 2^256 of the hashes, then the program has found a trie whose nodes break the commitments. The same for the stateless updater, with the places of written keys taken, and for items of accounts; and for chains of at most b blocks, with b times that part. The same part bounds the failures of the byte interface and of the C interface, in compressed and uncompressed form, for true openings in bytes chosen by the program. With at most 2^80 questions the part is below 2^-164.", "quantifier": "every program that asks the hash at most N times, deterministic or tossing coins from a finite set, every dependence of the writes, keys and values on the digests, every group and generators", "why_tests_cant": "The statement is about all programs choosing the inputs and shares of the set of all hash functions.", "anchors": ["verkle-trie/src/proof/prover.rs", "verkle-trie/src/proof/verifier.rs", "verkle-trie/src/proof.rs", "verkle-trie/src/proof/stateless_updater.rs", "ipa-multipoint/src/multiproof.rs", "ipa-multipoint/src/ipa.rs", "ipa-multipoint/src/transcript.rs", "ffi_interface/src/lib.rs: create_proof, verify_proof", "bindings/c/src/lib.rs: create_proof, verify_proof, create_proof_uncompressed, verify_proof_uncompressed"]}
{"id": "C87", "title": "Proofs in uncompressed form are as hard to forge as compressed ones", "statement": "A program that asks the random hash at most N times and whose output is accepted by verify_proof_uncompressed for more than a small part of the hashes reveals a relation between the generators or vectors with the claimed values at the claimed points. (The function reads points without checking that they are on the curve. For outputs whose points are points of the group the statement holds. In general it is false: for every commitment other than the neutral element and every point a program with k + 1 questions makes a proof that the value there is zero, for all but a part (3/5)^k of the hashes. Such a proof about the root is all that the verifier of a trie needs to take any key for absent. One such proof covers any list of claims with the value zero, so the absence of any list of keys, with 2k + 1 questions for all but a part of about (3/10)^k of the hashes.)", "quantifier": "every program that asks the hash at most N times, every commitment and point, every hash outside of the strings that matter; every implementation of the point operations meeting arkworks' contract", "why_tests_cant": "Tests use proofs made by the prover; a forgery uses points off the curve that depend on the challenges.", "anchors": ["bindings/c/src/lib.rs: verify_proof_uncompressed", "ipa-multipoint/src/multiproof.rs: from_bytes_unchecked_uncompressed", "ipa-multipoint/src/ipa.rs: from_bytes_unchecked_uncompressed, verify_multiexp", "banderwagon/src/element.rs: from_bytes_unchecked_uncompressed, eq, to_bytes, is_zero", "ipa-multipoint/src/transcript.rs: append_point"]}
{"id": "C88", "title": "Execution witnesses in JSON are read exactly, and what is written is read back", "statement": "verify_execution_witness reads its second argument as a record of strings exactly when it is a JSON text (RFC 8259) for that record: an object in which every field of the record occurs once, in any order and possibly among others, where the values of a suffix may be left out for null, or an array of the fields in order. It panics on every other text. What the derived Serialize writes for a record is such a text and is read as the same record, whatever characters the strings have. So the function accepts two strings exactly when the second is JSON for a record that states claims and a proof, the first spells a root, and the proof passes; for every proof of the trie's own prover (outside of the events of C20) there are strings that it accepts.", "quantifier": "every text, every record with any strings, every order of fields and further fields, every whitespace around; every trie and list of keys for the honest part", "why_tests_cant": "The tests read one text. That no other text is taken for a record, that escapes, orders of fields and left-out fields are read as meant, and that writing and reading agree for all strings are statements about infinitely many texts.", "anchors": ["verkle-trie/src/proof/golang_proof_format.rs: serde_conversions, from_json_str", "ffi_interface/src/lib.rs: verify_execution_witness"]}
{"id": "C89", "title": "The JSON of an honest execution witness is linear in the number of keys", "statement": "For every trie and every non-empty list of keys, the proof of the trie's own prover (outside of the events of C20) has a JSON text, as the derived Serialize writes it, of at most 1393 characters and 2488 for each key, which verify_execution_witness accepts, however large the trie is. More generally, any claims with depths below 32 have a text of at most 289 characters, 93 for each stem, 179 for each key, 67 for each foreign stem, 2 for each depth and 69 for each point. Texts that state claims are ASCII, so characters are bytes. There is no upper bound on accepted texts: to every accepted text and number there is an accepted text longer by that number.", "quantifier": "every trie, every list of keys, every claims; every accepted text and number for the last part", "why_tests_cant": "The tests contain one witness. A bound over all tries, depths of paths and numbers of keys is a statement about infinitely many texts.", "anchors": ["verkle-trie/src/proof/golang_proof_format.rs: serde_conversions", "verkle-trie/src/proof/prover.rs: create_verkle_proof", "ffi_interface/src/lib.rs: verify_execution_witness"]}
