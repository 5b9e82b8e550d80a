{"id": "C01", "title": "Conditional constraints are enforced exactly where their conditions hold", "statement": "A constraint added to the ConstraintBuilder inside any nesting of `condition` closures makes the circuit reject exactly those witnesses in which, on some row where the every-row selector and every enclosing condition are non-zero, the constrained expression is non-zero; on all other rows it imposes nothing, and it is independent of the other constraints added before, after or in sibling closures.", "quantifier": "all programs of builder calls (any nesting, any order), all expressions, all witnesses, all rows, every field", "why_tests_cant": "A MockProver run samples one witness of one circuit; the claim is about every witness and every nesting of conditions.", "anchors": ["src/constraint_builder.rs: ConstraintBuilder::{new,assert_zero,assert_equal,assert,assert_unreachable,condition,build}"]}
{"id": "C02", "title": "Conditional lookups match only enabled table rows", "statement": "A lookup added with `add_lookup` under conditions forces, on each row where the product of the selector and the conditions is non-zero, the looked-up tuple to appear on a row of the table whose own selector is enabled; on the remaining rows it is satisfied by a disabled table row holding zeros (row 0 of every table is one), so it imposes nothing there.", "quantifier": "all tuples, nestings of conditions, witnesses, rows", "why_tests_cant": "A disabled-row match is exactly the forged witness an honest test never generates.", "anchors": ["src/constraint_builder.rs: ConstraintBuilder::{add_lookup,every_row_selector,build}"]}
{"id": "C03", "title": "Poseidon lookups prove hash preimages", "statement": "A `poseidon_lookup(left,right,domain,hash)` that is active on a row forces the external Poseidon table to have an enabled, head-marked, control-0 row with exactly those four values; with a sound table this means hash = Poseidon(left,right;domain). It does so although it leaves out the selector, i.e. an inactive condition is satisfied by any all-zero table row.", "quantifier": "all witnesses, rows, nestings of conditions and all table contents", "why_tests_cant": "Needs every malicious table/witness pair.", "anchors": ["src/constraint_builder.rs: ConstraintBuilder::poseidon_lookup", "src/gadgets/poseidon.rs: PoseidonTable::load, PoseidonLookup"]}
{"id": "C04", "title": "Binary columns and BinaryQuery algebra are Boolean", "statement": "Every cell of a `BinaryColumn` on an enabled row is 0 or 1 in any accepted witness, and `and`, `or`, `!`, `select` on 0/1-valued queries compute Boolean conjunction, disjunction, negation and if-then-else.", "quantifier": "all witnesses, rows, 0/1 valued queries, every field", "why_tests_cant": "Universal over field elements and expressions.", "anchors": ["src/constraint_builder/binary_column.rs: BinaryColumn::configure", "src/constraint_builder/binary_query.rs: BinaryQuery::{and,or,not,select,condition}"]}
{"id": "C05", "title": "Query::from(Fr) denotes the field constant", "statement": "Converting any field element into a Query through its 64-bit little-endian limbs yields an expression that evaluates to that element on every row of every witness.", "quantifier": "all field elements, witnesses, rows", "why_tests_cant": "2^254 inputs.", "anchors": ["src/constraint_builder/query.rs: From<Fr> for Query, Query::two_to_the_64th"]}
{"id": "C06", "title": "IsZero gadget is exact", "statement": "On an enabled row of any accepted witness the IsZero gadget's output is 1 when the value is 0 and 0 otherwise, whatever the prover put in the inverse column; and the honest assignment of any value satisfies the gadget.", "quantifier": "all values, all prover-chosen inverses, all rows, every field", "why_tests_cant": "Soundness ranges over malicious inverse cells.", "anchors": ["src/gadgets/is_zero.rs: IsZeroGadget::{configure,current,previous,assign,assign_value_and_inverse}"]}
{"id": "C07", "title": "OneHot gadget encodes exactly one variant", "statement": "On every enabled row of any accepted witness a OneHot<T> represents exactly one variant of T: `current()` is that variant's index, `*_matches(values)` is 1 iff the variant is listed (values distinct) and 0 otherwise; an unassigned row represents the first variant, and assigning any variant is accepted and read back.", "quantifier": "all enums with fewer variants than the field characteristic, all witnesses, rows and (duplicate-free) value lists", "why_tests_cant": "Ranges over all prover assignments of the binary columns.", "anchors": ["src/gadgets/one_hot.rs: OneHot::{configure,assign,matches,current,previous,sum}"]}
{"id": "C08", "title": "Byte/bit table is exact", "statement": "With the fixed assignment, a triple (byte,index,bit) is in the byte-bit table iff byte<256, index<8 and bit is bit `index` of byte; the single-column range checks accept exactly 0..255 and 0..7. All of its rows fall on enabled rows when the circuit has at least the required number of rows.", "quantifier": "all field triples, all circuit sizes >= n_rows_required", "why_tests_cant": "Membership is over all field elements, and depends on the circuit's row count.", "anchors": ["src/gadgets/byte_bit.rs: ByteBitGadget::{assign,n_rows_required}, RangeCheck8Lookup, RangeCheck256Lookup, ByteBitLookup"]}
{"id": "C09", "title": "Byte-representation lookups are sound range checks and RLCs", "statement": "If (value,index) (or (value,index,rlc)) is found in the byte-representation table of an accepted witness, index<=30, then value is the integer of some index+1 bytes (so value < 256^(index+1)) and rlc is the random linear combination of the same big-endian bytes.", "quantifier": "all accepted witnesses of the full circuit as laid out by MptCircuitConfig::assign, all table rows, all challenges", "why_tests_cant": "Tests only run honest witnesses; unsound rows need a malicious prover.", "anchors": ["src/gadgets/byte_representation.rs: ByteRepresentationConfig::configure, RlcLookup, BytesLookup", "src/mpt.rs: MptCircuitConfig::assign (selector enabled on rows 1..n_rows)"]}
{"id": "C10", "title": "Byte-representation assignment provides every requested value", "statement": "For any lists of u32s, u64s, u128s and field elements below 2^248, `assign` yields an accepted witness in which every u32 appears with index 3, u64 with index 7, u128 with index 15 and field element with index 30, each with the RLC of its big-endian bytes, using exactly n_rows_required rows; a larger field element panics.", "quantifier": "all input lists, challenges and circuit sizes with enough rows", "why_tests_cant": "Inputs are unbounded lists of large integers.", "anchors": ["src/gadgets/byte_representation.rs: ByteRepresentationConfig::{assign,n_rows_required}, fr_to_big_endian"]}
{"id": "C11", "title": "Canonical representation is canonical", "statement": "If (value,index,byte) is found in the canonical-representation table of an accepted witness then index<32 and byte is byte `index` of the unique 32-byte big-endian representation of value that is smaller than the field modulus; if (value,rlc) is found through FrRlcLookup then rlc is the RLC of those 32 bytes (or both are 0).", "quantifier": "all accepted witnesses, all rows, all circuit sizes, all challenges", "why_tests_cant": "value + modulus also fits in 32 bytes for many values; only a malicious witness would show it, and the answer depends on the circuit's row count.", "anchors": ["src/gadgets/canonical_representation.rs: CanonicalRepresentationConfig::{configure,assign}, CanonicalRepresentationLookup, FrRlcLookup", "src/mpt.rs: MptCircuitConfig::assign"]}
{"id": "C12", "title": "Canonical representation assignment serves every value", "statement": "For any list of field elements that fits in n_rows/32 groups with one group to spare (what MptCircuitConfig::assign asserts), `assign` gives an accepted witness exposing all 32 canonical bytes and the RLC of each listed value, and the fixed columns depend on n_rows only.", "quantifier": "all value lists, challenges, circuit sizes", "why_tests_cant": "Unbounded lists of field elements.", "anchors": ["src/gadgets/canonical_representation.rs: CanonicalRepresentationConfig::{assign,n_rows_required}"]}
{"id": "C13", "title": "Key-bit lookups return the true bit", "statement": "If (value,index,bit) is found in the key-bit table of an accepted witness then index<256 and bit equals bit `index` of the canonical integer of value.", "quantifier": "all accepted witnesses, all rows, values, indices", "why_tests_cant": "Soundness against all prover-chosen helper columns.", "anchors": ["src/gadgets/key_bit.rs: KeyBitConfig::configure, KeyBitLookup"]}
{"id": "C14", "title": "Key-bit assignment serves every request", "statement": "For any list of correct (value,index,bit) requests with index<256 whose values are in the canonical-representation list, `assign`, given enough rows, yields an accepted witness that exposes every request.", "quantifier": "all request lists", "why_tests_cant": "Unbounded lists of 254-bit keys.", "anchors": ["src/gadgets/key_bit.rs: KeyBitConfig::{assign,assign_internal,n_rows_required}"]}
{"id": "C15", "title": "Parallel assignment is equivalent to serial assignment", "statement": "For every number of worker threads, the parallel assignment of MPT updates, padding, canonical representation and key bits fills the same table contents on enabled rows as the serial one: the same cells for updates and canonical representation, and the same set of exposed key-bit tuples.", "quantifier": "all thread counts, proof lists, key lists, circuit sizes that the serial path accepts", "why_tests_cant": "Thread count is a machine property; tests run on one.", "anchors": ["src/gadgets/key_bit.rs: KeyBitConfig::assign_par", "src/gadgets/canonical_representation.rs: CanonicalRepresentationConfig::assign_par", "src/gadgets/mpt_update.rs: MptUpdateConfig::assign_par", "src/mpt.rs: MptCircuitConfig::assign"]}
{"id": "C16", "title": "Word RLC gadget binds a hash, a word and its RLC", "statement": "Whenever the word gadget is active in an accepted witness with sound byte tables, there is a 256-bit word w whose 16-byte halves hash (Pair domain) to the hash cell and whose 32-byte big-endian RLC is the RLC cell.", "quantifier": "all accepted witnesses and challenges", "why_tests_cant": "Universal over witnesses.", "anchors": ["src/gadgets/mpt_update/word_rlc.rs: configure, assign", "src/util.rs: u256_hi_lo"]}
{"id": "C17", "title": "Update rows follow the segment and path automata", "statement": "In any accepted witness, starting at a Start row with a given proof type, the rows up to the next Start row are: Start, account-trie rows with depths 1,2,3,..., then (depending on proof type) account leaf rows 0..3, storage-trie rows with depths 1,2,..., storage leaf row; every row of the run has the same proof type, values and storage key, and path types go Common* then one kind of extension only.", "quantifier": "all accepted witnesses, all runs, unbounded trie depth", "why_tests_cant": "Runs are unbounded and adversarial.", "anchors": ["src/gadgets/mpt_update.rs: MptUpdateConfig::configure, configure_segment_transitions", "src/gadgets/mpt_update/segment.rs: transitions, domains", "src/gadgets/mpt_update/path.rs: forward_transitions"]}
{"id": "C18", "title": "Only Start rows expose claims; the last update is complete", "statement": "The 7-tuple exposed by `MptUpdateLookup` is all-zero on non-Start rows; the last enabled row is always a Start row exposing the padding claim (address 0 does not exist in the empty trie); hence every run that begins at an enabled Start row ends inside the enabled area. Row 0 and rows >= n_rows expose selector 0. (n_rows is at least 2.)", "quantifier": "all accepted witnesses and circuit sizes", "why_tests_cant": "Universal over malicious witnesses.", "anchors": ["src/gadgets/mpt_update.rs: MptUpdateLookup::lookup", "src/mpt.rs: MptCircuitConfig::{configure,lookup_exprs}"]}
{"id": "C19", "title": "Exposed addresses and roots are the ones proven", "statement": "On a Start row the exposed address is the 20-byte address whose Pair hash of (high 16 bytes, low 4 bytes << 96) is the key that the run's path follows, and the exposed root RLCs are the RLCs of the canonical bytes of the old and new roots at which the path starts.", "quantifier": "all accepted witnesses with sound lookup tables (C09, C11, C13), all challenges", "why_tests_cant": "Universal over witnesses; needs the injectivity of the address split.", "anchors": ["src/gadgets/mpt_update.rs: MptUpdateConfig::configure (is_start block), lookup", "src/util.rs: account_key"]}
{"id": "C20", "title": "NonceChanged claims are openings of both roots", "statement": "An accepted NonceChanged claim (address, old, new, old_root, new_root) implies: either both roots are equal, both values 0 and the address's path in the root ends in an empty node or in a leaf with another key; or there is one path following the bits of the address key that opens old_root to a leaf whose account fields have 8-byte nonce old and opens new_root to a leaf with the same leaf key and identical fields except nonce = new; or the account is newly inserted with nonce new, every other field 0, and old = 0.", "quantifier": "all accepted witnesses with sound lookup tables (C09, C11, C13), unbounded depth, all challenges", "why_tests_cant": "Soundness quantifies over every malicious witness; a test shows one honest witness passes.", "anchors": ["src/gadgets/mpt_update.rs: configure_nonce, configure_common_path, configure_extension_new"]}
{"id": "C21", "title": "BalanceChanged claims are openings of both roots", "statement": "Same as the nonce claim for the balance field: exposed values are RLCs of the (at most 31-byte) balances stored in the old and new account leaf, all other fields are unchanged, and a new account has all other fields 0.", "quantifier": "all accepted witnesses with sound lookup tables (C09, C11, C13), unbounded depth, all challenges", "why_tests_cant": "Soundness over malicious witnesses.", "anchors": ["src/gadgets/mpt_update.rs: configure_balance"]}
{"id": "C22", "title": "CodeSizeExists claims are openings of both roots", "statement": "Same as the nonce claim for code size; accounts cannot be created or deleted by such a claim and the nonce is unchanged.", "quantifier": "all accepted witnesses with sound lookup tables (C09, C11, C13), unbounded depth", "why_tests_cant": "Soundness over malicious witnesses.", "anchors": ["src/gadgets/mpt_update.rs: configure_code_size"]}
{"id": "C23", "title": "CodeHashExists claims are openings of both roots", "statement": "The exposed values are RLCs of 256-bit words whose halves hash to the keccak-code-hash field of the old and new account leaf; all other fields unchanged; for an empty account both values are 0 and the root is unchanged.", "quantifier": "all accepted witnesses with sound lookup tables (C09, C11, C13), unbounded depth, all challenges", "why_tests_cant": "Soundness over malicious witnesses.", "anchors": ["src/gadgets/mpt_update.rs: configure_keccak_code_hash"]}
{"id": "C24", "title": "PoseidonCodeHashExists claims are openings of both roots", "statement": "The exposed values are the Poseidon code-hash fields of the old and new account leaf reached from old_root and new_root; all other fields unchanged; the claim is never accepted for an account with an empty path.", "quantifier": "all accepted witnesses with sound lookup tables (C09, C11, C13), unbounded depth", "why_tests_cant": "Soundness over malicious witnesses.", "anchors": ["src/gadgets/mpt_update.rs: configure_poseidon_code_hash"]}
{"id": "C25", "title": "StorageChanged claims on existing slots are openings of both roots", "statement": "When the slot exists before and after, the exposed values are RLCs of 256-bit words stored in the leaf reached by the storage key's bits in the old and new storage tries of the account reached by the address key's bits in old_root and new_root; every other account field is unchanged; neither word is zero.", "quantifier": "all accepted witnesses with sound lookup tables (C09, C11, C13), unbounded depths, all challenges", "why_tests_cant": "Soundness over malicious witnesses.", "anchors": ["src/gadgets/mpt_update.rs: configure_storage, configure_common_path"]}
{"id": "C26", "title": "Storage insertions and deletions bind the exposed value", "statement": "When a StorageChanged claim inserts (deletes) a slot, the exposed new (old) value is the RLC of the word stored in the inserted (deleted) leaf and the other value is 0.", "quantifier": "all accepted witnesses with sound lookup tables (C09, C11, C13), unbounded depths, all challenges", "why_tests_cant": "A honest prover always fills the right value; the property is about every other witness.", "anchors": ["src/gadgets/mpt_update.rs: configure_storage (StorageLeaf0), configure_extension_old, configure_extension_new"]}
{"id": "C27", "title": "AccountDoesNotExist claims imply absence", "statement": "An accepted AccountDoesNotExist claim has both values 0 and equal roots, and the path of the address key in that root ends in an empty node or in a leaf of a different key; hence no valid trie with that root (no hash collisions) contains the address.", "quantifier": "all accepted witnesses with sound lookup tables (C09, C11, C13), all tries with that root, unbounded depth", "why_tests_cant": "Soundness over malicious witnesses and all tries.", "anchors": ["src/gadgets/mpt_update.rs: configure_empty_account", "src/gadgets/mpt_update/nonexistence_proof.rs: configure"]}
{"id": "C28", "title": "StorageDoesNotExist claims imply absence", "statement": "An accepted StorageDoesNotExist claim has both values 0 and equal roots and either the account is absent, or the storage key's path in the reached account's storage trie ends in an empty node or a leaf with a different key.", "quantifier": "all accepted witnesses with sound lookup tables (C09, C11, C13), unbounded depths, challenges", "why_tests_cant": "Soundness over malicious witnesses.", "anchors": ["src/gadgets/mpt_update.rs: configure_empty_storage", "src/gadgets/mpt_update/nonexistence_proof.rs: configure"]}
{"id": "C29", "title": "Read-only claims do not move the root", "statement": "An accepted claim of a non-existence type, or any claim proven on an empty path, has old_root = new_root; no accepted claim has type AccountDestructed.", "quantifier": "all accepted witnesses with sound lookup tables (C09, C11, C13)", "why_tests_cant": "Universal over witnesses.", "anchors": ["src/gadgets/mpt_update.rs: configure_empty_account, configure_empty_storage, assert_unreachable"]}
{"id": "C30", "title": "Exposed values agree with the trie's content", "statement": "If t is any trie whose hash is the exposed old root, no hash collision occurs among the hashes involved, and the address's account is in t, then the exposed old value is the value t stores for it (and likewise for the new root).", "quantifier": "all tries, all accepted witnesses with sound lookup tables (C09, C11, C13), all hash functions without the stated collisions", "why_tests_cant": "Needs a universally quantified trie and witness.", "anchors": ["src/gadgets/mpt_update.rs: configure_common_path", "src/mpt.rs"]}
{"id": "C31", "title": "The proven leaf belongs to the claimed key", "statement": "The account (storage) leaf opened by an accepted claim has the claimed address key (storage key) as its key, so a claim about an absent account or slot can only be accepted as an absence claim.", "quantifier": "all accepted witnesses with sound lookup tables (C09, C11, C13)", "why_tests_cant": "Only a malicious witness can put a foreign leaf there.", "anchors": ["src/gadgets/mpt_update.rs: configure_common_path, configure_nonce, configure_storage (AccountLeaf0/StorageLeaf0 rows)"]}
{"id": "C32", "title": "Updates leave all other keys alone", "statement": "If an accepted update on an existing leaf takes a trie t with the old root to the new root, then the new root is the hash of t with only the leaf at the walked position replaced, so every other key keeps its value; insertions keep every key except the inserted one.", "quantifier": "all tries, accepted witnesses with sound lookup tables (C09, C11, C13), keys", "why_tests_cant": "Frame property over all keys.", "anchors": ["src/gadgets/mpt_update.rs: configure_common_path, configure_extension_new, configure_extension_old"]}
{"id": "C33", "title": "n_rows_required is sufficient", "statement": "For every list of proofs, MptCircuitConfig::assign with n_rows = n_rows_required(proofs) does not panic for lack of rows, in serial and parallel mode.", "quantifier": "all proof lists", "why_tests_cant": "Depends on which table dominates, a function of unbounded input.", "anchors": ["src/mpt.rs: MptCircuitConfig::{n_rows_required,assign}", "src/gadgets/*: n_rows_required"]}
{"id": "C34", "title": "Proof::n_rows is the number of rows assigned", "statement": "For every proof, assign_single_proof writes only to the n_rows() rows starting at its offset, so consecutive proofs never overlap and the offsets add up to MptUpdateConfig::n_rows_required.", "quantifier": "all proofs (all claim kinds, path lengths, storage shapes)", "why_tests_cant": "Unbounded path lengths and all shapes.", "anchors": ["src/types.rs: Proof::n_rows", "src/types/storage.rs: StorageProof::n_rows", "src/gadgets/mpt_update.rs: assign_single_proof, assign_storage"]}
{"id": "C35", "title": "Completeness: honest updates are accepted", "statement": "For every well-formed proof list (paths consistent with the keys, correct hashes) and every number of rows that is at least n_rows_required and passes the assertion on the number of keys (finding B7), the assignment produced by the circuit satisfies all of its constraints and lookups, padding rows included.", "quantifier": "all well-formed proofs, unbounded depth, all challenges, all sufficient n_rows", "why_tests_cant": "Tests check a few traces; this is for every trace.", "anchors": ["src/gadgets/mpt_update.rs: assign_single_proof, assign_trie_rows, assign_storage, assign_padding_row", "src/mpt.rs: MptCircuitConfig::assign"]}
{"id": "C36", "title": "Hash requests cover the circuit's needs", "statement": "`hash_traces(proofs)` only contains correct Poseidon triples, is sorted without duplicates, starts from the padding triple, and contains every hash that the rows assigned for those proofs look up.", "quantifier": "all well-formed proof lists", "why_tests_cant": "Unbounded inputs.", "anchors": ["src/gadgets/mpt_update.rs: hash_traces", "src/types/trie.rs: TrieRows::poseidon_lookups", "src/types/storage.rs: poseidon_lookups"]}
{"id": "C37", "title": "Key and byte requests cover the circuit's needs", "statement": "`key_bit_lookups`, `mpt_update_keys` and `byte_representations` are sorted without duplicates, their bits are correct, and they contain every key bit, key, root, address part, nonce, code size, balance, word half the assigned rows look up; every key whose bit is requested is in the key list.", "quantifier": "all well-formed proof lists", "why_tests_cant": "Unbounded inputs.", "anchors": ["src/gadgets/mpt_update.rs: key_bit_lookups, mpt_update_keys, byte_representations"]}
{"id": "C38", "title": "Trie rows recombine to the roots", "statement": "For every key and every pair of node paths accepted by TrieRows::new, there is one row per level of the longer path, the rows' directions are the key's bits, common rows come first and extension rows keep the other side's hash; if every node's value is the hash of its children and the node types tell the truth about the child on the path, then hashing the rows upward from the leaf reproduces old_root and new_root; every two such paths that agree on their common siblings are accepted.", "quantifier": "all keys, node lists of any lengths", "why_tests_cant": "Unbounded path lengths.", "anchors": ["src/types/trie.rs: TrieRows::{new,old_root,new_root}, TrieRow::{old_hash,new_hash,hash_domains}"]}
{"id": "C39", "title": "Branch-domain transitions are consistent everywhere", "statement": "next_domain, get_domains, check_domain_consistency and the circuit's Lagrange-interpolated new_domain agree: inserting under a Branch0/1/2 node in direction d gives the same domain in next_domain, get_domains and the circuit; Branch3 and non-branch domains are rejected by all (the circuit additionally maps AccountFields to itself); check_domain_consistency accepts exactly the next_domain transitions whose child in direction d was not a branch before; u64 <-> HashDomain conversion round-trips on node types.", "quantifier": "all domains, directions, field elements in the domain cell", "why_tests_cant": "The circuit side ranges over field elements.", "anchors": ["src/types/trie.rs: next_domain, get_domains", "src/util.rs: check_domain_consistency, lagrange_polynomial", "src/types.rs: HashDomain conversions", "src/gadgets/mpt_update.rs: configure_common_path"]}
{"id": "C40", "title": "lagrange_polynomial interpolates", "statement": "For any list of at least two points with distinct x coordinates, the query built by lagrange_polynomial evaluates to y_i whenever its argument evaluates to x_i.", "quantifier": "all point lists, arguments, witnesses", "why_tests_cant": "All point lists.", "anchors": ["src/util.rs: lagrange_polynomial"]}
{"id": "C41", "title": "Claims are extracted faithfully from traces", "statement": "For every trace and proof type accepted by Claim::from, the claim's roots, address, kind and old/new values are those of the trace, the kind's proof type is the requested one, zero storage values map to None, both-zero storage updates become IsEmpty, and all unsupported combinations (deleted accounts, AccountDestructed, half-missing updates) are rejected.", "quantifier": "all traces and proof types", "why_tests_cant": "All trace shapes.", "anchors": ["src/types.rs: From<(&MPTProofType,&SMTTrace)> for Claim/ClaimKind", "src/mpt_table.rs: From<ClaimKind>"]}
{"id": "C42", "title": "Account leaf hashing commits to every field", "statement": "account_hash_traces computes the six hashes of an account leaf, each row is a correct hash triple, the chain ends in the leaf hash, and (absent hash collisions, values in range) equal leaf hashes imply equal key, nonce, code size, balance, code hash, Poseidon code hash and storage root.", "quantifier": "all accounts and addresses, all collision-free hashes", "why_tests_cant": "All accounts.", "anchors": ["src/types.rs: account_hash_traces, empty_account_hash_traces, hi_lo, big_uint_to_fr"]}
{"id": "C43", "title": "HexBytes text encoding round-trips", "statement": "Serialising a HexBytes<LEN> gives 0x followed by 2*LEN lower-case hex digits and parsing that text (with or without 0x, any letter case) returns the same bytes; any text of another length or with a non-hex digit is rejected; cast truncates or zero-extends.", "quantifier": "all byte arrays of any length, all strings", "why_tests_cant": "All strings.", "anchors": ["src/serde.rs: HexBytes::{hex,cast}, TryFrom<&str>, Serialize, Deserialize"]}
{"id": "C44", "title": "BigUint hex encoding round-trips", "statement": "Parsing the output of se_uint_hex or se_uint_hex_fixed32 with de_uint_hex gives back the number, with or without 0x, the bare prefix 0x parses as 0, and the fixed encoding has exactly 64 digits iff the number is below 2^256.", "quantifier": "all natural numbers, all strings", "why_tests_cant": "All naturals.", "anchors": ["src/serde.rs: de_uint_hex, se_uint_hex, se_uint_hex_fixed32, de_uint_bin"]}
{"id": "C45", "title": "256-bit word splitting is consistent", "statement": "u256_hi_lo (by limbs), split_word (by bytes) and hi_lo (from BigUint) give the same halves, hi*2^128+lo is the word, and rlc(32 bytes) = rlc(hi bytes)*r^16 + rlc(lo bytes).", "quantifier": "all 256-bit words, all challenges", "why_tests_cant": "2^256 words.", "anchors": ["src/util.rs: u256_hi_lo, split_word, rlc, u256_to_big_endian", "src/types.rs: hi_lo"]}
{"id": "C46", "title": "Big integers map to field elements by reduction", "statement": "fr_from_biguint and big_uint_to_fr map n to n mod the field modulus for every n, so they are injective exactly below the modulus; Fr::bit(i) is bit i of the canonical integer for i<256, and beyond that it panics when built with overflow checks and is false otherwise.", "quantifier": "all natural numbers, field elements, indices", "why_tests_cant": "All naturals.", "anchors": ["src/util.rs: fr_from_biguint, Bit for Fr, fr", "src/types.rs: big_uint_to_fr, Bit for Fr"]}
{"id": "C47", "title": "RLC identifies byte strings", "statement": "rlc is determined by the bytes, and two different byte strings of the same length n have equal RLC for at most n-1 challenges, so exposed RLC values and roots identify their byte strings except with probability (n-1)/|F|.", "quantifier": "all byte strings of equal length, all challenges", "why_tests_cant": "Counts over the whole field.", "anchors": ["src/util.rs: rlc", "src/gadgets/mpt_update.rs: lookup"]}
{"id": "C48", "title": "Address key derivation is consistent", "statement": "account_key(address), the circuit's Start-row key lookup and hash_traces use the same preimage (high 16 bytes, low 4 bytes * 2^96), distinct addresses give distinct preimages, and address_high*2^32+address_low is the 160-bit address.", "quantifier": "all addresses", "why_tests_cant": "2^160 addresses.", "anchors": ["src/util.rs: account_key", "src/gadgets/mpt_update.rs: address_high, address_low, hash_traces, configure"]}
{"id": "C49", "title": "Row grouping loses nothing", "statement": "fold_flattern_rows splits a row list into groups whose concatenation is the input, every group is non-empty, exactly the first row of each group except possibly the first group is marked is_first, and no other row in a group is marked.", "quantifier": "all row lists", "why_tests_cant": "All lists.", "anchors": ["src/serde.rs: Row::fold_flattern_rows"]}
{"id": "C50", "title": "Fixed columns do not depend on the witness", "statement": "The selector, final-row marker, byte-bit table and canonical-representation fixed columns written by assign depend only on n_rows, so one verifying key serves all proof lists of a given size.", "quantifier": "all pairs of proof lists, thread counts, serial/parallel mode", "why_tests_cant": "All pairs of inputs.", "anchors": ["src/mpt.rs: MptCircuitConfig::assign", "src/gadgets/canonical_representation.rs: assign, assign_par", "src/gadgets/byte_bit.rs: assign"]}
{"id": "C51", "title": "Assigned circuits expose exactly the claims of their proofs", "statement": "When MptCircuitConfig::assign (serial or parallel, any thread count) succeeds for a list of proofs, every claim of the list can be found in the MPT table by the tuple (address, storage key RLC, proof type, new root RLC, old root RLC, new value, old value) that lookup users build from it, and no enabled row of the table exposes anything else than these tuples, the all-zero tuple, or the AccountDoesNotExist padding claim with zero roots.", "quantifier": "all lists of parsed proofs with 20-byte addresses, all row counts for which assignment succeeds, all challenges, all thread counts", "why_tests_cant": "A statement about every row of every assignment of every proof list.", "anchors": ["src/mpt.rs: MptCircuitConfig::assign", "src/gadgets/mpt_update.rs: assign, assign_par, assign_padding_row, MptTable"]}
{"id": "C52", "title": "A state database can be driven through the circuit", "statement": "Starting from any consistent world state (accounts with nonce, balance, code size, code hash, Poseidon code hash and storage, committed by zktries) and performing any sequence of possible reads and writes, the traces of the operations parse, assign for every sufficiently large n_rows, the circuit accepts, and each operation can be looked up in the MPT table with the roots and values of the states before and after it.", "quantifier": "all consistent states, all operation sequences, all hash functions without collisions on the states involved, all challenges and row counts, serial and parallel", "why_tests_cant": "All histories of all states.", "anchors": ["src/types.rs: Proof::from, Claim::from", "src/mpt.rs: MptCircuitConfig::assign, configure", "src/gadgets/mpt_update.rs: assign, configure"]}
{"id": "C53", "title": "Accepted claims about a known state are operations on it", "statement": "If an accepted circuit (with sound lookup tables) exposes a claim whose old root is the root of a consistent world state, then the claim is an operation of that state: the state has (or has not) the claimed account, slot and old value, and the new root is the root of the state after exactly the claimed read or write. In particular an accepted AccountDoesNotExist claim is true. The code guarantees this for claims about existing accounts (and, for StorageChanged, existing slots and non-zero new values) and for AccountDoesNotExist; for other claims it is false (see C26, C31, C32).", "quantifier": "all accepted witnesses, all consistent states, all addresses and slots, all claim types, all hash functions and challenges without a collision between the Poseidon table and the hash inputs of the state", "why_tests_cant": "It quantifies over every witness a malicious prover may supply and over every state of any size.", "anchors": ["src/gadgets/mpt_update.rs: configure, configure_nonce .. configure_empty_storage, MptTable", "src/mpt.rs: configure"]}
{"id": "C54", "title": "Chains of accepted claims are histories", "statement": "If claims exposed by an accepted circuit form a chain (each starts with the root the previous one ended with) that begins at the root of a consistent state, then there is a sequence of reads and writes that can be performed from this state one after the other, each described by its claim, and the last root is the root of the final state (under the conditions of C53 for each claim).", "quantifier": "all accepted witnesses, all chains of any length, all start states", "why_tests_cant": "All histories of any length, all witnesses.", "anchors": ["src/gadgets/mpt_update.rs: configure, MptTable", "src/mpt.rs: lookup_exprs"]}
{"id": "C55", "title": "Claims that are not about storage carry storage key 0", "statement": "The storage-key column that a lookup of the MPT table sees is the RLC of a 256-bit word: that of the slot for storage claims, and 0 for claims about accounts. (Assigned witnesses have this property; the circuit enforces it only for storage claims with existing accounts. A prover can put any value there for account claims.)", "quantifier": "all accepted witnesses, all claims", "why_tests_cant": "Honest assignments always satisfy it; only a malicious witness does not.", "anchors": ["src/gadgets/mpt_update.rs: storage_key_rlc, configure, assign", "src/mpt_table.rs: MPTProofType"]}
{"id": "C56", "title": "Claims are sound without assumptions on the lookup tables", "statement": "No witness accepted by the circuit, whatever it puts into the byte, key-bit and canonical-representation tables, exposes a claim that contradicts the tries with the exposed roots; in particular the nonce of an account cannot be claimed to be anything but the stored one. (The code guarantees this when n_rows is not a multiple of 32, the first row of the byte table has index 0 and the rows after the last complete group of the canonical table hold the leading bytes of their values or no path is longer than 248 levels, which the circuit fails to enforce; in general it is false: one forged byte-table entry lets a prover claim any nonce.)", "quantifier": "all accepted witnesses, all circuit sizes, all tries, accounts and claimed values", "why_tests_cant": "tests only run the circuit's own assignment; soundness is about every witness a malicious prover can choose", "anchors": ["src/gadgets/byte_representation.rs: configure", "src/gadgets/canonical_representation.rs: configure", "src/gadgets/mpt_update.rs: configure_nonce"]}
{"id": "C57", "title": "A circuit built from honest traces is satisfied", "statement": "Building the test circuit from any list of honest traces, with at least the required number of rows (n_rows_required, and the assertion on the number of keys, finding B7), synthesizes without a panic and satisfies all constraints, serially and in parallel, including the hash table it loads itself; loading the table panics exactly when a reported triple is not a true hash, which happens for traces that parse but have a wrong state_key.", "quantifier": "all lists of honest traces, all numbers of rows, usable rows and threads, all challenges", "why_tests_cant": "The tests run a few traces with one size.", "anchors": ["src/circuit.rs: TestCircuit", "src/gadgets/poseidon.rs: PoseidonTable::load", "src/gadgets/mpt_update.rs: hash_traces"]}
{"id": "C58", "title": "The verifying key does not depend on the witness", "statement": "Two circuits with the same number of rows have the same fixed columns, whatever updates they contain and whether they are assigned serially or in parallel. (True of the MPT circuit; for the test circuit with its hash table it holds exactly when both need at most 200 hashes or the same number of them.)", "quantifier": "all pairs of witnesses", "why_tests_cant": "verifying_key_constant compares one pair; all pairs are needed for one key to serve all proofs.", "anchors": ["src/gadgets/poseidon.rs: MAX_POSEIDON_ROWS, load", "src/circuit.rs: TestCircuit::synthesize", "src/tests.rs: verifying_key_constant"]}
{"id": "C59", "title": "Traces survive JSON", "statement": "Writing any SMTTrace, or list of (MPTProofType, SMTTrace) updates, with serde_json (compact or indented) and reading it gives the same value with all fields; a JSON value is read as a trace exactly when it denotes it in the documented format (mandatory fields once, no field twice also under its alias, defaults for the others, hex strings of the right length); the order of object members and unknown members have no influence; Row::from_lines reads one row per line and an empty file is an error.", "quantifier": "all traces, all JSON values, all texts of rows", "why_tests_cant": "the tests compare a few files; the property is about every trace and every JSON input", "anchors": ["src/serde.rs: SMTTrace, SMTPath, SMTNode, AccountData, StateData, Row, Row::from_lines, HashType, de_uint_hex, se_uint_hex", "src/mpt_table.rs: MPTProofType"]}
{"id": "C60", "title": "First-phase columns do not depend on the challenge", "statement": "Whatever the challenge, `MptCircuitConfig::assign` writes the same values into all fixed columns and all first-phase advice columns, and panics for the same inputs, serially and in parallel: only the columns allocated by `second_phase_advice_columns` depend on it. So for the traces of any operations on a state there is one first phase that can be completed, for every challenge, to an accepted witness exposing all the operations.", "quantifier": "all pairs of challenges, all proof lists, all numbers of rows and threads", "why_tests_cant": "A value of a first-phase column that depended on the challenge is only noticed by a real two-phase prover; MockProver tests run one fixed challenge.", "anchors": ["src/constraint_builder.rs: ConstraintBuilder::{advice_columns,second_phase_advice_columns}", "src/gadgets/mpt_update.rs: MptUpdateConfig::{configure,assign}", "src/gadgets/byte_representation.rs: ByteRepresentationConfig::assign", "src/gadgets/canonical_representation.rs: CanonicalRepresentationConfig::assign", "src/gadgets/rlc_randomness.rs"]}
{"id": "C61", "title": "A false claim is provable for a negligible part of the challenges", "statement": "Fix the first-phase columns and a claim in exact terms (address, slot, roots, values as words, not RLCs) that starts with the root of a known state and is false of it. Then for all but 31 * (3U+6 choose 2) challenges, U the number of usable rows, no second-phase columns give an accepted witness from which the claim can be looked up.", "quantifier": "all first phases, all false claims, all states, all completions", "why_tests_cant": "A statement about all provers that commit before the challenge is drawn; it counts challenges.", "anchors": ["src/mpt.rs: MptCircuitConfig::{configure,lookup_exprs}", "src/gadgets/rlc_randomness.rs: RlcRandomness", "src/gadgets/mpt_update.rs: MptUpdateLookup", "src/gadgets/mpt_update/word_rlc.rs"]}
{"id": "C62", "title": "A false history is provable for a negligible part of the challenges", "statement": "Fix the first-phase columns and k claims in exact terms, each starting with the root the previous one ended with and the first one with that of a known state. If the claims are not a history of the state (operations performed one after the other, with the claimed values and roots), then for all but 31 * (3U+5k+1 choose 2) challenges they cannot all be looked up in an accepted completion.", "quantifier": "all first phases, all lists of claims of any length, all states, all completions", "why_tests_cant": "Histories of any length and all provers.", "anchors": ["src/mpt.rs: MptCircuitConfig::{configure,lookup_exprs}", "src/gadgets/rlc_randomness.rs: RlcRandomness", "src/gadgets/mpt_update.rs: MptUpdateLookup"]}
{"id": "C63", "title": "The listed gaps are the only ways to prove a false claim", "statement": "Take an accepted witness with sound tables whose update rows also satisfy the nine listed conditions that the circuit does not enforce (leaf key equals path key; a root leaf is inserted into an empty trie only; the levels of an insertion end where the two keys differ and have the domains that follow; a storage write does not create the account; the values of created and deleted slots are those in the leaf; an insertion ends with a leaf, which is not empty; after a deletion no node is left with a single leaf). Then every claim that can be looked up in it and starts with the root of a known consistent state is an operation on that state with exactly the claimed values and new root, and chains of claims are histories. So an accepted witness that exposes a false claim violates one of the nine.", "quantifier": "all accepted witnesses, all claims of all types, all consistent states, chains of any length", "why_tests_cant": "A statement about all witnesses a malicious prover could choose.", "anchors": ["src/gadgets/mpt_update.rs: MptUpdateConfig::configure and all configure_*", "src/mpt.rs: MptCircuitConfig::lookup_exprs", "src/mpt_table.rs: MPTProofType"]}
{"id": "C64", "title": "With the gaps closed a false history is provable for a negligible part of the challenges", "statement": "Fix the first-phase columns and k claims in exact terms, each starting with the root the previous one ended with and the first one with that of a known state. The claims may be of any type, including creation of accounts and slots, deletions and reads of what is absent. If they are not a history of the state, then for all but 31 * (3U+5k+1 choose 2) challenges they cannot all be looked up in an accepted completion that satisfies the conditions of C63.", "quantifier": "all first phases, all lists of claims, all states, all completions", "why_tests_cant": "All provers that commit before the challenge is drawn, histories of any length; it counts challenges.", "anchors": ["src/mpt.rs: MptCircuitConfig::{configure,lookup_exprs}", "src/gadgets/rlc_randomness.rs: RlcRandomness", "src/gadgets/mpt_update.rs: MptUpdateLookup"]}
{"id": "C65", "title": "Closing the gaps would reject no honest prover", "statement": "Perform any operations on any consistent state. The circuit that is assigned for the traces of these operations, serially or with any number of threads, satisfies the conditions of C63, in addition to being accepted and exposing all the operations.", "quantifier": "all consistent states, all lists of operations, all challenges, all sufficient numbers of rows, all numbers of threads", "why_tests_cant": "All histories of a state; and the conditions are not in the code, so no test evaluates them.", "anchors": ["src/gadgets/mpt_update.rs: MptUpdateConfig::{assign,assign_par}", "src/types.rs: impl From<(MPTProofType, SMTTrace)> for Proof", "src/types/trie.rs: TrieRows::new", "src/types/storage.rs: impl From<&SMTTrace> for StorageProof"]}
{"id": "C66", "title": "Every missing constraint is needed: each one alone lets a false claim be proved", "statement": "Take the conditions of C63 apart into fifteen. For each one there is a state, a hash function without collisions on everything hashed, and a witness that the circuit accepts, that satisfies the fourteen others, and that exposes a claim starting with the root of the state which no operation on the state makes true. So no condition follows from the circuit and the others, and adding all but one of them to the circuit would leave it unsound.", "quantifier": "each of the fifteen conditions; for each, all operations on the state and all resulting states", "why_tests_cant": "An accepted wrong proof has to be shown false against every operation and every lift of the claimed words modulo the field order; the conditions are not in the code.", "anchors": ["src/gadgets/mpt_update.rs: MptUpdateConfig::configure, configure_common_path, configure_extension_old, configure_extension_new, configure_nonce, configure_balance, configure_storage"]}
{"id": "C67", "title": "The self-check of a parsed proof accepts the honest proofs and rejects wrong paths", "statement": "A proof parsed from an honest trace passes Proof::check, and a parsed proof that passes it carries, for each of the two states, a Merkle path from the claimed root along the bits of the account key to the leaf that holds the account of the claim (or to an empty place or another account's leaf), and inside the account from its storage root to the slot. Both halves are false as stated: the check panics on honest proofs whose account path is empty or forks at the top level, and it does not compare the leaf of the shorter path with that path. Proved: completeness when the account path is long enough; that exactly these proofs pass unless the hash function has a coincidence at the top node; soundness for the longer of the two account paths (both if equally long) and for both storage paths; and both negations.", "quantifier": "all traces of all claim types, any path lengths, any hash function", "why_tests_cant": "Acceptance and rejection quantify over all traces; tests check a handful of recorded traces.", "anchors": ["src/types.rs: Proof::check, Proof::from, check_hash_traces_new, get_internal_hash_traces", "src/types/storage.rs: StorageProof::check", "src/types/trie.rs: TrieRows::check"]}
{"id": "C68", "title": "The trace reader accepts exactly the JSON texts", "statement": "The first stage of reading a trace file, the JSON reader, accepts a text exactly when it is a JSON text in the grammar of RFC 8259 (one value with white space around it and nothing else), and yields the value that the text denotes: the same integer, the string as written, the elements and members in order. In particular the value of a text is unique, and malformed texts (leading zeros, trailing commas, unterminated or control characters in strings, unknown escapes, two values) are errors. The 128-level nesting limit of serde_json is not part of the statement.", "quantifier": "all byte sequences and all JSON values, of any length and nesting", "why_tests_cant": "Quantifies over all texts; tests read a handful of recorded files.", "anchors": ["src/serde.rs: SMTTrace, deserialize of traces", "src/types.rs: serde_json::from_str in tests"]}
{"id": "C69", "title": "Capacity: how many updates fit into a circuit", "statement": "The lookup requests of a batch of updates (hashes, key bits, byte strings, keys) do not depend on the order of the updates or on how often one occurs, and the announced number of rows does not depend on the order. Joining two batches needs at least the rows of each and at most the sum. The announced number of rows of N updates whose paths have at most D levels is at most 2050 + max(224, 5D+6)*N. A circuit with at least 2049 rows, 96 + 224*N rows and 3 + (5D+6)*N rows, and one more usable row, takes every batch of N honest updates with paths of at most D levels: building and assigning it does not panic, serially and with any number of threads, and every constraint holds. 2049 + 1286*N rows suffice whatever the depth.", "quantifier": "all batches of proofs (order, requests); all batches of traces that parse (bound); all batches of honest traces of any length and depth, all challenges, all numbers of rows and threads (capacity)", "why_tests_cant": "Quantifies over all batches and all sizes of circuits; tests assign a few recorded updates with one size.", "anchors": ["src/mpt.rs: n_rows_required, assign", "src/gadgets/mpt_update.rs: hash_traces, key_bit_lookups, byte_representations, mpt_update_keys, n_rows_required", "src/tests.rs: TestCircuit", "src/types.rs: Proof::n_rows"]}
{"id": "C70", "title": "Only a nonce or a balance creates an account, and nothing deletes one", "statement": "If a batch of traces is parsed and the circuit is assigned, then in every trace the account is absent before and after, or present before and after, or absent before and created by a NonceChanged claim with a non-zero nonce, or by a BalanceChanged claim with nonce zero and a non-zero balance. No claim deletes an account; no storage, code-hash, code-size or Poseidon-code-hash claim creates one. The parser alone does not ensure this: it accepts a storage write that creates a default account, but then the assignment panics for every challenge and every number of rows (assuming only that the hash of the zero word is not 0). (The constraints themselves do allow a storage write to create the account, finding B6.)", "quantifier": "all batches of (proof type, trace), all challenges, all numbers of rows, all hash functions with H(0,0) != 0", "why_tests_cant": "No test has a trace of a storage write to a new account; the statement ranges over all traces.", "anchors": ["src/types.rs: ClaimKind::from, Proof::from, account_leaf_siblings", "src/gadgets/mpt_update.rs: assign_single_proof", "src/mpt.rs: assign"]}
{"id": "C71", "title": "Accepted claims do not contradict each other", "statement": "Two claims that can be looked up, in one circuit or in two circuits with their own proofs and challenges, and that talk about the same root, do not ascribe to it different values of the same field or slot of the same account; in particular no claim ascribes a value to a field of an account that another claim says does not exist. The verifier need not know any state behind the root, only that the tables contain no hash collision. (False for the circuit as it is: when a slot is inserted the exposed new value is unconstrained, B8, so the prover can have two contradicting claims accepted with the same commitments for every challenge. It holds for claims of values other than 0, for slots that exist on both sides, and for all claims once the missing constraints of C63 are added.)", "quantifier": "all pairs of claims, all committed first phases of one or two circuits of any size, all but a counted number of challenges, all hash functions without collisions in the tables", "why_tests_cant": "Quantifies over all witnesses of a cheating prover in two independent proofs and all challenges; tests only assign honest witnesses of one proof.", "anchors": ["src/gadgets/mpt_update.rs: MptUpdateConfig::configure, configure_nonce, configure_code_size, configure_poseidon_code_hash, configure_balance, configure_keccak_code_hash, configure_storage, configure_empty_account, configure_empty_storage", "src/gadgets/mpt_update.rs: MptUpdateLookup", "src/mpt.rs: MptCircuitConfig::lookup_exprs"]}
{"id": "C72", "title": "The effect of a change is determined", "statement": "Two claims that can be looked up, in one circuit or in two circuits with their own proofs and challenges, and that start from the same old root and set the same field or slot of the same account to the same value, end with the same new root: a prover cannot smuggle another change into the state. For a field or slot that exists before and after, also the other way round: claims that end with the same root and undo the same value start from the same root. The verifier need not know any state behind the roots. (False for the circuit as it is: the new value of an inserted slot is unconstrained, B8, so the same write of an absent slot is accepted with different new roots for every challenge. It holds for existing fields and slots; and for creations and insertions too once the missing constraints of C63 are added. The deletion of a slot is not covered by that extension.)", "quantifier": "all pairs of claims, all committed first phases of one or two circuits of any size, all but a counted number of challenges, all hash functions without collisions in the tables", "why_tests_cant": "Quantifies over all witnesses of a cheating prover in two independent proofs and all challenges; tests only assign honest witnesses of one proof.", "anchors": ["src/gadgets/mpt_update.rs: MptUpdateConfig::configure, configure_nonce, configure_code_size, configure_poseidon_code_hash, configure_balance, configure_keccak_code_hash, configure_storage, configure_empty_account, configure_empty_storage", "src/gadgets/mpt_update.rs: MptUpdateLookup", "src/mpt.rs: MptCircuitConfig::lookup_exprs"]}
{"id": "C73", "title": "Wrap-around and blinding", "statement": "A halo2 table is cyclic (rotations wrap around modulo 2^k) and its last rows are filled with random values. Neither helps a cheating prover nor hurts an honest one: every table that satisfies the gates and lookups of the circuit on its usable rows, whatever the other rows hold, is on its usable rows a witness to which all other properties apply and exposes the same tuples; and the circuit synthesized for honest traces, serially or in parallel, is satisfied whatever values the unusable rows hold, if at least one usable row lies behind the n_rows rows of the circuit. (Finding B17: with n_rows equal to the number of usable rows, which no assertion excludes, the last row constrains the first blinding row, and no assigned witness is accepted for all blinding values: six random cells would have to add up to 0.)", "quantifier": "all tables, all table sizes and numbers of usable rows, all contents of the unusable rows, all lists of honest traces, all challenges and thread counts", "why_tests_cant": "Tests run one table size with a mock prover that treats wrapped cells specially; they cannot range over blinding values or adversarial tables.", "anchors": ["src/constraint_builder/column.rs: rotation", "src/constraint_builder.rs: ConstraintBuilder::build", "src/gadgets/canonical_representation.rs: CanonicalRepresentationConfig::configure", "src/mpt.rs: MptCircuitConfig::assign", "src/circuit.rs: TestCircuit::synthesize"]}
{"id": "C74", "title": "Proofs decide histories", "statement": "Take a verifier who knows a consistent state and claims linked by their roots, starting with the root of that state, and halo2's order of proving (commit to the fixed and first-phase columns of a cyclic, blinded table; draw the challenge; fill the second phase; have every claim looked up in the usable rows). If the claims are a history of the state, then in every large enough circuit, and whatever the blinding, the first phase can be chosen so that the claims can be proved for every challenge. If they are not a history, then whatever first phase is committed to, they can be proved for at most 31*binomial(3U+5k+1,2) of the more than 2^253 challenges (U usable rows, k claims). (The second half is partial: it is false for claims touched by findings B3 to B9, so it is proved for those the circuit decides, and under the conditions of B1 and B2.)", "quantifier": "all hash functions without relevant collisions, states, lists of claims, circuit sizes, blinding values, first phases and prover strategies for the second phase; all but a bounded number of challenges", "why_tests_cant": "a test fixes one state, one challenge and an honest prover; the claim ranges over all cheating first phases and counts the challenges for which any second phase works", "anchors": ["src/mpt.rs: MptCircuitConfig::configure, MptCircuitConfig::assign, lookup_exprs", "src/gadgets/rlc_randomness.rs: RlcRandomness", "src/constraint_builder.rs: ConstraintBuilder::build"]}
{"id": "C75", "title": "With the gaps closed, proofs decide all histories", "statement": "The same as C74 for the circuit with the constraints of C63 added, a number of rows that is not a multiple of 32, the first byte string starting with the index 0 and the rows after the last canonical group holding the leading bytes of their values (or no path longer than 248 levels): claims of any type that are linked by their roots, the first starting with the root of a consistent state, can be proved (on cyclic, blinded halo2 tables) for every challenge if they are a history of the state, whatever the blinding, and for at most 31*binomial(3U+5k+1,2) challenges, whatever the prover commits to, if they are not. So those constraints are a complete repair: nothing else is missing and none is too strict.", "quantifier": "all hash functions without relevant collisions, states, lists of claims of all types, circuit sizes, blinding values, first phases and prover strategies; all but a bounded number of challenges", "why_tests_cant": "it ranges over all cheating and all honest provers of a circuit that does not exist in the code yet, and counts challenges", "anchors": ["src/mpt.rs: MptCircuitConfig::configure, MptCircuitConfig::assign, lookup_exprs", "src/gadgets/mpt_update.rs: MptUpdateConfig::configure and all configure_*", "src/gadgets/byte_representation.rs: ByteRepresentationConfig::configure"]}
{"id": "C76", "title": "Chains of proofs", "statement": "A history that is too long for one circuit is cut into m batches of at most K claims, each proved by a halo2 table of its own with a challenge of its own. If the history is true, then however it is cut, in large enough circuits and whatever the blinding, every batch can be proved for every challenge. A cheating prover who may choose each batch of claims, and what he commits to for it, after having seen the challenges of all batches before it, can make a chain, linked by its roots from the root of a known state, that is not a history of the state for at most m * 31 * binomial(3U+5K+1,2) * q^(m-1) of the q^m lists of challenges (q the size of the field): the errors only add up. (The second half is partial: as C74 it is proved for claims the circuit decides and tables with edges in order.)", "quantifier": "all hash functions without relevant collisions, states, histories, ways to cut them, chain lengths, circuit sizes, blinding values and adaptive prover strategies; all but a bounded number of lists of challenges", "why_tests_cant": "it ranges over all cheating provers, who adapt to the challenges they have seen, over chains of any length, and counts challenges", "anchors": ["src/mpt.rs: MptCircuitConfig::configure, MptCircuitConfig::assign, lookup_exprs", "src/gadgets/rlc_randomness.rs: RlcRandomness", "src/gadgets/mpt_update.rs: MptUpdateLookup"]}
{"id": "C77", "title": "Chains of proofs, with the gaps closed", "statement": "The same as C76 for the circuit of C75 (the constraints of C63 added, edges of the tables in order), for claims of all types: every true history can be proved however it is cut into batches, and an adaptive prover can prove a false chain of m batches for at most m * 31 * binomial(3U+5K+1,2) * q^(m-1) of the q^m lists of challenges.", "quantifier": "all hash functions without relevant collisions, states, histories of claims of all types, ways to cut them, chain lengths, circuit sizes, blinding values and adaptive prover strategies; all but a bounded number of lists of challenges", "why_tests_cant": "it ranges over all cheating provers, who adapt to the challenges they have seen, over chains of any length, and counts challenges", "anchors": ["src/mpt.rs: MptCircuitConfig::configure, MptCircuitConfig::assign, lookup_exprs", "src/gadgets/mpt_update.rs: MptUpdateConfig::configure and all configure_*"]}
