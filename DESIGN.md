# Formal model of scroll-tech/mpt-circuit in Lean 4

## Approach

* The source in /repo is read as text and modelled function by function. Every model definition cites file and lines.
* **Field.** `Fr = ZMod p` with the BN254 scalar modulus; primality is proved (Lucas/Pratt certificate) in the kernel. Gadgets that do not need the modulus are modelled over any field.
* **Circuit.** `Query` is the AST of `constraint_builder/query.rs`; `ConstraintBuilder` is modelled literally (lists of constraints, lookups, conditions). `configure` functions are builder programs (`Cmd`) executed on that builder; a theorem (C01-C03) turns satisfaction of the built constraint system into row-wise facts.
* **halo2.** A witness is a function from columns and rows (Z) to field elements. A gate must vanish on every usable row; a lookup must match every usable row with some usable row. Rows outside the usable area (blinding) are arbitrary. C73 relates this to cyclic tables of 2^k rows. The proof system itself (PLONK soundness, Fiat-Shamir) is trusted.
* **Poseidon** is an abstract function `H left right domain`; the soundness of the external Poseidon table is an explicit hypothesis. No injectivity of `H` is assumed globally (it would be false); where a statement compares against a concrete trie, collision-freeness is assumed only on the finitely many inputs involved.
* **Specification** files (`Verif/Spec/*.lean`) define tries, paths, account hashing, bytes and RLCs independently of the circuit.
* Where the code violates a property, the negation is proved with a witness and the strongest true variant is proved as `..._partial`.

## Plan per property

* **C01** Conditional constraints are enforced exactly where their conditions hold — Literal model of ConstraintBuilder state and methods; builder programs as `Cmd` trees executed on it; induction over programs.
* **C02** Conditional lookups match only enabled table rows — Same; halo2 lookup semantics (every usable row's tuple equals the tuple of some usable row).
* **C03** Poseidon lookups prove hash preimages — Same; the Poseidon table is an external table: its soundness is a named hypothesis.
* **C04** Binary columns and BinaryQuery algebra are Boolean — Algebra over an arbitrary field.
* **C05** Query::from(Fr) denotes the field constant — Limbs of ZMod.val, evaluation of the produced AST.
* **C06** IsZero gadget is exact — Any field; soundness from the two gates, completeness from inverse-or-zero.
* **C07** OneHot gadget encodes exactly one variant — Any Fintype enum given as a duplicate-free list shorter than the characteristic.
* **C08** Byte/bit table is exact — Fixed-column writer modelled as a function of the row; membership proved by arithmetic on rows.
* **C09** Byte-representation lookups are sound range checks and RLCs — Induction on rows. False as stated (row 0 is not constrained): negation with a witness + partial theorem under `row 0 index = 0`.
* **C10** Byte-representation assignment provides every requested value — Writer modelled as list of rows; induction over the byte lists.
* **C11** Canonical representation is canonical — Group analysis of 32 rows. Holds for every accepted witness iff n_rows % 32 = 1; for other sizes that are not a multiple of 32 it holds if the rows after the last complete group hold the leading bytes of their values (`TrailingOK`, which assigned circuits satisfy): partial theorem + negations.
* **C12** Canonical representation assignment serves every value — Writer modelled as function of group index.
* **C13** Key-bit lookups return the true bit — From C08 and C11.
* **C14** Key-bit assignment serves every request — Writer as list of rows.
* **C15** Parallel assignment is equivalent to serial assignment — Region concatenation model (halo2 single-chip layouter stacks regions of the same columns); chunk/flatten lemmas for every thread count.
* **C16** Word RLC gadget binds a hash, a word and its RLC — From C09 (as hypothesis on tables) + RLC algebra.
* **C17** Update rows follow the segment and path automata — Decode one-hots into enums, induction over rows from a Start row to the next.
* **C18** Only Start rows expose claims; the last update is complete — Evaluation of the lookup queries.
* **C19** Exposed addresses and roots are the ones proven — From the start-row constraints.
* **C20** NonceChanged claims are openings of both roots — Run decoding + per row hash relations; induction over trie rows.
* **C21** BalanceChanged claims are openings of both roots — As C20.
* **C22** CodeSizeExists claims are openings of both roots — As C20.
* **C23** CodeHashExists claims are openings of both roots — As C20.
* **C24** PoseidonCodeHashExists claims are openings of both roots — As C20.
* **C25** StorageChanged claims on existing slots are openings of both roots — As C20.
* **C26** Storage insertions and deletions bind the exposed value — False of the code (the value is not constrained on extension paths): negation by a witness + what does hold.
* **C27** AccountDoesNotExist claims imply absence — As C20, then lifted to tries.
* **C28** StorageDoesNotExist claims imply absence — As C20.
* **C29** Read-only claims do not move the root — As C20.
* **C30** Exposed values agree with the trie's content — Trie-level lifting: collision-freeness on the finite set of hash inputs involved.
* **C31** The proven leaf belongs to the claimed key — False of the code: negation by a witness; the positive part needs the key to be in the trie.
* **C32** Updates leave all other keys alone — Replace-at-path lemma on tries; for insertions only what the constraints give.
* **C33** n_rows_required is sufficient — Row arithmetic. False: witness; partial theorem with the exact condition.
* **C34** Proof::n_rows is the number of rows assigned — Writer footprint model.
* **C35** Completeness: honest updates are accepted — Row-level constraint satisfaction of the modelled assignment.
* **C36** Hash requests cover the circuit's needs — List model of hash_traces.
* **C37** Key and byte requests cover the circuit's needs — List model.
* **C38** Trie rows recombine to the roots — TrieRows::new model and induction.
* **C39** Branch-domain transitions are consistent everywhere — Finite case analysis lifted to field elements.
* **C40** lagrange_polynomial interpolates — Induction over point lists.
* **C41** Claims are extracted faithfully from traces — Option-valued model (none = panic).
* **C42** Account leaf hashing commits to every field — Direct model with abstract hash; collision-freeness hypothesis on the two finite sets.
* **C43** HexBytes text encoding round-trips — Byte/char list model.
* **C44** BigUint hex encoding round-trips — Digit list model.
* **C45** 256-bit word splitting is consistent — Nat arithmetic.
* **C46** Big integers map to field elements by reduction — Fold over 64-bit digits.
* **C47** RLC identifies byte strings — Polynomial root counting.
* **C48** Address key derivation is consistent — Nat arithmetic.
* **C49** Row grouping loses nothing — Fold invariant.
* **C50** Fixed columns do not depend on the witness — Fixed-cell writer model.
* **C51** Assigned circuits expose exactly the claims of their proofs — Rows of the modelled assignment (Props/Exposure).
* **C52** A state database can be driven through the circuit — `Spec/World.lean` defines states and operations without mention of the circuit; the traces of an operation are honest (`op_honest`), so C35 and C51 apply (`c35_operations`); `Props/OperationsDemo.lean` runs seventeen operations through it.
  `c52_tables`: unless `n_rows` is a multiple of 32 these circuits have sound lookup tables, so that they meet the hypotheses of all soundness theorems; `Props/ClaimsDemo.lean` uses one of them as the concrete case beside C15–C30, C33, C36, C37 and C51.
* **C53** Accepted claims about a known state are operations on it — the claim theorems C20–C28 say which openings back a claim; `Props/WorldSound.lean` identifies these openings with the tries of a `World` whose root is known (no collisions between the Poseidon table and the hash inputs of the state, `SafeState`), and with `Op.apply`. `Describes` says when a claim describes an operation. Partial: accounts and slots that exist, and AccountDoesNotExist; the rest is false (B3, B4, B8).
* **C54** Chains of accepted claims are histories — induction over the chain with C53.
* **C55** Claims that are not about storage carry storage key 0 — refuted for the circuit (`c55_false`, B11); proved for storage claims and for the tuples of assigned claims.
* **C56** Claims are sound without assumptions on the lookup tables — refuted (`c56_false`, B1): `Props/NegativeForge` patches row 0 and row 1 of the byte columns of an assembled witness and re-proves acceptance; proved when `n_rows` is not a multiple of 32 and the cells at the edges of the tables are in order (`EdgesOK`: the first byte row has index 0, the rows after the last canonical group hold leading bytes, or no path is longer than 248 levels; there are no such rows if `n_rows mod 32 = 1`). Assigned circuits satisfy this (`edges_of_assign`). This is why C19-C32 are stated for witnesses with sound tables (`TablesOK`).
* **C57** A circuit built from honest traces is satisfied — `Assign/TestCircuit` models `PoseidonTable::load` and `TestCircuit`; `Props/TestCircuit` composes C35 with the table.
* **C58** The verifying key does not depend on the witness — exact condition on the fixed columns (`c58_verifying_key_partial`), refuted beyond 200 hashes (`Fixtures/ManyHashes`, B12).
* **C59** Traces survive JSON — `Types/Json` writes out the derived `Serialize`/`Deserialize` code from the attributes in serde.rs and models the JSON grammar of `serde_json`; `Props/JsonText` proves the round trip on the text for any white space, `Props/JsonContent` that order and unknown members do not matter, `Props/JsonFormat` that reading is exactly the format written as relations in `Spec/JsonFormat`. `c59_row` and `c59_update` do the same for the rows of `HashTrace` files and for `(MPTProofType, SMTTrace)` pairs, with numerals, truth values, kinds and proof types specified without the model's parsers.
* **C60** First-phase columns do not depend on the challenge — `Assign/Phases` lists the columns of `second_phase_advice_columns` and proves `SameFirstPhase` for the modelled `assign` under two challenges, column by column; `c60_complete` composes it with C35/C52.
* **C61** A false claim is provable for a negligible part of the challenges — the strings whose RLCs are compared (roots, table words, the claim's words) are fixed by the first phase (`committed`); all but `31 * (k choose 2)` challenges separate them (`separates_all_but`, C47); for a separating challenge C53 makes the claim true. `Spec/StateClaims` has the claims in exact terms. Partial: decided claims (not B3–B9), tables with edges in order (`EdgesOK`: B1, B2).
* **C62** A false history is provable for a negligible part of the challenges — induction over the claims with the same set of strings.
* **C63** The listed gaps are the only ways to prove a false claim — `Patched` (Props/Patched) is a predicate on witnesses, not part of the circuit: the row conditions whose absence is behind B3-B6, B8, B9, B13-B15. `faithful_run` goes over all claim types and path shapes, turns the rows of a run into openings before and after (`SamePath`, `InsertedPath`, `RemovedPath` in Spec), and identifies these with `ZkTrie.put`/`remove` (Props/TrieOps); `c63_operation`, `c63_history` (Props/PatchedHistory) conclude as in C53/C54 but for all claims.
* **C64** With the gaps closed a false history is provable for a negligible part of the challenges — C63 in place of C53 in the argument of C62 (Props/PatchedHistory).
* **C65** Closing the gaps would reject no honest prover — the paths of a zktrie before and after `put`/`remove` satisfy the conditions level by level (Props/StrictPaths), so do the rows made of them (StrictRows), the assigned runs (PatchedRows, PatchedRun), and the proofs parsed from the traces of operations (PatchedOps); Props/PatchedComplete composes this with C35/C51.
* **C66** Every missing constraint is needed — `Patched` is taken apart into the fifteen conditions `Gap.Closed` (Props/Gaps, `patched_iff_gaps`). For each a concrete scene (Props/Scenes): a state, a claim and the levels of a run, with a linear hash function that has no collisions on what is hashed and the challenge 256. Boolean checks with soundness theorems (Assign/RowCheck for the constraints, Props/GapCheck for the conditions, Props/Attacks for the state and for the claim: all operations of the claimed type, address and slot, all words with the claimed residues) are evaluated by the kernel (`decide +kernel`; the functions of Assign/Force make it compute by value). `c66_necessary` is the conclusion, `c66_independent` adds, by C63, that the condition itself is violated.
* **C67** The self-check of a parsed proof — `Types/Check` models `Proof::check` and `StorageProof::check` (an assertion that fails is `false`). `parsedFrom` inverts the parser once; completeness follows the honest paths of C35 through the checks; soundness reads the path back from the hash traces. Partial because both halves are false (B16): `c67_false`, `c67_unsound`.
* **C68** The trace reader accepts exactly the JSON texts — `Spec/JsonGrammar` gives the grammar of RFC 8259 as relations between texts and values; `Props/JsonReader` proves `parse t = some v ↔ IsJson t v` (`c68_json`): soundness by induction on the reader's fuel, completeness by induction on the grammar, with the bound `2·|text|+1` on the fuel that `parse` uses. `serde_json`'s nesting limit of 128 levels and the UTF-8 decoding of strings are not modelled (a trace nests at most 7 levels and holds ASCII only).
* **C69** Capacity: how many updates fit into a circuit — `Props/Capacity`: a strictly sorted list is determined by its members, so the requests depend on the set of updates only (`c69_requests_order`, `c69_rows_order`); cardinalities of unions (`c69_rows_append`); bounds of every request list per update, from the shapes of parsed rows (C38) (`c69_rows_bound`); with C57, `c69_capacity` and `c69_capacity_any`. `Props/CapacityDemo` applies it to seventeen operations.
* **C70** Only a nonce or a balance creates an account, and nothing deletes one — `Props/Creation`: the claims the parser accepts by C41; for the remaining case (`account_update = [None, Some(default)]` with a state update, types.rs:265-271) the traces of the two sides differ in the hash of the code hash (0 against `H(0,0)`), so `account_leaf_siblings` fails (`c70_panics`); `c70_accounts` combines the two.
* **C71** Accepted claims do not contradict each other — `Spec/Agreement` says what a claim ascribes to each of its two roots and when two claims contradict each other; `Props/Agreement`: openings of one root along one key end in the same leaf if nothing collides (`opens_unique`, whatever key the leaf holds, so B3 does no harm), hence a root has one value per field (`fieldAt_unique`); what C20–C26 read off an accepted circuit is such a value. The counting of challenges is that of C61; in two circuits the pairs of challenges are counted (`pair_bound`). Claims with value 0 and insertions of slots are excluded there (`_partial`), since the statement is false for them: `c71_false`. With the gaps of C63 closed there is no exclusion: `Props/PatchedAgreement` (`c71_patched`, `c71_patched_two_circuits`).
* **C72** The effect of a change is determined — `Spec/Changes` says when two claims make the same change and yet end with different roots; `Props/Determined`: openings of one root along one key take the same siblings if nothing collides (`opens_same`), so exchanging the leaf at their end gives one root (`change_det`). `Props/PatchedDetermined` adds the creation of accounts and the insertion of slots, in circuits that satisfy the constraints missing today (C63): the levels and siblings of an insertion are determined by the old trie and the keys of the two leaves (`insertion_det`). `c72_false`: without them the same write of an absent slot is accepted with two new roots (B8). Deletions of slots remain excluded: where the chain of empty siblings above a deleted leaf ends depends on the domains of the old trie, which are only known to be right for a well-formed trie (then C63 gives the exact new root).
* **C73** Wrap-around and blinding — `Spec/HaloTable` defines a cyclic table with `N = 2^k` rows, evaluation of expressions with wrapped rotations, halo2's satisfaction on the `U` usable rows, and tables that hold an assigned witness on the usable rows and anything elsewhere. `Halo`: a computed check (by the kernel) of which rotations the configured circuit uses (the only fixed query that looks back is `index_is_zero` by 31 rows; advice rotations are at most 1 except for the 32 bytes of a group); congruence of the row semantics; `Props/HaloTable`: c73_sound (tables are accepted witnesses of the model), c73_complete (honest circuits with `n < U`), c73_full and c73_false (B17: `n = U`), c73_full_blank (the hypotheses of c73_full can be met).
* **C74** Proofs decide histories — `Spec/Proving` defines the set `ProvableFor` of challenges for which a fixed first phase of a halo2 table (C73) can be completed to an accepted table from which the claims can be looked up. `c74_true` (the set is everything, for a suitable first phase, in every large enough circuit and for every blinding) combines C35, C60 and C73; `history_iff` relates the histories of `c74_false_partial` and the runs of operations of `c74_true`; `c74_false_partial` (the set is small) combines C62 and C73. Partial in the soundness half only: `StateClaim.Decided` (B3–B9), `n % 32 ≠ 0` and tables with edges in order (`HaloTable.Edges`: B1, B2).
* **C75** With the gaps closed, proofs decide all histories — `ProvablePatched` is the set of C74 with the missing constraints (`Patched`, C63) on the table read modulo its size. `c75_false` combines C64 and C73, `c75_true` C65, C60 and C73 (`patched_congr`: the missing constraints only read rows of the circuit, the row behind them and the Poseidon table). The modelled repair is a predicate on rows, not code of /repo.
* **C76** Chains of proofs — `Spec/Chain` defines adaptive strategies (the next batch of claims and first phase depends on the challenges so far) and what it means that one fools the verifier. `fools_le` is the general counting argument (induction on the number of batches: either the first batch is false, few challenges prove it, or it leads to a state from which the rest is false); `c76_chain_partial` instantiates it with C74, `c76_true` cuts a run of operations and uses C74 per batch. Partial as C74.
* **C77** Chains of proofs, with the gaps closed — the same with C75 (`c77_chain`, `c77_true`). `c77_fraction` and `c76_fraction_partial` give the error in numbers: at most m / 2^186 for up to 2^28 rows and claims per batch.

## Trusted base

* **Lean's kernel** (4.33.0), and Mathlib as a library of definitions and proved theorems. `vcheck` replays every module.
* **Axioms.** Every theorem depends on at most `propext`, `Classical.choice` and `Quot.sound` (the standard axioms of Lean; check with `#print axioms Mpt.Props.<name>`). No axiom is added. No `native_decide`, no `bv_decide`; `decide +kernel` is evaluated by the kernel itself.
* **The reading of the Rust code.** The models were written by hand from the text of /repo; nobody compiled or ran the code. Comments cite the lines. A wrong reading is the main risk; the negative theorems and the completeness theorems (C35, C52) bound it from both sides: a model with too strong constraints would not accept honest traces, a model with too weak ones would not have the soundness theorems.
* **halo2.** `ConstraintSystem.Sat` (ConstraintBuilder.lean) is taken as the meaning of a circuit: every gate vanishes on every usable row, every lookup input on a usable row equals the table tuple of some usable row. The proof system (PLONK/KZG, Fiat-Shamir, the two-phase challenge) is trusted to establish it for a cyclic table with blinding rows (`ConstraintSystem.SatTable`, Spec/HaloTable.lean); C73 proves the step from there to `Sat` on integer rows. Completeness theorems other than C73 allow `n = U` and rows of zeros behind the usable ones; C73 says that `n < U` is needed and enough for arbitrary blinding. Fixed columns are part of the verifying key, so they are assumed to hold what `assign` writes for the given `n_rows` (`FixedOK`). Regions of the `SimpleFloorPlanner` are stacked in the order in which they are requested, per set of columns (Layout.lean, Circuit.lean); `assign_regions` stacks its regions in list order.
* **Challenge.** RLC statements hold for every value of the challenge; C47 bounds the challenges for which two byte strings collide.
* **Poseidon.** `H : Fr → Fr → Fr → Fr` is an arbitrary function. The external Poseidon table is assumed to contain only true hashes in enabled rows with control 0 and head mark 1 (`Accepted.pos`). Collision-freeness is a hypothesis of individual theorems, for the inputs that occur in the tries in question, never for all inputs.
* **External crates** modelled from their documentation, not from source: `hex` (encode, decode_to_slice), `num-bigint` (parse, print, bytes), `ethers_core::U256` (limbs, checked conversions), `strum::EnumIter` (declaration order), `Vec::sort`/`dedup`, `slice::chunks`, `HashMap` lookups. The code that `serde` derives is modelled from the documented meaning of its attributes, and `serde_json` as the JSON grammar (`Types/Json`).
* **Integers.** `u64`, `u128`, `usize` are natural numbers with the panics of overflow checks where the code can reach them (`Bit::bit`, `n_rows / 32 - 1`, padding offsets). Panics (`assert!`, `unwrap`, `unreachable!`, indexing) are `none`.

## What is modelled

| /repo/src | Lean |
|---|---|
| constraint_builder.rs, constraint_builder/{query,binary_query,column,binary_column}.rs | Query, ConstraintBuilder, BuilderSemantics |
| gadgets/{is_zero,one_hot,byte_bit,byte_representation,canonical_representation,key_bit}.rs: configure | Gadgets/IsZero, OneHot, Tables |
| the same: assign, assign_par, n_rows_required | Assign/ByteRep, Canonical, KeyBit, Layout, Fixed |
| gadgets/mpt_update.rs: configure and all configure_* | Gadgets/MptUpdate |
| gadgets/mpt_update.rs: assign, assign_single_proof, assign_par and helpers | Assign/Update, Place, Witness |
| gadgets/mpt_update.rs: hash_traces, key_bit_lookups, byte_representations, mpt_update_keys | Assign/Requests |
| gadgets/mpt_update/{segment,path,word_rlc,nonexistence_proof}.rs | Enums, Gadgets/MptUpdate |
| mpt.rs: configure, assign, lookup_exprs, n_rows_required | Gadgets/MptUpdate, Accepted, Assign/Circuit |
| types.rs, types/{trie,storage}.rs: Claim, Proof, TrieRows, StorageProof, all conversions | Types/Claim, Proof, Trie, Storage |
| util.rs | Types/Util, Lagrange |
| serde.rs: HexBytes, BigUint hex, fold_flattern_rows, SMTTrace records | Types/Serde |
| serde.rs: derived Serialize/Deserialize, HashType, Row, from_lines; mpt_table.rs: MPTProofType in JSON | Types/Json |
| types.rs: Proof::check; types/storage.rs: StorageProof::check | Types/Check |
| mpt_table.rs | Enums, Types/Claim |
| circuit.rs, gadgets/poseidon.rs (test table) | Assign/TestCircuit |
| constraint_builder.rs (`second_phase_advice_columns` and its callers): which columns are second-phase | Assign/Phases |

Not modelled: logging and timing; `Debug`/`Display`; escape sequences in JSON strings and the value of JSON floats (no field can hold them); the commented-out code in types.rs; constraint names; tests (those that read or produce traces are repeated in `Fixtures`) and benches; the environment variable `PARALLEL_SYN` (both branches are modelled); the numbers of worker threads (any).

## Specification files

`Spec/Bytes` (bytes, RLC), `Spec/Openings` (Merkle openings), `Spec/Paths`, `Spec/Tries`, `Spec/TrieInsert` (tries and insertion), `Spec/Claims` (what each claim type means), `Spec/Honest` (paths given by a trie), `Spec/StateClaims` (claims in exact terms, histories), `Spec/JsonGrammar` (the grammar of JSON), `Spec/JsonFormat` (the trace file format), `Spec/Zktrie` (a zktrie with put/get/remove), `Spec/World` (state, reads and writes). None of them mentions columns, rows or the circuit. `Props/HonestInput` says what an honest trace is.

## Fidelity checks

Executable evidence that the model is the code's model, kernel-checked and part of the build:

* `Poseidon.lean` defines the actual Poseidon hash (constants from the Grain LFSR) and checks the public test vector. No general theorem uses it: all of them hold for every hash function; it only serves to evaluate the model on real data, and is not in the trusted base of any C-property.
* `Fixtures/Traces.lean` contains the JSON traces of /repo/src/traces (generated by a script from the files). `Fixtures/Checks.lean` repeats the tests of /repo/src/tests.rs that read them: `test_*` prove `MockProve` -- the model parses the trace, and the assignment of 2049 rows, serial or parallel, satisfies all gates and lookups, for every challenge. `isHonest_sound` turns the hypothesis of C35 into a computation; `c35_complete_tight` is needed since the tests use one row less than `n_rows_required`.
* `Fixtures/JsonFiles1-3.lean` contain the texts of these files; `file_*` prove that the model of `from_str` reads them as the transcribed traces and the model of `to_string_pretty` writes them back byte by byte.
* `Fixtures/World.lean` compares the specification of states and operations (`Spec/World`, used by C52-C54) with the external trie database: for each of the 17 tests that compare a generated trace with a file, running the same operations in `Spec/World` gives exactly the trace in the file (`world_*`). The tests without a file follow (`test_*` there).

Outside the build, the same evaluator was run on all constraints of the circuit, row by row (298 gates, 76 lookups, all fixtures, `n_rows = 2049`), and `isHonest` on the 224 traces of /repo/benches/traces.json: all satisfied.

## Findings

The code violates some of the properties a user would expect. Each of these is proved, as the negation of the property or as an accepted witness, and the strongest true variant is proved next to it.

* **B1** byte_representation.rs:66-68 (`c09_false`, `c56_false`). "index is 0 for first row" is conditioned on `is_first`, which is enabled on row 0, where the selector of the constraint builder is off. Row 1 may therefore continue from an arbitrary unconstrained row 0: the first string of the table need not be bytes. Range checks (8-byte nonces, 16-byte halves, 31-byte balances) can be defeated there. At the level of claims (`c56_false`): for every account and every 64-bit number `x` the circuit accepts the claim that the account's nonce is `x`, about the true root, with one forged byte-table entry.
* **B2** canonical_representation.rs (`c11_c13_false_mod_zero`, `c11_c13_false_trailing`). The number of complete groups is `n_rows / 32` from row 1 on; unless `n_rows % 32 = 1` the enabled area ends inside a group or with rows whose fixed cells are 0, so non-canonical representations and wrong bits can be exposed. If `n_rows % 32 = 0` this breaks the claims themselves, for every hash function and every challenge (`c56_false_absent`, `c53_false_absent`, in `Props/NegativeHidden` and `Props/NegativeAbsence`): the last group has its last byte on the disabled row `n_rows`, so it can present the 31 leading bytes of one key as those of another, and the bits of one account's key can be passed off as the bits of another's whenever the two end in the same byte. The path of the one then "proves" the absence of the other (or that its nonce, balance, code hash or code size is 0). If `n_rows % 32 ≥ 2` only the leading byte of a key, i.e. the bits 248 to 255, can be forged: the claims are safe as long as no path is longer than 248 levels (`EdgesOK.last`, `edges_forged`).
* **B3** (`c31_false`, `c32_false`). The key of the leaf that is opened (sibling at AccountLeaf0 / StorageLeaf0) is not constrained to be the claimed key when the path is common: a claim about an absent account can open another account's leaf on the same path.
* **B4** An insertion without trie rows can replace a single other leaf.
* **B5** In extension rows the bits of `other_key` are not checked on the new side, and the domains and the length of the extension are the prover's.
* **B6** StorageChanged allows ExtensionNew from the account level on with arbitrary other account fields.
* **B7** (`c33_panics`, `c33_false`). `n_rows_required` reserves `32 k + 1` rows for `k` keys, but `assign` asserts `n_rows / 32 - 1 >= k`.
* **B8** mpt_update.rs:1813-1904 (`c26_false`). The word RLC of the storage value is only constrained on a common path, so the exposed new value of an insertion and the old value of a deletion are free.
* **B9** (`c29_false`, `c29_false_exposed`). A nonce or balance claim 0 to 0 about an absent account can end on an ExtensionNew row: the root changes.
* **B10** types.rs: a StorageDoesNotExist claim of an absent account without `state_update` takes the hashed `state_key` as storage key.
* **B11** (`c55_false`). `storage_key_rlc` is not constrained in claims that are not about storage: a lookup that uses storage key 0 for account claims finds them, but so does a lookup with any other key the prover likes.
* **B12** gadgets/poseidon.rs:9, 78-82 (`c58_false`). The test table reserves 200 enabled rows so that the verifying key does not depend on the number of hashes; with more than 200 hashes it does. The benchmark (7600 rows) is in that case.
* **B13** Storage deletion need not be canonical: nothing forces the siblings of the deleted levels to collapse, so that after a deletion a node may be left with an empty side and a single leaf (`Patched.removal`, first alternative). The new root is then not the one that the trie library computes.
* **B14** After a deletion below a Branch3 node, whether the node becomes Branch1 or Branch2 is the prover's choice (`Patched.removal`, second alternative).
* **B15** The domains of the levels added by an insertion are the prover's choice (`Patched.levels`).
* **B16** `Proof::check` (a self-check of the parser, not a constraint) panics on honest proofs when both account paths are empty, or when exactly one of them has fewer than two levels (`c67_false`, `c67_rejects`); and it never compares the leaf of the shorter account path with the bottom of that path (`c67_unsound`).
* **B17** Nothing keeps `n_rows` below the number of usable rows. With `n_rows` equal to it, the last row of the circuit (selector enabled on `1..n_rows`) constrains the first row behind the usable ones, which halo2 fills with random values: no assigned witness is accepted for all of them (`c73_full`, `c73_false`). The repository's own tests use 2049 of 2^14 rows and are not affected.

B3-B6, B8, B9, B13-B15 are the fifteen conditions of C66; `c66_necessary` has for each an accepted witness that violates this condition only and proves a claim that is false of a state (scenes in Props/Scenes).
* Others: key_bit's `assign_par` shifts its first request to the disabled row 0 (`c15_key_bit_first_request_lost`; harmless because the request is `(0, 0, false)` or served elsewhere); `hash_traces` contains an untrue triple when `state_key` is not the hash of the storage key (`c36_false`); balances of 2^248 and more panic; `Bit::bit(i)` underflows for `i ≥ 256`; Claim::from accepts a new account's nonce claim with a non-zero balance, which the circuit rejects.

## Testing the theorems

`Props/Degree` computes halo2's degree of the modelled constraint system in the kernel: it is 9 (`circuit_degree`), the number asserted by the repository's own test `degree` (/repo/src/tests.rs:62-67). This is a check of the model's fidelity, not a property.

`seeded/LOG.jsonl` lists edits of the model as a realistic bug would make them, the claim broken and the theorems that stop proving.
