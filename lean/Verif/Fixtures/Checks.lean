import Verif.Fixtures.Traces
import Verif.Fixtures.Eval
import Verif.Poseidon
import Verif.Props.HonestCheck
import Verif.Props.HaloTable

set_option autoImplicit false

/-!
# The repository's test traces in the model

The tests of /repo/src/tests.rs that read a JSON trace, as theorems about the model with the actual Poseidon
hash: the model parses the trace, and the assignment of 2049 rows satisfies every gate and lookup, for every
challenge, whatever the cells behind the usable rows hold, serially as well as in parallel. The general statement
is C73 (C35); here its hypotheses are checked by evaluation on the traces in the repository.
-/

namespace Mpt.Fixtures
open Mpt Spec Types Requests MptUpdate Props

/-- `mock_prove`, /repo/src/tests.rs:56-60, with `N_ROWS = 2049` (line 12) and degree 14: `U` is the number of
usable rows (halo2 reserves some of the 2^14 and fills them with other values). -/
def MockProve (jobs : List (MPTProofType × SMTTrace)) : Prop :=
  ∃ ps, TestCircuit.new Poseidon.hash jobs = some ps ∧
    ∀ (ρ : Fr) (U : ℕ), 2049 < U → U < 2 ^ 14 →
      (∃ w, TestCircuit.synthesize Poseidon.hash ρ 2049 ps = some w ∧
        ∀ t : HaloTable, t.Holds w (2 ^ 14) U → HaloAccepted Poseidon.hash 2049 U (2 ^ 14) t) ∧
      ∀ threads, 0 < threads →
        ∃ w, TestCircuit.synthesizePar Poseidon.hash ρ 2049 threads ps = some w ∧
          ∀ t : HaloTable, t.Holds w (2 ^ 14) U → HaloAccepted Poseidon.hash 2049 U (2 ^ 14) t

/-- Do the updates fit in 2049 rows? -/
def fits (jobs : List (MPTProofType × SMTTrace)) : Bool :=
  match jobs.mapM (fun j => proofFromS Poseidon.hash j.1 j.2) with
  | none => false
  | some ps =>
    match nRowsRequired Poseidon.hash ps, allEntries Poseidon.hash ps with
    | some m, some es => decide (m ≤ 2050 ∧ 2 + totalRows ps ≤ 2049 ∧
        32 * ((updateKeys Poseidon.hash ps).length + 1) ≤ 2049 ∧ es.length < 2049)
    | _, _ => false

/-- The check: honest traces that fit. -/
def check (jobs : List (MPTProofType × SMTTrace)) : Bool :=
  jobs.all (fun j => isHonest Poseidon.hash j.1 j.2) && fits jobs

theorem check_sound {jobs : List (MPTProofType × SMTTrace)} (h : check jobs = true) : MockProve jobs := by
  unfold check at h
  rw [Bool.and_eq_true, List.all_eq_true] at h
  obtain ⟨ps, m, es, h1, h2, h3, h4⟩ := c73_complete (H := Poseidon.hash) jobs
    (fun j hj => isHonest_sound (h.1 j hj))
  refine ⟨ps, h1, ?_⟩
  have hf := h.2
  unfold fits at hf
  simp only [proofFromS_eq] at hf
  unfold TestCircuit.new at h1
  rw [h1] at hf
  obtain ⟨all, h5, h6⟩ := Option.map_eq_some_iff.1 h3
  have hl := sortDedup_length_le traceCode traceCode_inj all
  rw [h6] at hl
  simp only [h2, h5, decide_eq_true_eq] at hf
  intro ρ U hU hU2
  exact h4 ρ 2049 U 14 hf.1 hf.2.1 hf.2.2.1 hU hU2 (by norm_num) (by omega)

/-- `reverse`, /repo/src/tests.rs:45-54. -/
def reverse (tr : SMTTrace) : SMTTrace :=
  { tr with accountPath := tr.accountPath.swap, accountUpdate := tr.accountUpdate.swap,
            statePath := tr.statePath.swap, stateUpdate := tr.stateUpdate.map Prod.swap }

/-- /repo/src/tests.rs:97-100. -/
theorem test_all_padding : MockProve [] :=
  check_sound (by decide +kernel)

/-- /repo/src/tests.rs:102-131. -/
theorem test_empty_account_type_1 : MockProve [(.AccountDoesNotExist, empty_account_type_1)] :=
  check_sound (by decide +kernel)

/-- /repo/src/tests.rs:133-162. -/
theorem test_empty_account_type_2 : MockProve [(.AccountDoesNotExist, empty_account_type_2)] :=
  check_sound (by decide +kernel)

/-- /repo/src/tests.rs:265-288. -/
theorem test_existing_account_balance_update : MockProve [(.BalanceChanged, existing_account_balance_update)] :=
  check_sound (by decide +kernel)

/-- /repo/src/tests.rs:290-319. -/
theorem test_empty_account_type_1_balance_update : MockProve [(.BalanceChanged, empty_account_type_1_balance_update)] :=
  check_sound (by decide +kernel)

/-- /repo/src/tests.rs:321-350. -/
theorem test_empty_account_type_2_balance_update : MockProve [(.BalanceChanged, empty_account_type_2_balance_update)] :=
  check_sound (by decide +kernel)

/-- /repo/src/tests.rs:352-375. -/
theorem test_existing_account_nonce_update : MockProve [(.NonceChanged, existing_account_nonce_update)] :=
  check_sound (by decide +kernel)

/-- /repo/src/tests.rs:377-406. -/
theorem test_empty_account_type_1_nonce_update : MockProve [(.NonceChanged, empty_account_type_1_nonce_update)] :=
  check_sound (by decide +kernel)

/-- /repo/src/tests.rs:408-437. -/
theorem test_empty_account_type_2_nonce_update : MockProve [(.NonceChanged, empty_account_type_2_nonce_update)] :=
  check_sound (by decide +kernel)

/-- /repo/src/tests.rs:439-467. -/
theorem test_existing_account_code_size_update : MockProve [(.CodeSizeExists, existing_account_code_size_update)] :=
  check_sound (by decide +kernel)

/-- /repo/src/tests.rs:469-492. -/
theorem test_existing_account_keccak_codehash_update : MockProve [(.CodeHashExists, existing_account_keccak_codehash_update)] :=
  check_sound (by decide +kernel)

/-- /repo/src/tests.rs:494-517. -/
theorem test_existing_account_poseidon_codehash_update : MockProve [(.PoseidonCodeHashExists, existing_account_poseidon_codehash_update)] :=
  check_sound (by decide +kernel)

/-- /repo/src/tests.rs:519-542. -/
theorem test_existing_storage_update : MockProve [(.StorageChanged, existing_storage_update)] :=
  check_sound (by decide +kernel)

/-- /repo/src/tests.rs:544-585. -/
theorem test_empty_storage_type_1_update_a : MockProve [(.StorageChanged, empty_storage_type_1_update_a)] :=
  check_sound (by decide +kernel)

/-- /repo/src/tests.rs:544-585. -/
theorem test_empty_storage_type_1_update_a_reverse : MockProve [(.StorageChanged, reverse empty_storage_type_1_update_a)] :=
  check_sound (by decide +kernel)

/-- /repo/src/tests.rs:587-628. -/
theorem test_empty_storage_type_2_update_a : MockProve [(.StorageChanged, empty_storage_type_2_update_a)] :=
  check_sound (by decide +kernel)

/-- /repo/src/tests.rs:587-628. -/
theorem test_empty_storage_type_2_update_a_reverse : MockProve [(.StorageChanged, reverse empty_storage_type_2_update_a)] :=
  check_sound (by decide +kernel)

/-- /repo/src/tests.rs:630-671. -/
theorem test_empty_storage_type_2_update_b : MockProve [(.StorageChanged, empty_storage_type_2_update_b)] :=
  check_sound (by decide +kernel)

/-- /repo/src/tests.rs:630-671. -/
theorem test_empty_storage_type_2_update_b_reverse : MockProve [(.StorageChanged, reverse empty_storage_type_2_update_b)] :=
  check_sound (by decide +kernel)

/-- /repo/src/tests.rs:680-721. -/
theorem test_empty_storage_type_1_update_b : MockProve [(.StorageChanged, empty_storage_type_1_update_b)] :=
  check_sound (by decide +kernel)

/-- /repo/src/tests.rs:680-721. -/
theorem test_empty_storage_type_1_update_b_reverse : MockProve [(.StorageChanged, reverse empty_storage_type_1_update_b)] :=
  check_sound (by decide +kernel)

/-- /repo/src/tests.rs:723-764. -/
theorem test_empty_storage_type_1_update_c : MockProve [(.StorageChanged, empty_storage_type_1_update_c)] :=
  check_sound (by decide +kernel)

/-- /repo/src/tests.rs:723-764. -/
theorem test_empty_storage_type_1_update_c_reverse : MockProve [(.StorageChanged, reverse empty_storage_type_1_update_c)] :=
  check_sound (by decide +kernel)

/-- /repo/src/tests.rs:766-795. -/
theorem test_multiple_updates : MockProve [(.StorageChanged, empty_storage_type_1_update_c),
    (.CodeHashExists, existing_account_keccak_codehash_update),
    (.BalanceChanged, empty_account_type_2_balance_update), (.AccountDoesNotExist, empty_account_type_1)] :=
  check_sound (by decide +kernel)

/-- /repo/src/tests.rs:850-859. -/
theorem test_depth_1_type_1_storage : MockProve [(.StorageChanged, depth_1_type_1_storage)] :=
  check_sound (by decide +kernel)

/-- /repo/src/tests.rs:850-859. -/
theorem test_depth_1_type_1_storage_reverse : MockProve [(.StorageChanged, reverse depth_1_type_1_storage)] :=
  check_sound (by decide +kernel)

/-- /repo/src/traces/insert_into_singleton_storage_trie.json, which no test reads. -/
theorem check_singleton_storage_trie : MockProve [(.StorageChanged, insert_into_singleton_storage_trie)] :=
  check_sound (by decide +kernel)

/-- /repo/src/traces/insert_into_singleton_storage_trie.json, which no test reads. -/
theorem check_singleton_storage_trie_reverse : MockProve [(.StorageChanged, reverse insert_into_singleton_storage_trie)] :=
  check_sound (by decide +kernel)

/-- /repo/src/tests.rs:1018-1028. -/
theorem test_create_name_registrator : MockProve createName :=
  check_sound (by decide +kernel)

end Mpt.Fixtures
