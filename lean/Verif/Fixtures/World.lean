import Verif.Fixtures.Checks
import Verif.Props.Operations

set_option autoImplicit false

/-!
# The state model against the trie database

Most tests of /repo/src/tests.rs take their trace from the trie database (`WitnessGenerator`, an external
crate) and compare it with a JSON file of the repository. The specification of states and operations in
`Verif.Spec.World` is meant to describe that database. Here it is compared with the files: with the actual
hash, the operations of each test give exactly the trace of the file, byte for byte. The kernel evaluates both
sides.
-/

namespace Mpt.Fixtures
open Mpt Spec Types Requests MptUpdate Props

deriving instance DecidableEq for SMTNode
deriving instance DecidableEq for SMTPath
deriving instance DecidableEq for AccountData
deriving instance DecidableEq for SMTTrace

/-- `Address::repeat_byte`. -/
def addr (b : ℕ) : List ℕ := List.replicate 20 b

/-- `initial_generator`, /repo/src/tests.rs:15-28. -/
def initialOps : List Op := (List.range 9).map fun i => .setBalance (addr (i + 1)) 1

/-- `initial_storage_generator`, /repo/src/tests.rs:30-42. -/
def storageOps : List Op := initialOps ++ (List.range 20).map fun i => .setSlot (addr 1) (40 + i) 1

/-- The trace of the last of the operations, performed on the empty state. -/
def lastTrace (ops : List Op) : Option SMTTrace := do
  let r ← runOps Poseidon.hash ops World.initial
  let s ← r.2.getLast?
  pure (opTrace Poseidon.hash s.1 s.2.1 s.2.2)

/-- /repo/src/tests.rs:102-131, /repo/src/traces/empty_account_type_1.json. -/
theorem world_empty_account_type_1 :
    lastTrace (initialOps ++ [.absent (addr 0) .AccountDoesNotExist]) = some empty_account_type_1 := by decide +kernel

/-- /repo/src/tests.rs:133-162, /repo/src/traces/empty_account_type_2.json. -/
theorem world_empty_account_type_2 :
    lastTrace (initialOps ++ [.absent (addr 20) .AccountDoesNotExist]) = some empty_account_type_2 := by decide +kernel

/-- /repo/src/tests.rs:265-288, /repo/src/traces/existing_account_balance_update.json. -/
theorem world_existing_account_balance_update :
    lastTrace (initialOps ++ [.setBalance (addr 2) 1231412]) = some existing_account_balance_update := by decide +kernel

/-- /repo/src/tests.rs:290-319, /repo/src/traces/empty_account_type_1_balance_update.json. -/
theorem world_empty_account_type_1_balance_update :
    lastTrace (initialOps ++ [.setBalance (addr 0) 200]) = some empty_account_type_1_balance_update := by decide +kernel

/-- /repo/src/tests.rs:321-350, /repo/src/traces/empty_account_type_2_balance_update.json. -/
theorem world_empty_account_type_2_balance_update :
    lastTrace (initialOps ++ [.setBalance (addr 20) 123124128387]) = some empty_account_type_2_balance_update := by decide +kernel

/-- /repo/src/tests.rs:352-375, /repo/src/traces/existing_account_nonce_update.json. -/
theorem world_existing_account_nonce_update :
    lastTrace (initialOps ++ [.setNonce (addr 4) 1]) = some existing_account_nonce_update := by decide +kernel

/-- /repo/src/tests.rs:377-406, /repo/src/traces/empty_account_type_1_nonce_update.json. -/
theorem world_empty_account_type_1_nonce_update :
    lastTrace (initialOps ++ [.setNonce (addr 11) 200]) = some empty_account_type_1_nonce_update := by decide +kernel

/-- /repo/src/tests.rs:408-437, /repo/src/traces/empty_account_type_2_nonce_update.json. -/
theorem world_empty_account_type_2_nonce_update :
    lastTrace (initialOps ++ [.setNonce (addr 20) 123124128387]) = some empty_account_type_2_nonce_update := by decide +kernel

/-- /repo/src/tests.rs:439-467, /repo/src/traces/existing_account_code_size_update.json. -/
theorem world_existing_account_code_size_update :
    lastTrace (initialOps ++ [.setCodeSize (addr 4) 2342114]) = some existing_account_code_size_update := by decide +kernel

/-- /repo/src/tests.rs:469-492, /repo/src/traces/existing_account_keccak_codehash_update.json. -/
theorem world_existing_account_keccak_codehash_update :
    lastTrace (initialOps ++ [.setCodeHash (addr 8) (1111 + (2 ^ 64 - 1) * 2 ^ 64 + 444 * 2 ^ 128 + 555 * 2 ^ 192)]) = some existing_account_keccak_codehash_update := by decide +kernel

/-- /repo/src/tests.rs:494-517, /repo/src/traces/existing_account_poseidon_codehash_update.json. -/
theorem world_existing_account_poseidon_codehash_update :
    lastTrace (initialOps ++ [.setPoseidonCodeHash (addr 4) (2 ^ 192 - 1 + 2342 * 2 ^ 192)]) = some existing_account_poseidon_codehash_update := by decide +kernel

/-- /repo/src/tests.rs:519-542, /repo/src/traces/existing_storage_update.json. -/
theorem world_existing_storage_update :
    lastTrace (storageOps ++ [.setSlot (addr 1) 40 20]) = some existing_storage_update := by decide +kernel

/-- /repo/src/tests.rs:544-585, /repo/src/traces/empty_storage_type_1_update_a.json. -/
theorem world_empty_storage_type_1_update_a :
    lastTrace (storageOps ++ [.setSlot (addr 1) 23412321 307]) = some empty_storage_type_1_update_a := by decide +kernel

/-- /repo/src/tests.rs:587-628, /repo/src/traces/empty_storage_type_2_update_a.json. -/
theorem world_empty_storage_type_2_update_a :
    lastTrace (storageOps ++ [.setSlot (addr 1) 502 307]) = some empty_storage_type_2_update_a := by decide +kernel

/-- /repo/src/tests.rs:630-671, /repo/src/traces/empty_storage_type_2_update_b.json. -/
theorem world_empty_storage_type_2_update_b :
    lastTrace (storageOps ++ [.setSlot (addr 1) 500 307]) = some empty_storage_type_2_update_b := by decide +kernel

/-- /repo/src/tests.rs:680-721, /repo/src/traces/empty_storage_type_1_update_b.json. -/
theorem world_empty_storage_type_1_update_b :
    lastTrace (storageOps ++ [.setSlot (addr 1) 1 307]) = some empty_storage_type_1_update_b := by decide +kernel

/-- /repo/src/tests.rs:723-764, /repo/src/traces/empty_storage_type_1_update_c.json. -/
theorem world_empty_storage_type_1_update_c :
    lastTrace (storageOps ++ [.setSlot (addr 1) 3 307]) = some empty_storage_type_1_update_c := by decide +kernel

/-! ## Tests whose trace is not in a file

Here the trace is the one of the state model; the circuit accepts it with 2049 rows. -/

/-- The trace of the last operation exists and `mock_prove` accepts it for the claim type. -/
def MockProveLast (t : MPTProofType) (ops : List Op) : Prop :=
  ∃ tr, lastTrace ops = some tr ∧ MockProve [(t, tr)]

/-- The check for `MockProveLast`. -/
def checkLast (t : MPTProofType) (ops : List Op) : Bool :=
  match lastTrace ops with
  | none => false
  | some tr => check [(t, tr)]

theorem checkLast_sound {t : MPTProofType} {ops : List Op} (h : checkLast t ops = true) : MockProveLast t ops := by
  unfold checkLast at h
  split at h
  · simp at h
  · rename_i tr e
    exact ⟨tr, e, check_sound h⟩

/-- /repo/src/tests.rs:164-183. -/
theorem test_empty_account_type_1_zero_BalanceChanged :
    MockProveLast .BalanceChanged (initialOps ++ [.absent (addr 0) .BalanceChanged]) := checkLast_sound (by decide +kernel)

/-- /repo/src/tests.rs:164-183. -/
theorem test_empty_account_type_2_zero_BalanceChanged :
    MockProveLast .BalanceChanged (initialOps ++ [.absent (addr 20) .BalanceChanged]) := checkLast_sound (by decide +kernel)

/-- /repo/src/tests.rs:185-227. -/
theorem test_empty_mpt_zero_BalanceChanged :
    MockProveLast .BalanceChanged ([.absent (addr 232) .BalanceChanged]) := checkLast_sound (by decide +kernel)

/-- /repo/src/tests.rs:185-227. -/
theorem test_singleton_mpt_zero_BalanceChanged :
    MockProveLast .BalanceChanged ([.setBalance (addr 1) 23, .absent (addr 2) .BalanceChanged]) := checkLast_sound (by decide +kernel)

/-- /repo/src/tests.rs:164-183. -/
theorem test_empty_account_type_1_zero_NonceChanged :
    MockProveLast .NonceChanged (initialOps ++ [.absent (addr 0) .NonceChanged]) := checkLast_sound (by decide +kernel)

/-- /repo/src/tests.rs:164-183. -/
theorem test_empty_account_type_2_zero_NonceChanged :
    MockProveLast .NonceChanged (initialOps ++ [.absent (addr 20) .NonceChanged]) := checkLast_sound (by decide +kernel)

/-- /repo/src/tests.rs:185-227. -/
theorem test_empty_mpt_zero_NonceChanged :
    MockProveLast .NonceChanged ([.absent (addr 232) .NonceChanged]) := checkLast_sound (by decide +kernel)

/-- /repo/src/tests.rs:185-227. -/
theorem test_singleton_mpt_zero_NonceChanged :
    MockProveLast .NonceChanged ([.setBalance (addr 1) 23, .absent (addr 2) .NonceChanged]) := checkLast_sound (by decide +kernel)

/-- /repo/src/tests.rs:164-183. -/
theorem test_empty_account_type_1_zero_CodeSizeExists :
    MockProveLast .CodeSizeExists (initialOps ++ [.absent (addr 0) .CodeSizeExists]) := checkLast_sound (by decide +kernel)

/-- /repo/src/tests.rs:164-183. -/
theorem test_empty_account_type_2_zero_CodeSizeExists :
    MockProveLast .CodeSizeExists (initialOps ++ [.absent (addr 20) .CodeSizeExists]) := checkLast_sound (by decide +kernel)

/-- /repo/src/tests.rs:185-227. -/
theorem test_empty_mpt_zero_CodeSizeExists :
    MockProveLast .CodeSizeExists ([.absent (addr 232) .CodeSizeExists]) := checkLast_sound (by decide +kernel)

/-- /repo/src/tests.rs:185-227. -/
theorem test_singleton_mpt_zero_CodeSizeExists :
    MockProveLast .CodeSizeExists ([.setBalance (addr 1) 23, .absent (addr 2) .CodeSizeExists]) := checkLast_sound (by decide +kernel)

/-- /repo/src/tests.rs:164-183. -/
theorem test_empty_account_type_1_zero_CodeHashExists :
    MockProveLast .CodeHashExists (initialOps ++ [.absent (addr 0) .CodeHashExists]) := checkLast_sound (by decide +kernel)

/-- /repo/src/tests.rs:164-183. -/
theorem test_empty_account_type_2_zero_CodeHashExists :
    MockProveLast .CodeHashExists (initialOps ++ [.absent (addr 20) .CodeHashExists]) := checkLast_sound (by decide +kernel)

/-- /repo/src/tests.rs:185-227. -/
theorem test_empty_mpt_zero_CodeHashExists :
    MockProveLast .CodeHashExists ([.absent (addr 232) .CodeHashExists]) := checkLast_sound (by decide +kernel)

/-- /repo/src/tests.rs:185-227. -/
theorem test_singleton_mpt_zero_CodeHashExists :
    MockProveLast .CodeHashExists ([.setBalance (addr 1) 23, .absent (addr 2) .CodeHashExists]) := checkLast_sound (by decide +kernel)

/-- /repo/src/tests.rs:229-263. -/
theorem test_empty_storage_of_empty_account_type_1 :
    MockProveLast .StorageDoesNotExist (initialOps ++ [.slotEmpty (addr 0) (2 ^ 256 - 1)]) := checkLast_sound (by decide +kernel)

/-- /repo/src/tests.rs:229-263. -/
theorem test_empty_storage_of_empty_account_type_2 :
    MockProveLast .StorageDoesNotExist (initialOps ++ [.slotEmpty (addr 20) (2 ^ 256 - 1)]) := checkLast_sound (by decide +kernel)

/-- /repo/src/tests.rs:797-818. -/
theorem test_empty_storage_trie_insert :
    MockProveLast .StorageChanged (initialOps ++ [.setSlot (addr 1) 3 324123123]) := checkLast_sound (by decide +kernel)

/-- /repo/src/tests.rs:797-818. -/
theorem test_empty_storage_trie_delete :
    MockProveLast .StorageChanged (initialOps ++ [.setSlot (addr 1) 3 324123123, .setSlot (addr 1) 3 0]) := checkLast_sound (by decide +kernel)

/-- /repo/src/tests.rs:820-848. -/
theorem test_singleton_storage_trie_insert :
    MockProveLast .StorageChanged (initialOps ++ [.setSlot (addr 2) 2 7, .setSlot (addr 2) 3 4]) := checkLast_sound (by decide +kernel)

/-- /repo/src/tests.rs:820-848. -/
theorem test_singleton_storage_trie_delete :
    MockProveLast .StorageChanged (initialOps ++ [.setSlot (addr 2) 2 7, .setSlot (addr 2) 3 4, .setSlot (addr 2) 3 0]) := checkLast_sound (by decide +kernel)

/-- /repo/src/tests.rs:861-887. -/
theorem test_depth_1_type_1_empty_storage :
    MockProveLast .StorageDoesNotExist (initialOps ++ [.setSlot (addr 2) 2 7, .setSlot (addr 2) 10 7, .slotEmpty (addr 2) 3]) := checkLast_sound (by decide +kernel)

/-- /repo/src/tests.rs:889-910. -/
theorem test_empty_storage_type_1 :
    MockProveLast .StorageDoesNotExist (storageOps ++ [.slotEmpty (addr 1) 3]) := checkLast_sound (by decide +kernel)

/-- /repo/src/tests.rs:912-932. -/
theorem test_empty_storage_type_2 :
    MockProveLast .StorageDoesNotExist (storageOps ++ [.slotEmpty (addr 1) 500]) := checkLast_sound (by decide +kernel)

/-- /repo/src/tests.rs:934-949. -/
theorem test_empty_mpt :
    MockProveLast .BalanceChanged ([.setBalance (addr 2) 1231412]) := checkLast_sound (by decide +kernel)

/-- /repo/src/tests.rs:951-966. -/
theorem test_empty_mpt_empty_account :
    MockProveLast .AccountDoesNotExist ([.absent (addr 232) .AccountDoesNotExist]) := checkLast_sound (by decide +kernel)

/-- /repo/src/tests.rs:968-991. -/
theorem test_singleton_mpt :
    MockProveLast .BalanceChanged ([.setBalance (addr 1) 23, .setBalance (addr 2) 15]) := checkLast_sound (by decide +kernel)

/-- /repo/src/tests.rs:993-1016. -/
theorem test_singleton_mpt_empty_account :
    MockProveLast .AccountDoesNotExist ([.setBalance (addr 1) 23, .absent (addr 2) .AccountDoesNotExist]) := checkLast_sound (by decide +kernel)

end Mpt.Fixtures
