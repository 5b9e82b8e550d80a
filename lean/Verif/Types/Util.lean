import Mathlib.Data.Nat.Digits.Lemmas
import Verif.Spec.Bytes
import Verif.Enums

set_option autoImplicit false

/-!
# Model of /repo/src/util.rs and of the helpers at the end of /repo/src/types.rs

Conventions: a `U256` is a natural number below `2^256`, a `BigUint` any natural number, a `u64` or
`u128` a natural number in range; byte arrays are lists of numbers below 256; `none` is a panic.
The hash `Hashable::hash_with_domain` is an arbitrary function `H`.
-/

namespace Mpt.Types
open Mpt Spec

/-- Integer of a little-endian byte string.
`Fr::from_bytes`, `U256::from_little_endian`, used at /repo/src/util.rs:10-34. -/
def leVal (l : List ℕ) : ℕ := beVal l.reverse

/-- `fr`, /repo/src/util.rs:10-12 and /repo/src/types.rs:963-965: `Fr::from_bytes` reads 32
little-endian bytes and rejects integers that are not below the modulus. -/
def fr (x : List ℕ) : Option Fr := if leVal x < frModulus then some (leVal x : Fr) else none

/-- `domain_hash`, /repo/src/util.rs:14-16. -/
def domainHash (H : HashFn) (x y : Fr) (d : HashDomain) : Fr := H x y d.toFr

/-- `<Fr as Bit>::bit`, /repo/src/util.rs:22-31 and /repo/src/types.rs:989-997. `to_bytes` is
little-endian. `31 - i / 8` is a `usize` subtraction: for `i ≥ 256` it panics when the build has
overflow checks, otherwise it wraps around and `get` finds no byte. -/
def bit (overflowChecks : Bool) (x : Fr) (i : ℕ) : Option Bool :=
  if i / 8 ≤ 31 then
    some (((frBytes x)[31 - i / 8]?.map fun byte : ℕ => byte &&& (1 <<< (i % 8)) != 0).getD false)
  else if overflowChecks then none else some false

/-- `u256_from_hex`, /repo/src/util.rs:32-34. -/
def u256FromHex (x : List ℕ) : ℕ := beVal x

/-- `u256_to_big_endian`, /repo/src/util.rs:80-84. -/
def u256ToBigEndian (x : ℕ) : List ℕ := beBytes 32 x

/-- `split_word`, /repo/src/util.rs:36-51. -/
def splitWord (x : ℕ) : Fr × Fr :=
  ((beVal ((u256ToBigEndian x).take 16) : Fr), (beVal ((u256ToBigEndian x).drop 16) : Fr))

/-- The four little-endian 64-bit limbs of a `U256` (field `0`). Used at /repo/src/util.rs:53-58. -/
def limb (x i : ℕ) : ℕ := x / 2 ^ (64 * i) % 2 ^ 64

/-- `u256_hi_lo`, /repo/src/util.rs:53-59. -/
def u256HiLo (x : ℕ) : ℕ × ℕ := ((limb x 3 <<< 64) + limb x 2, (limb x 1 <<< 64) + limb x 0)

/-- `fr_from_biguint`, /repo/src/util.rs:60-67, and `big_uint_to_fr`, /repo/src/types.rs:967-974
(same code): a fold over the 64-bit digits, most significant first. -/
def frFromBiguint (n : ℕ) : Fr :=
  (Nat.digits (2 ^ 64) n).reverse.foldl
    (fun (a : Fr) (b : ℕ) => a * (((2 ^ 32 : ℕ) : Fr) * ((2 ^ 32 : ℕ) : Fr)) + (b : Fr)) 0

/-- `rlc`, /repo/src/util.rs:69-74. -/
def rlcFold (be : List ℕ) (ρ : Fr) : Fr := be.foldl (fun (acc : Fr) (b : ℕ) => ρ * acc + (b : Fr)) 0

/-- `u256_from_biguint`, /repo/src/util.rs:76-78: `U256::from_big_endian` panics on more than 32
bytes. -/
def u256FromBiguint (n : ℕ) : Option ℕ := if n < 2 ^ 256 then some n else none

/-- `storage_key_hash`, /repo/src/util.rs:86-89. -/
def storageKeyHash (H : HashFn) (key : ℕ) : Fr :=
  domainHash H (splitWord key).1 (splitWord key).2 .Pair

/-- The preimage of `account_key`, /repo/src/util.rs:91-97: 16 high bytes, 4 low bytes shifted left
by 96 bits in a `u128`. -/
def accountKeyPreimage (address : List ℕ) : Fr × Fr :=
  ((beVal (address.take 16) : Fr), ((beVal (address.drop 16) <<< 96 : ℕ) : Fr))

/-- `account_key`, /repo/src/util.rs:91-99. -/
def accountKey (H : HashFn) (address : List ℕ) : Fr :=
  domainHash H (accountKeyPreimage address).1 (accountKeyPreimage address).2 .Pair

/-- `check_domain_consistency`, /repo/src/util.rs:101-113: `true` when it returns, `false` when the
assertion panics. -/
def checkDomainConsistency (before after : HashDomain) (direction : Bool) : Bool :=
  if direction then
    (before == .Branch0 && after == .Branch1) || (before == .Branch2 && after == .Branch3)
  else
    (before == .Branch0 && after == .Branch2) || (before == .Branch1 && after == .Branch3)

/-- `hi_lo`, /repo/src/types.rs:976-983: the digits are resized to exactly four. -/
def hiLo (n : ℕ) : Fr × Fr :=
  let d := ((Nat.digits (2 ^ 64) n) ++ List.replicate 4 0).take 4
  ((((d.getD 3 0) <<< 64) + d.getD 2 0 : ℕ), (((d.getD 1 0) <<< 64) + d.getD 0 0 : ℕ))

/-- `address_high` / `address_low`, /repo/src/gadgets/mpt_update.rs:2038-2046. -/
def addressHigh (address : List ℕ) : ℕ := beVal (address.take 16)
/-- `address_low`, /repo/src/gadgets/mpt_update.rs:2043-2047. -/
def addressLow (address : List ℕ) : ℕ := beVal (address.drop 16)

end Mpt.Types
