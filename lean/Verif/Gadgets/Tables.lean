import Verif.Gadgets.OneHot

set_option autoImplicit false

/-!
# Constraint programs of the table gadgets

Models of the `configure` functions of
/repo/src/gadgets/{byte_bit,byte_representation,canonical_representation,key_bit}.rs as builder
programs, and of the fixed columns that `MptCircuitConfig::assign` fills in.
-/

namespace Mpt

/-! ## byte_bit.rs -/
namespace ByteBit
/-- `RangeCheck8Lookup::lookup`, byte_bit.rs:57-61. -/
def rangeCheck8 : Query Fr := FixCol.bbIndex.cur
/-- `RangeCheck256Lookup::lookup`, byte_bit.rs:63-67. -/
def rangeCheck256 : Query Fr := FixCol.bbByte.cur
/-- `ByteBitLookup::lookup`, byte_bit.rs:69-78. -/
def lookup : List (Query Fr) := [FixCol.bbByte.cur, FixCol.bbIndex.cur, FixCol.bbBit.cur]
/-- `n_rows_required`, byte_bit.rs:51-54. -/
def nRowsRequired : ℕ := 256 * 8 + 1
/-- `ByteBitGadget::configure` adds no constraints, byte_bit.rs:25-31. -/
def configure : List (Cmd Fr) := []
end ByteBit

/-! ## byte_representation.rs -/
namespace ByteRep

/-- `index_is_zero`, byte_representation.rs:65. -/
def indexIsZero : IsZeroGadget := ⟨.brIndex, .brIndexInv⟩

/-- `RlcLookup::lookup`, byte_representation.rs:38-46. -/
def rlcLookup : List (Query Fr) := [AdvCol.brValue.cur, AdvCol.brIndex.cur, AdvCol.brRlc.cur]
/-- `BytesLookup::lookup`, byte_representation.rs:48-52. -/
def bytesLookup : List (Query Fr) := [AdvCol.brValue.cur, AdvCol.brIndex.cur]

/-- `ByteRepresentationConfig::configure`, byte_representation.rs:55-96. -/
def configure : List (Cmd Fr) :=
  indexIsZero.configure ++
  [ .cond FixCol.brIsFirst.cur [.assertZero "index is 0 for first row" AdvCol.brIndex.cur],
    .assertZero "index is 0 or increases by 1"
      (AdvCol.brIndex.cur * (AdvCol.brIndex.cur - AdvCol.brIndex.prev - 1)),
    .assertEqual "current value = previous value * 256 * (index != 0) + byte"
      AdvCol.brValue.cur
      (AdvCol.brValue.prev * 256 * Query.bnot indexIsZero.current + AdvCol.brByte.cur),
    .assertEqual "current rlc = previous rlc * randomness * (index != 0) + byte"
      AdvCol.brRlc.cur
      (AdvCol.brRlc.prev * .challenge * Query.bnot indexIsZero.current + AdvCol.brByte.cur),
    .lookup "0 <= byte < 256" [(AdvCol.brByte.cur, ByteBit.rangeCheck256)] ]

/-- `n_rows_required`, byte_representation.rs:144-147, from the list lengths. -/
def nRowsRequired (u32s u64s u128s frs : ℕ) : ℕ := 1 + u32s * 4 + u64s * 8 + u128s * 16 + frs * 31
end ByteRep

/-! ## canonical_representation.rs -/
namespace Canonical

/-- `difference_is_zero`, canonical_representation.rs:57. -/
def differenceIsZero : IsZeroGadget := ⟨.crDifference, .crDiffInv⟩

/-- `(0..32).map(|i| byte.rotation(i)).fold(Query::zero(), |acc, x| acc * 256 + x)`,
canonical_representation.rs:69-71. -/
def byteSum : Query Fr :=
  (List.range 32).foldl (fun acc (i : ℕ) => acc * 256 + AdvCol.crByte.rot (i : ℤ)) 0

/-- `CanonicalRepresentationLookup::lookup`, canonical_representation.rs:333-341. -/
def lookup : List (Query Fr) := [AdvCol.crValue.cur, FixCol.crIndex.cur, AdvCol.crByte.cur]
/-- `FrRlcLookup::lookup`, canonical_representation.rs:343-350. -/
def frRlcLookup : List (Query Fr) :=
  [AdvCol.crValue.cur * FixCol.crIndexIs31.cur, AdvCol.crRlc.cur * FixCol.crIndexIs31.cur]

/-- `CanonicalRepresentationConfig::configure`, canonical_representation.rs:46-133. -/
def configure : List (Cmd Fr) :=
  binaryColumn .crZeroSoFar ++ differenceIsZero.configure ++
  [ .assertEqual "difference = modulus_byte - byte" AdvCol.crDifference.cur
      (FixCol.crModulusByte.cur - AdvCol.crByte.cur),
    .cond FixCol.crIndexIsZero.cur
      [ .assertEqual "every group of 32 bytes represent value" AdvCol.crValue.cur byteSum,
        .assert "differences_are_zero_so_far = 1 when index = 0" AdvCol.crZeroSoFar.cur,
        .assertEqual "???????" AdvCol.crRlc.cur AdvCol.crByte.cur ],
    .cond (Query.bnot FixCol.crIndexIsZero.cur)
      [ .assertEqual "value can only change when index = 0" AdvCol.crValue.cur AdvCol.crValue.prev,
        .assertEqual "differences_are_zero_so_far = difference == 0 && differences_are_zero_so_far.previous() when index != 0"
          AdvCol.crZeroSoFar.cur (Query.band AdvCol.crZeroSoFar.prev differenceIsZero.previous),
        .assertEqual "???" AdvCol.crRlc.cur (AdvCol.crRlc.prev * .challenge + AdvCol.crByte.cur) ],
    .lookup "0 <= byte < 256" [(AdvCol.crByte.cur, ByteBit.rangeCheck256)],
    .cond (Query.band AdvCol.crZeroSoFar.cur (Query.bnot differenceIsZero.current))
      [ .lookup "0 <= first nonzero difference < 256"
          [(AdvCol.crDifference.cur, ByteBit.rangeCheck256)] ],
    .cond (FixCol.crIndexIsZero.rot (-31))
      [ .assert "there is at least 1 nonzero difference"
          (Query.bnot (Query.band AdvCol.crZeroSoFar.cur differenceIsZero.current)) ] ]

/-- `n_rows_required`, canonical_representation.rs:327-330. -/
def nRowsRequired (values : ℕ) : ℕ := values * 32 + 1
end Canonical

/-! ## key_bit.rs -/
namespace KeyBit

/-- `KeyBitLookup::lookup`, key_bit.rs:167-175. -/
def lookup : List (Query Fr) := [AdvCol.kbValue.cur, AdvCol.kbIndex.cur, AdvCol.kbBit.cur]

/-- `KeyBitConfig::configure`, key_bit.rs:32-86. -/
def configure : List (Cmd Fr) :=
  [ .lookup "0 <= index < 256" [(AdvCol.kbIndex.cur, ByteBit.rangeCheck256)],
    .lookup "0 <= index_div_8 < 256" [(AdvCol.kbDiv8.cur, ByteBit.rangeCheck256)],
    .lookup "0 <= index_mod_8 < 8" [(AdvCol.kbMod8.cur, ByteBit.rangeCheck8)],
    .lookup "byte in canonical representation"
      (List.zip [AdvCol.kbValue.cur, 31 - AdvCol.kbDiv8.cur, AdvCol.kbByte.cur] Canonical.lookup),
    .lookup "bit is correct"
      (List.zip [AdvCol.kbByte.cur, AdvCol.kbMod8.cur, AdvCol.kbBit.cur] ByteBit.lookup),
    .assertEqual "index = index_div_8 * 8 + index_mod_8" AdvCol.kbIndex.cur
      (AdvCol.kbDiv8.cur * 8 + AdvCol.kbMod8.cur) ]

/-- `n_rows_required`, key_bit.rs:161-164. -/
def nRowsRequired (lookups : ℕ) : ℕ := 1 + lookups
end KeyBit

/-! ## Fixed columns

Closed form of what `MptCircuitConfig::assign` writes to the fixed columns
(/repo/src/mpt.rs:201-250, byte_bit.rs:33-49, byte_representation.rs:107,
canonical_representation.rs:143-193). `Verif.Assign` proves that the model of the assignment code
produces exactly these cells. -/

/-- Big-endian bytes of `Fr::MODULUS`, canonical_representation.rs:142-144. -/
def modulusBytes : List ℕ :=
  [0x30, 0x64, 0x4e, 0x72, 0xe1, 0x31, 0xa0, 0x29, 0xb8, 0x50, 0x45, 0xb6, 0x81, 0x81, 0x58, 0x5d,
   0x28, 0x33, 0xe8, 0x48, 0x79, 0xb9, 0x70, 0x91, 0x43, 0xe1, 0xf5, 0x93, 0xf0, 0x00, 0x00, 0x01]

/-- Content of the fixed columns for a circuit of `n` rows; `posEnable` belongs to the Poseidon
table and is not assigned by this code. Unassigned fixed cells are 0.
/repo/src/mpt.rs:112-160, /repo/src/gadgets/byte_bit.rs:33-50, /repo/src/gadgets/canonical_representation.rs:135-215. -/
def fixedCell (n : ℕ) : FixCol → ℤ → Fr
  | .selector, r => if 1 ≤ r ∧ r < n then 1 else 0
  | .isFinalRow, r => if r = (n : ℤ) - 1 then 1 else 0
  | .brIsFirst, r => if r = 0 then 1 else 0
  | .crIndex, r => if 1 ≤ r ∧ r ≤ 32 * (n / 32 : ℕ) then (((r - 1) % 32).toNat : Fr) else 0
  | .crIndexIsZero, r => if 1 ≤ r ∧ r ≤ 32 * (n / 32 : ℕ) ∧ (r - 1) % 32 = 0 then 1 else 0
  | .crIndexIs31, r => if 1 ≤ r ∧ r ≤ 32 * (n / 32 : ℕ) ∧ (r - 1) % 32 = 31 then 1 else 0
  | .crModulusByte, r => if 1 ≤ r ∧ r ≤ 32 * (n / 32 : ℕ) then
      ((modulusBytes.getD ((r - 1) % 32).toNat 0 : ℕ) : Fr) else 0
  | .bbByte, r => if 1 ≤ r ∧ r ≤ 2048 then (((r - 1) / 8).toNat : Fr) else 0
  | .bbIndex, r => if 1 ≤ r ∧ r ≤ 2048 then (((r - 1) % 8).toNat : Fr) else 0
  | .bbBit, r => if 1 ≤ r ∧ r ≤ 2048 then
      (if (((r - 1) / 8).toNat).testBit (((r - 1) % 8).toNat) then 1 else 0) else 0
  | .posEnable, _ => 0

/-- The fixed columns of `w` are those of a circuit with `n` rows. Rows are all integers: cells
outside the assigned area are 0. /repo/src/mpt.rs:112-160. -/
def FixedOK (n : ℕ) (w : Witness Fr) : Prop :=
  ∀ c, c ≠ .posEnable → ∀ r, w.fix c r = fixedCell n c r

end Mpt
