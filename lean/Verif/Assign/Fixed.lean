import Verif.Assign.Layout

set_option autoImplicit false

/-!
# The fixed columns written by `MptCircuitConfig::assign` (/repo/src/mpt.rs:112-260)
-/

namespace Mpt
open Spec

namespace ByteBit
/-- One row written by `ByteBitGadget::assign`, byte_bit.rs:35-40. -/
structure Row where
  byte : Fr
  index : Fr
  bit : Fr

/-- The two loops of `assign`, byte_bit.rs:33-43, written from offset 1. `byte & (1 << index) != 0` is
`testBit`. -/
def rows : List Row :=
  (List.range 256).flatMap (fun byte : ℕ => (List.range 8).map (fun index : ℕ =>
    ⟨((byte : ℕ) : Fr), ((index : ℕ) : Fr), if Nat.testBit byte index then 1 else 0⟩))

theorem flatMap_getElem?_8 {α β : Type} (l : List α) (g : α → List β) (hg : ∀ a, (g a).length = 8)
    (k : ℕ) : (l.flatMap g)[k]? = (l[k / 8]?).bind (fun a => (g a)[k % 8]?) := by
  induction l generalizing k with
  | nil => simp
  | cons a l ih =>
    rw [List.flatMap_cons]
    by_cases hk : k < 8
    · rw [List.getElem?_append_left (by rw [hg]; exact hk)]
      simp [Nat.div_eq_of_lt hk, Nat.mod_eq_of_lt hk]
    · rw [List.getElem?_append_right (by rw [hg]; omega), ih, hg]
      have h1 : k / 8 = (k - 8) / 8 + 1 := by omega
      have h2 : k % 8 = (k - 8) % 8 := by omega
      rw [h1, h2, List.getElem?_cons_succ]

theorem rows_getElem? (k : ℕ) : rows[k]? = if k < 2048 then
    some ⟨((k / 8 : ℕ) : Fr), ((k % 8 : ℕ) : Fr), if (k / 8).testBit (k % 8) then 1 else 0⟩
    else none := by
  rw [rows, flatMap_getElem?_8 _ _ (by simp)]
  have h8 : k % 8 < 8 := Nat.mod_lt _ (by norm_num)
  by_cases h : k < 2048
  · rw [if_pos h, List.getElem?_range (by omega), Option.bind_some, List.getElem?_map,
      List.getElem?_range h8]
    rfl
  · rw [if_neg h, List.getElem?_eq_none (by rw [List.length_range]; omega), Option.bind_none]

theorem rows_cells (r : ℤ) :
    tableCell rows Row.byte r = fixedCell 0 .bbByte r ∧
    tableCell rows Row.index r = fixedCell 0 .bbIndex r ∧
    tableCell rows Row.bit r = fixedCell 0 .bbBit r := by
  by_cases hr : 1 ≤ r
  · obtain ⟨k, rfl⟩ : ∃ k : ℕ, r = (k : ℤ) + 1 := ⟨(r - 1).toNat, by omega⟩
    have e1 : (((k : ℤ) + 1 - 1) / 8).toNat = k / 8 := by omega
    have e2 : (((k : ℤ) + 1 - 1) % 8).toNat = k % 8 := by omega
    have e3 : ((k : ℤ) + 1 ≤ 2048) ↔ k < 2048 := by omega
    simp only [tableCell_succ, rows_getElem?, fixedCell, hr, true_and, e1, e2, e3]
    by_cases h : k < 2048 <;> simp [h]
  · have hr' : r ≤ 0 := by omega
    simp [tableCell_nonpos _ _ r hr', fixedCell, hr]
end ByteBit

/-- Enabling a selector on a set of rows, column.rs:22-26. -/
def enabledOn (offsets : List ℕ) (r : ℤ) : Fr := if r ∈ offsets.map (fun k : ℕ => (k : ℤ)) then 1 else 0

/-- The fixed cells after `MptCircuitConfig::assign`, mpt.rs:112-260, with `keys` the sorted key list
(mpt.rs:166-172); `ρ` is the challenge. `none`: the assertion on the number of keys (mpt.rs:173-178)
fails, or `n_rows / 32 - 1` underflows. The selector is enabled on `1..n_rows` (mpt.rs:204-206), the
final-row marker on `n_rows - 1` (mpt.rs:243), `is_first` on row 0 (byte_representation.rs:103).
`posEnable` belongs to the Poseidon table and is 0 here. -/
def assignFixed (ρ : Fr) (keys : List Fr) (n : ℕ) : Option (FixCol → ℤ → Fr) :=
  if n / 32 = 0 ∨ n / 32 - 1 < keys.length then none
  else (Canonical.assignRows ρ keys n).map fun rows c r =>
    match c with
    | .selector => enabledOn (List.range' 1 (n - 1)) r
    | .isFinalRow => enabledOn [n - 1] r
    | .brIsFirst => enabledOn [0] r
    | .crIndex => tableCell rows Canonical.Row.index r
    | .crIndexIsZero => tableCell rows (fun x => Canonical.bcell x.indexIsZero) r
    | .crIndexIs31 => tableCell rows (fun x => Canonical.bcell x.indexIs31) r
    | .crModulusByte => tableCell rows Canonical.Row.modulusByte r
    | .bbByte => tableCell ByteBit.rows ByteBit.Row.byte r
    | .bbIndex => tableCell ByteBit.rows ByteBit.Row.index r
    | .bbBit => tableCell ByteBit.rows ByteBit.Row.bit r
    | .posEnable => 0

theorem assignFixed_eq (ρ : Fr) (keys : List Fr) (n : ℕ) (h1 : 32 ≤ n)
    (h : keys.length ≤ n / 32 - 1) : assignFixed ρ keys n = some (fixedCell n) := by
  have hv : keys.length ≤ n / 32 := by omega
  have hrows : Canonical.assignRows ρ keys n = some (Canonical.rows ρ keys n) := by
    rw [Canonical.rows, Canonical.assignRows_eq _ _ _ hv]; rfl
  rw [assignFixed, if_neg (by omega), hrows, Option.map_some]
  congr 1
  funext c r
  have hc := fun c hc => Canonical.fixCell_eq ρ keys n hv c hc r
  cases c with
  | selector =>
    have e : (r ∈ (List.range' 1 (n - 1)).map (fun k : ℕ => (k : ℤ))) ↔ (1 ≤ r ∧ r < n) := by
      simp only [List.mem_map, List.mem_range'_1]
      constructor
      · rintro ⟨k, hk, rfl⟩; omega
      · rintro ⟨h2, h3⟩; exact ⟨r.toNat, by omega, by omega⟩
    simp only [enabledOn, fixedCell, e]
  | isFinalRow =>
    have e : (r ∈ [n - 1].map (fun k : ℕ => (k : ℤ))) ↔ r = (n : ℤ) - 1 := by
      simp only [List.map_cons, List.map_nil, List.mem_singleton]; omega
    simp only [enabledOn, fixedCell, e]
  | brIsFirst => simp [enabledOn, fixedCell]
  | crIndex => exact hc .crIndex (by simp)
  | crIndexIsZero => exact hc .crIndexIsZero (by simp)
  | crIndexIs31 => exact hc .crIndexIs31 (by simp)
  | crModulusByte => exact hc .crModulusByte (by simp)
  | bbByte => exact (ByteBit.rows_cells r).1
  | bbIndex => exact (ByteBit.rows_cells r).2.1
  | bbBit => exact (ByteBit.rows_cells r).2.2
  | posEnable => rfl

end Mpt
