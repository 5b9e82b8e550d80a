import Verif.Assign.ByteRep

set_option autoImplicit false

/-!
# Model of `CanonicalRepresentationConfig::assign` and `assign_par`
(/repo/src/gadgets/canonical_representation.rs:135-330)
-/

namespace Mpt
open Spec
namespace Canonical

/-- One written row. The inverse written by `difference_is_zero.assign` is determined by
`difference`. /repo/src/gadgets/canonical_representation.rs:152-190. -/
structure Row where
  byte : Fr
  modulusByte : Fr
  index : Fr
  indexIsZero : Bool
  indexIs31 : Bool
  difference : Fr
  zeroSoFar : Bool
  value : Fr
  rlc : Fr

/-- The inner loop, canonical_representation.rs:151-181 (and 263-293): `z` is
`differences_are_zero_so_far`, `x` is `rlc`. -/
def loop (ρ v : Fr) : Bool → Fr → ℕ → List (ℕ × ℕ) → List Row
  | _, _, _, [] => []
  | z, x, index, (byte, modulusByte) :: rest =>
    let difference : Fr := (modulusByte : Fr) - (byte : Fr)
    let x' := x * ρ + (byte : Fr)
    ⟨byte, modulusByte, index, decide (index = 0), decide (index ≠ 0 ∧ index = 31), difference, z, v, x'⟩ ::
      loop ρ v (z && decide (difference = 0)) x' (index + 1) rest

/-- The rows of one value, canonical_representation.rs:147-182: `bytes` is the big-endian canonical
representation, zipped with the bytes of the modulus. -/
def groupRows (ρ v : Fr) : List Row := loop ρ v true 0 0 (List.zip (frBytes v) modulusBytes)

/-- One padding group, canonical_representation.rs:192-213: byte, value and rlc are not written. -/
def paddingRows : List Row :=
  modulusBytes.zipIdx.map (fun p =>
    ⟨0, (p.1 : Fr), (p.2 : Fr), decide (p.2 = 0), decide (p.2 ≠ 0 ∧ p.2 = 31), (p.1 : Fr),
      decide (p.2 = 0), 0, 0⟩)

/-- `assign`, canonical_representation.rs:135-215; `none` = the panic on the underflow of
`n_rows / 32 - values.len()`. -/
def assignRows (ρ : Fr) (values : List Fr) (n : ℕ) : Option (List Row) :=
  if values.length ≤ n / 32 then
    some (values.flatMap (groupRows ρ) ++
      (List.replicate (n / 32 - values.length) paddingRows).flatten)
  else none

/-- The padded list of `assign_par`, canonical_representation.rs:229-236:
`values.iter().chain(repeat(&zero)).take(n_rows / 32)`. -/
def paddedValues (values : List Fr) (n : ℕ) : List Fr :=
  (values ++ List.replicate (n / 32) 0).take (n / 32)

/-- Group `j` of the table. Closed form of /repo/src/gadgets/canonical_representation.rs:152-190. -/
def rowSpec (ρ v : Fr) (i : ℕ) : Row :=
  ⟨(((frBytes v).getD i 0 : ℕ) : Fr), ((modulusBytes.getD i 0 : ℕ) : Fr), (i : Fr), decide (i = 0),
    decide (i ≠ 0 ∧ i = 31),
    ((modulusBytes.getD i 0 : ℕ) : Fr) - (((frBytes v).getD i 0 : ℕ) : Fr),
    decide ((frBytes v).take i = modulusBytes.take i), v, Spec.rlc ρ ((frBytes v).take (i + 1))⟩

theorem byte_diff_zero {a b : ℕ} (ha : a < 256) (hb : b < 256) :
    ((b : Fr) - (a : Fr) = 0) ↔ a = b := by
  rw [sub_eq_zero]
  have := frModulus_big
  constructor
  · intro h; exact (natCast_inj_of_lt (by omega) (by omega) h).symm
  · rintro rfl; rfl

theorem loop_getElem? (ρ v : Fr) (z : Bool) (x : Fr) (j : ℕ) (bs ms : List ℕ)
    (hl : bs.length = ms.length) (hb : IsBytes bs) (hm : IsBytes ms) (k : ℕ) (hk : k < bs.length) :
    (loop ρ v z x j (List.zip bs ms))[k]? = some ⟨((bs.getD k 0 : ℕ) : Fr), ((ms.getD k 0 : ℕ) : Fr),
      ((j + k : ℕ) : Fr), decide (j + k = 0), decide (j + k ≠ 0 ∧ j + k = 31),
      ((ms.getD k 0 : ℕ) : Fr) - ((bs.getD k 0 : ℕ) : Fr),
      z && decide (bs.take k = ms.take k), v, x * ρ ^ (k + 1) + Spec.rlc ρ (bs.take (k + 1))⟩ := by
  induction bs generalizing z x j ms k with
  | nil => simp at hk
  | cons b bs ih =>
    cases ms with
    | nil => simp at hl
    | cons m ms =>
      rw [isBytes_cons] at hb hm
      cases k with
      | zero => simp [loop, Spec.rlc]
      | succ k =>
        simp only [List.zip_cons_cons, loop, List.getElem?_cons_succ]
        rw [ih _ _ _ ms (by simpa using hl) hb.2 hm.2 k (by simpa using hk)]
        have hk' : k < bs.length := by simpa using hk
        have hlen : (bs.take (k + 1)).length = k + 1 := by simp; omega
        simp only [Option.some.injEq, Row.mk.injEq, List.getD_cons_succ, List.take_succ_cons,
          Spec.rlc, hlen, List.cons.injEq, true_and]
        refine ⟨by congr 1; omega, by congr 1; apply propext; omega,
          by congr 1; apply propext; omega, ?_, by ring⟩
        rw [Bool.and_assoc]
        congr 1
        rw [← Bool.decide_and]
        congr 1
        apply propext
        rw [byte_diff_zero hb.1 hm.1]

theorem loop_length (ρ v : Fr) (z : Bool) (x : Fr) (j : ℕ) (l : List (ℕ × ℕ)) :
    (loop ρ v z x j l).length = l.length := by
  induction l generalizing z x j with
  | nil => rfl
  | cons p l ih => obtain ⟨a, b⟩ := p; simp [loop, ih]

theorem groupRows_length (ρ v : Fr) : (groupRows ρ v).length = 32 := by
  simp [groupRows, loop_length, modulusBytes_length]

theorem isBytes_modulus : IsBytes modulusBytes := by
  intro b hb
  have : ∀ x ∈ modulusBytes, x < 256 := by decide
  exact this b hb

theorem groupRows_getElem? (ρ v : Fr) (i : ℕ) (hi : i < 32) :
    (groupRows ρ v)[i]? = some (rowSpec ρ v i) := by
  rw [groupRows, loop_getElem? ρ v true 0 0 _ _ (by simp [modulusBytes_length]) (isBytes_frBytes v)
    isBytes_modulus i (by simpa using hi)]
  simp [rowSpec]

theorem frBytes_zero : frBytes 0 = List.replicate 32 0 := by
  simp [frBytes, beBytes, List.replicate]

/-- A padding group is the group of the value 0. -/
theorem paddingRows_eq (ρ : Fr) : paddingRows = groupRows ρ 0 := by
  apply List.ext_getElem?
  intro i
  by_cases hi : i < 32
  · rw [groupRows_getElem? ρ 0 i hi]
    have h1 : i < modulusBytes.length := by rw [modulusBytes_length]; exact hi
    simp only [paddingRows, List.getElem?_map, List.getElem?_zipIdx,
      List.getElem?_eq_getElem h1, Option.map_some, rowSpec, frBytes_zero]
    have hz : (List.replicate 32 (0 : ℕ)).getD i 0 = 0 := by
      rw [getD_eq_getElem' (by simpa using hi)]
      exact List.getElem_replicate ..
    have hr : ∀ k : ℕ, Spec.rlc ρ (List.replicate k 0) = 0 := by
      intro k
      induction k with
      | zero => rfl
      | succ k ih => simp [List.replicate_succ, Spec.rlc, ih]
    have hrlc : Spec.rlc ρ ((List.replicate 32 (0 : ℕ)).take (i + 1)) = 0 := by
      rw [List.take_replicate, hr]
    have hz2 : decide ((List.replicate 32 (0 : ℕ)).take i = modulusBytes.take i) = decide (i = 0) := by
      congr 1; apply propext
      constructor
      · intro h
        by_contra h0
        have := congrArg (fun l => l.getD 0 0) h
        obtain ⟨j, rfl⟩ : ∃ j, i = j + 1 := ⟨i - 1, by omega⟩
        simp [List.replicate_succ, modulusBytes] at this
      · rintro rfl; rfl
    rw [hrlc, hz2, hz, getD_eq_getElem' h1]
    simp
  · rw [List.getElem?_eq_none (by simp [paddingRows, modulusBytes_length]; omega),
      List.getElem?_eq_none (by rw [groupRows_length]; omega)]

theorem flatMap_getElem?_const {α β : Type} (l : List α) (g : α → List β) (hg : ∀ a, (g a).length = 32)
    (k : ℕ) : (l.flatMap g)[k]? = (l[k / 32]?).bind (fun a => (g a)[k % 32]?) := by
  induction l generalizing k with
  | nil => simp
  | cons a l ih =>
    rw [List.flatMap_cons]
    by_cases hk : k < 32
    · rw [List.getElem?_append_left (by rw [hg]; exact hk)]
      simp [Nat.div_eq_of_lt hk, Nat.mod_eq_of_lt hk]
    · rw [List.getElem?_append_right (by rw [hg]; omega), ih, hg]
      have h1 : k / 32 = (k - 32) / 32 + 1 := by omega
      have h2 : k % 32 = (k - 32) % 32 := by omega
      rw [h1, h2, List.getElem?_cons_succ]

theorem paddedValues_getElem? (values : List Fr) (n : ℕ) (hv : values.length ≤ n / 32) (j : ℕ) :
    (paddedValues values n)[j]? = if j < n / 32 then some (values.getD j 0) else none := by
  simp only [paddedValues, List.getElem?_take]
  split
  · by_cases h : j < values.length
    · rw [List.getElem?_append_left h, List.getElem?_eq_getElem h, getD_eq_getElem' h]
    · rw [List.getElem?_append_right (by omega), List.getElem?_replicate,
        if_pos (by omega), List.getD_eq_default _ _ (by omega)]
  · rfl

/-- Serial `assign` writes exactly the groups of the padded value list, i.e. the same rows as
`assign_par`. -/
theorem assignRows_eq (ρ : Fr) (values : List Fr) (n : ℕ) (hv : values.length ≤ n / 32) :
    assignRows ρ values n = some ((paddedValues values n).flatMap (groupRows ρ)) := by
  rw [assignRows, if_pos hv]
  have : paddedValues values n = values ++ List.replicate (n / 32 - values.length) 0 := by
    rw [paddedValues, List.take_append, List.take_of_length_le hv, List.take_replicate]
    congr 2; omega
  rw [this, List.flatMap_append, paddingRows_eq ρ]
  congr 2
  induction n / 32 - values.length with
  | zero => rfl
  | succ k ih => simp [List.replicate_succ, ih]

/-- The rows written by `assign`. /repo/src/gadgets/canonical_representation.rs:135-215. -/
def rows (ρ : Fr) (values : List Fr) (n : ℕ) : List Row := (assignRows ρ values n).getD []

theorem rows_getElem? (ρ : Fr) (values : List Fr) (n : ℕ) (hv : values.length ≤ n / 32) (k : ℕ) :
    (rows ρ values n)[k]? =
      if k < 32 * (n / 32) then some (rowSpec ρ (values.getD (k / 32) 0) (k % 32)) else none := by
  rw [rows, assignRows_eq ρ values n hv, Option.getD_some,
    flatMap_getElem?_const _ _ (groupRows_length ρ), paddedValues_getElem? _ _ hv]
  by_cases h : k < 32 * (n / 32)
  · rw [if_pos (by omega), if_pos h, Option.bind_some,
      groupRows_getElem? _ _ _ (Nat.mod_lt _ (by norm_num))]
  · rw [if_neg (by omega), if_neg h, Option.bind_none]

/-- A Boolean cell. As `BinaryColumn::assign`, /repo/src/constraint_builder/binary_column.rs:41-55. -/
def bcell (b : Bool) : Fr := if b then 1 else 0

/-- Content of the advice columns after `assign`. /repo/src/gadgets/canonical_representation.rs:135-215. -/
def cell (ρ : Fr) (values : List Fr) (n : ℕ) : AdvCol → ℤ → Fr
  | .crByte, r => tableCell (rows ρ values n) (·.byte) r
  | .crValue, r => tableCell (rows ρ values n) (·.value) r
  | .crRlc, r => tableCell (rows ρ values n) (·.rlc) r
  | .crDifference, r => tableCell (rows ρ values n) (·.difference) r
  | .crDiffInv, r => tableCell (rows ρ values n) (fun x => IsZeroGadget.assignInverse x.difference) r
  | .crZeroSoFar, r => tableCell (rows ρ values n) (fun x => bcell x.zeroSoFar) r
  | _, _ => 0

/-- Content of the fixed columns after `assign`. /repo/src/gadgets/canonical_representation.rs:135-215. -/
def fixCell (ρ : Fr) (values : List Fr) (n : ℕ) : FixCol → ℤ → Fr
  | .crIndex, r => tableCell (rows ρ values n) (·.index) r
  | .crIndexIsZero, r => tableCell (rows ρ values n) (fun x => bcell x.indexIsZero) r
  | .crIndexIs31, r => tableCell (rows ρ values n) (fun x => bcell x.indexIs31) r
  | .crModulusByte, r => tableCell (rows ρ values n) (·.modulusByte) r
  | _, _ => 0

/-- The fixed columns written by `assign` do not depend on the values: they are `fixedCell n`. -/
theorem fixCell_eq (ρ : Fr) (values : List Fr) (n : ℕ) (hv : values.length ≤ n / 32) (c : FixCol)
    (hc : c ∈ [FixCol.crIndex, .crIndexIsZero, .crIndexIs31, .crModulusByte]) (r : ℤ) :
    fixCell ρ values n c r = fixedCell n c r := by
  by_cases hr : 1 ≤ r
  · obtain ⟨k, rfl⟩ : ∃ k : ℕ, r = (k : ℤ) + 1 := ⟨(r - 1).toNat, by omega⟩
    have h2 : (1 : ℤ) ≤ (k : ℤ) + 1 := hr
    have h3 : ((k : ℤ) + 1 ≤ 32 * ((n / 32 : ℕ) : ℤ)) ↔ k < 32 * (n / 32) := by omega
    have h4 : ((((k : ℤ) + 1 - 1) % 32).toNat) = k % 32 := by omega
    have h5 : ((((k : ℤ) + 1 - 1) % 32) = 0) ↔ k % 32 = 0 := by omega
    have h6 : ((((k : ℤ) + 1 - 1) % 32) = 31) ↔ k % 32 = 31 := by omega
    simp only [List.mem_cons, List.not_mem_nil, or_false] at hc
    rcases hc with rfl | rfl | rfl | rfl <;>
      simp only [fixCell, fixedCell, tableCell_succ, rows_getElem? ρ values n hv, h2, true_and, h3,
        h4, h5, h6] <;>
      by_cases hk : k < 32 * (n / 32) <;> simp [hk, rowSpec, bcell]
    congr 1; apply propext; omega
  · simp only [List.mem_cons, List.not_mem_nil, or_false] at hc
    rcases hc with rfl | rfl | rfl | rfl <;>
      simp [fixCell, fixedCell, tableCell, hr]

variable {n U : ℕ} {w : Witness Fr}

/-- The canonical-representation columns of `w` are those written by `assign`.
Models /repo/src/gadgets/canonical_representation.rs:135-215. -/
def Assigned (w : Witness Fr) (values : List Fr) (n : ℕ) : Prop :=
  ∀ c ∈ [AdvCol.crByte, .crValue, .crRlc, .crDifference, .crDiffInv, .crZeroSoFar], ∀ r,
    w.adv c r = cell w.chal values n c r

/-- Within the canonical representation of a field element, the first byte that differs from the
modulus is smaller than the modulus' byte. -/
theorem first_diff (v : Fr) (i : ℕ) (hi : i < 32) (hp : (frBytes v).take i = modulusBytes.take i)
    (hne : (frBytes v).getD i 0 ≠ modulusBytes.getD i 0) :
    (frBytes v).getD i 0 < modulusBytes.getD i 0 := by
  by_contra hc
  have hlt : modulusBytes.getD i 0 < (frBytes v).getD i 0 := by omega
  have h1 : i < (frBytes v).length := by simpa using hi
  have h2 : i < modulusBytes.length := by rw [modulusBytes_length]; exact hi
  have e1 : frBytes v = (frBytes v).take i ++ (frBytes v).getD i 0 :: (frBytes v).drop (i + 1) := by
    rw [getD_eq_getElem' h1, ← List.drop_eq_getElem_cons h1, List.take_append_drop]
  have e2 : modulusBytes = modulusBytes.take i ++ modulusBytes.getD i 0 :: modulusBytes.drop (i + 1) := by
    rw [getD_eq_getElem' h2, ← List.drop_eq_getElem_cons h2, List.take_append_drop]
  have hv : beVal (frBytes v) < frModulus := by rw [beVal_frBytes]; exact ZMod.val_lt v
  have hs : beVal (modulusBytes.take i ++ modulusBytes.getD i 0 :: modulusBytes.drop (i + 1)) <
      beVal (modulusBytes.take i ++ (frBytes v).getD i 0 :: (frBytes v).drop (i + 1)) :=
    beVal_lt_of_first_diff _ _ _ _ _ hlt
      (fun b hb => isBytes_modulus b (List.mem_of_mem_drop hb)) (by simp [modulusBytes_length])
  rw [← e2, modulusBytes_beVal, ← hp, ← e1] at hs
  omega

theorem not_all_equal (v : Fr) : frBytes v ≠ modulusBytes := by
  intro h
  have hv : beVal (frBytes v) < frModulus := by rw [beVal_frBytes]; exact ZMod.val_lt v
  rw [h, modulusBytes_beVal] at hv
  omega

theorem take_succ_eq_iff (v : Fr) (i : ℕ) (hi : i < 32) :
    (frBytes v).take (i + 1) = modulusBytes.take (i + 1) ↔
      (frBytes v).take i = modulusBytes.take i ∧ (frBytes v).getD i 0 = modulusBytes.getD i 0 := by
  have h1 : i < (frBytes v).length := by simpa using hi
  have h2 : i < modulusBytes.length := by rw [modulusBytes_length]; exact hi
  rw [getD_eq_getElem' h1, getD_eq_getElem' h2, ← List.take_append_getElem h1,
    ← List.take_append_getElem h2]
  constructor
  · intro h
    have hl : ((frBytes v).take i).length = (modulusBytes.take i).length := by
      simp [modulusBytes_length]
    obtain ⟨a, b⟩ := List.append_inj h hl
    exact ⟨a, by simpa using b⟩
  · rintro ⟨a, b⟩; rw [a, b]

theorem byteSum_assigned (v : Fr) (r : ℤ)
    (hb : ∀ i : ℕ, i < 32 → w.adv .crByte (r + (i : ℤ)) = (((frBytes v).getD i 0 : ℕ) : Fr)) :
    byteSum.eval w r = v := by
  rw [byteSum, byteSum_eval (fun i => (frBytes v).getD i 0) r 32 hb]
  have : (List.range 32).map (fun i => (frBytes v).getD i 0) = frBytes v := by
    apply List.ext_getElem
    · simp
    · intro i h1 h2
      rw [List.getElem_map, List.getElem_range, getD_eq_getElem' h2]
  rw [this, beVal_frBytes]
  exact ZMod.natCast_zmod_val v

/-- Every enabled row of the honest assignment satisfies the constraints, provided at least one
padding group is left, or no rows are left over. -/
theorem holds_full (hf : FixedOK n w) (hn : ByteBit.nRowsRequired ≤ n) (hnU : n ≤ U)
    (values : List Fr) (hv' : values.length ≤ n / 32) (hv : values.length ≤ n / 32 - 1 ∨ n % 32 = 0)
    (ha : Assigned w values n) (r : ℤ) (hr : Enabled n r) : Cmd.HoldsL w U r configure := by
  have hn32 : 1 ≤ n / 32 := by unfold ByteBit.nRowsRequired at hn; omega
  have hrow := rows_getElem? w.chal values n hv'
  have c1 := ha .crByte (by simp)
  have c2 := ha .crValue (by simp)
  have c3 := ha .crRlc (by simp)
  have c4 := ha .crDifference (by simp)
  have c5 := ha .crDiffInv (by simp)
  have c6 := ha .crZeroSoFar (by simp)
  simp only [cell] at c1 c2 c3 c4 c5 c6
  obtain ⟨k, rfl⟩ : ∃ k : ℕ, r = (k : ℤ) + 1 := ⟨(r - 1).toNat, by have := hr.1; omega⟩
  have hinv : ∀ r, w.adv .crDiffInv r = (w.adv .crDifference r)⁻¹ := by
    intro r
    rw [c4, c5]
    unfold tableCell
    split
    · cases (rows w.chal values n)[(r - 1).toNat]? <;> simp [IsZeroGadget.assignInverse]
    · simp
  have hcur := IsZeroGadget.eval_current differenceIsZero w ((k : ℤ) + 1) (hinv _)
  have hprev := IsZeroGadget.eval_previous differenceIsZero w ((k : ℤ) + 1) (hinv _)
  have f0 : w.fix .crIndexIsZero ((k : ℤ) + 1) = if k < 32 * (n / 32) ∧ k % 32 = 0 then 1 else 0 := by
    rw [hf .crIndexIsZero (by decide)]; simp only [fixedCell]
    congr 1; apply propext; omega
  have f31 : w.fix .crIndexIsZero ((k : ℤ) + 1 + -31) =
      if 31 ≤ k ∧ k - 31 < 32 * (n / 32) ∧ k % 32 = 31 then 1 else 0 := by
    rw [hf .crIndexIsZero (by decide)]; simp only [fixedCell]
    congr 1; apply propext; omega
  have fm : w.fix .crModulusByte ((k : ℤ) + 1) =
      if k < 32 * (n / 32) then ((modulusBytes.getD (k % 32) 0 : ℕ) : Fr) else 0 := by
    rw [hf .crModulusByte (by decide)]; simp only [fixedCell]
    have h4 : ((((k : ℤ) + 1 - 1) % 32).toNat) = k % 32 := by omega
    rw [h4]
    congr 1; apply propext; omega
  unfold configure
  simp only [Cmd.holdsL_append]
  refine ⟨⟨?_, (IsZeroGadget.configure_holds ..).2 (hinv _)⟩, ?_⟩
  · rw [binaryColumn_holds, c6, tableCell_succ]
    rcases (rows w.chal values n)[k]? with _ | x
    · left; rfl
    · simp only [Option.elim, bcell]; split <;> simp
  simp only [Cmd.holdsL_cons, Cmd.holdsL_nil, and_true, Cmd.holds_cond,
    Cmd.holds_assertEqual, Cmd.holds_assert, FixCol.eval_cur, FixCol.eval_rot, AdvCol.eval_cur,
    AdvCol.eval_prev, Query.eval_mul, Query.eval_sub, Query.eval_add, Query.eval_bnot, hcur, hprev,
    Query.eval_band, Query.eval_challenge, add_sub_cancel_right, f0, f31, fm]
  simp only [differenceIsZero]
  by_cases hk : k < 32 * (n / 32)
  · -- a row of a group
    have hi : k % 32 < 32 := Nat.mod_lt _ (by norm_num)
    set v := values.getD (k / 32) 0 with hvdef
    set i := k % 32 with hidef
    have hrk : (rows w.chal values n)[k]? = some (rowSpec w.chal v i) := by
      rw [hrow, if_pos hk]
    have e1 : w.adv .crByte ((k : ℤ) + 1) = (((frBytes v).getD i 0 : ℕ) : Fr) := by
      rw [c1, tableCell_succ, hrk]; rfl
    have e2 : w.adv .crValue ((k : ℤ) + 1) = v := by rw [c2, tableCell_succ, hrk]; rfl
    have e3 : w.adv .crRlc ((k : ℤ) + 1) = Spec.rlc w.chal ((frBytes v).take (i + 1)) := by
      rw [c3, tableCell_succ, hrk]; rfl
    have e4 : w.adv .crDifference ((k : ℤ) + 1) =
        ((modulusBytes.getD i 0 : ℕ) : Fr) - (((frBytes v).getD i 0 : ℕ) : Fr) := by
      rw [c4, tableCell_succ, hrk]; rfl
    have e6 : w.adv .crZeroSoFar ((k : ℤ) + 1) =
        bcell (decide ((frBytes v).take i = modulusBytes.take i)) := by
      rw [c6, tableCell_succ, hrk]; rfl
    have hb1 : (frBytes v).getD i 0 < 256 := by
      rw [getD_eq_getElem' (by simpa using hi)]
      exact isBytes_frBytes v _ (List.getElem_mem _)
    have hb2 : modulusBytes.getD i 0 < 256 := modulusBytes_lt i
    have hd := byte_diff_zero hb1 hb2
    refine ⟨by rw [e4, if_pos hk, e1], ?_, ?_, ?_, ?_, ?_⟩
    · intro h0
      have hi0 : i = 0 := by
        by_contra hne; rw [if_neg (by tauto)] at h0; exact h0 rfl
      refine ⟨?_, ?_, ?_⟩
      · rw [e2]
        refine (byteSum_assigned v _ ?_).symm
        intro j hj
        have hkj : (k : ℤ) + 1 + j = ((k + j : ℕ) : ℤ) + 1 := by push_cast; ring
        have hd1 : (k + j) / 32 = k / 32 := by omega
        have hd2 : (k + j) % 32 = j := by omega
        rw [hkj, c1, tableCell_succ, hrow, if_pos (by omega), hd1, hd2]
        rfl
      · rw [e6, hi0]; simp [bcell]
      · rw [e3, e1, hi0]
        have : 0 < (frBytes v).length := by simp
        rw [← List.take_append_getElem this]
        simp [Spec.rlc, List.getD_eq_getElem?_getD]
    · intro h0
      have hi0 : i ≠ 0 := by
        intro hz; rw [if_pos ⟨hk, hz⟩] at h0; simp at h0
      obtain ⟨j, hj⟩ : ∃ j, k = j + 1 := ⟨k - 1, by omega⟩
      have hjd : j / 32 = k / 32 := by omega
      have hjm : j % 32 = i - 1 := by omega
      have hrj : (rows w.chal values n)[j]? = some (rowSpec w.chal v (i - 1)) := by
        rw [hrow, if_pos (by omega), hjd, hjm]
      have ek : (k : ℤ) = (j : ℤ) + 1 := by omega
      have p2 : w.adv .crValue (k : ℤ) = v := by rw [ek, c2, tableCell_succ, hrj]; rfl
      have p3 : w.adv .crRlc (k : ℤ) = Spec.rlc w.chal ((frBytes v).take (i - 1 + 1)) := by
        rw [ek, c3, tableCell_succ, hrj]; rfl
      have p4 : w.adv .crDifference (k : ℤ) =
          ((modulusBytes.getD (i - 1) 0 : ℕ) : Fr) - (((frBytes v).getD (i - 1) 0 : ℕ) : Fr) := by
        rw [ek, c4, tableCell_succ, hrj]; rfl
      have p6 : w.adv .crZeroSoFar (k : ℤ) =
          bcell (decide ((frBytes v).take (i - 1) = modulusBytes.take (i - 1))) := by
        rw [ek, c6, tableCell_succ, hrj]; rfl
      have hi1 : i - 1 + 1 = i := by omega
      rw [hi1] at p3
      refine ⟨by rw [e2, p2], ?_, ?_⟩
      · have hbp : (frBytes v).getD (i - 1) 0 < 256 := by
          rw [getD_eq_getElem' (by simp; omega)]
          exact isBytes_frBytes v _ (List.getElem_mem _)
        have hdp := byte_diff_zero hbp (modulusBytes_lt (i - 1))
        have hts := take_succ_eq_iff v (i - 1) (by omega)
        rw [hi1] at hts
        simp only [e6, p6, p4, bcell, hdp, decide_eq_true_eq, hts]
        split <;> split <;> split <;> simp_all
      · rw [e3, p3, e1]
        have h1 : i < (frBytes v).length := by simpa using hi
        rw [← List.take_append_getElem h1, rlc_concat, getD_eq_getElem' h1]
    · exact range256_complete hf hn hnU _ hb1 (by rw [AdvCol.eval_cur, e1])
    · simp only [e6, e4, bcell, hd, decide_eq_true_eq]
      intro hc
      have hp : (frBytes v).take i = modulusBytes.take i := by
        by_contra hne; simp [hne] at hc
      have hne : (frBytes v).getD i 0 ≠ modulusBytes.getD i 0 := by
        intro heq; simp only [heq, if_true, sub_self, mul_zero] at hc; exact hc rfl
      have hlt := first_diff v i hi hp hne
      refine range256_complete hf hn hnU (modulusBytes.getD i 0 - (frBytes v).getD i 0) (by omega) ?_
      rw [AdvCol.eval_cur, e4, Nat.cast_sub (le_of_lt hlt)]
    · intro hc
      have h31 : i = 31 := by
        by_contra hne; rw [if_neg (by tauto)] at hc; exact hc rfl
      simp only [e6, e4, bcell, hd, decide_eq_true_eq]
      have hts := take_succ_eq_iff v i hi
      have hnot : ¬ ((frBytes v).take i = modulusBytes.take i ∧
          (frBytes v).getD i 0 = modulusBytes.getD i 0) := by
        rw [← hts, h31, List.take_of_length_le (by simp), List.take_of_length_le (by
          rw [modulusBytes_length])]
        exact not_all_equal v
      by_cases h1 : (frBytes v).take i = modulusBytes.take i <;>
        by_cases h2 : (frBytes v).getD i 0 = modulusBytes.getD i 0
      · exact absurd ⟨h1, h2⟩ hnot
      · simp only [h1, h2, if_true, if_false]; simp
      · simp only [h1, h2, if_true, if_false]; simp
      · simp only [h1, h2, if_true, if_false]; simp
  · -- trailing rows
    replace hv : values.length ≤ n / 32 - 1 := hv.resolve_right (fun h0 => by have := hr.2; omega)
    have hrk : ∀ m, 32 * (n / 32) ≤ m → (rows w.chal values n)[m]? = none := by
      intro m hm; rw [hrow, if_neg (by omega)]
    have z : ∀ f, tableCell (rows w.chal values n) f ((k : ℤ) + 1) = 0 := by
      intro f; rw [tableCell_succ, hrk k (by omega)]; rfl
    have hlast : ∀ f : Row → Fr, (∀ i, i < 32 → f (rowSpec w.chal 0 i) = 0 ∨ i ≠ 31) →
        tableCell (rows w.chal values n) f (k : ℤ) = 0 := by
      intro f hf0
      obtain ⟨j, hj⟩ : ∃ j, k = j + 1 := ⟨k - 1, by omega⟩
      have ek : (k : ℤ) = (j : ℤ) + 1 := by omega
      rw [ek, tableCell_succ, hrow]
      by_cases hj2 : j < 32 * (n / 32)
      · have h31 : j % 32 = 31 := by omega
        have hjd : j / 32 = n / 32 - 1 := by omega
        rw [if_pos hj2, h31, hjd, List.getD_eq_default _ _ (by omega)]
        exact (hf0 31 (by norm_num)).resolve_right (by simp)
      · rw [if_neg hj2]; rfl
    have p2 : w.adv .crValue (k : ℤ) = 0 := by
      rw [c2]; exact hlast _ (fun i _ => .inl rfl)
    have p3 : w.adv .crRlc (k : ℤ) = 0 := by
      rw [c3]
      refine hlast _ (fun i _ => .inl ?_)
      show Spec.rlc w.chal ((frBytes 0).take (i + 1)) = 0
      rw [frBytes_zero, List.take_replicate]
      generalize min (i + 1) 32 = m
      induction m with
      | zero => rfl
      | succ m ih => simp [List.replicate_succ, Spec.rlc, ih]
    have p6 : w.adv .crZeroSoFar (k : ℤ) = 0 := by
      rw [c6]
      refine hlast _ (fun i _ => ?_)
      by_cases h : i = 31
      · left; subst h
        show bcell (decide ((frBytes 0).take 31 = modulusBytes.take 31)) = 0
        rw [frBytes_zero]
        simp [bcell, modulusBytes]
      · right; exact h
    have hno31 : ¬ (31 ≤ k ∧ k - 31 < 32 * (n / 32) ∧ k % 32 = 31) := by
      have := hr.2; omega
    have d0 : w.adv .crDifference ((k : ℤ) + 1) = 0 := by rw [c4, z]
    simp only [c1, c2, c3, c6, z, p2, p3, p6, hk, if_false, false_and, hno31, d0]
    refine ⟨by simp, by simp, ?_, ?_, by simp, by simp⟩
    · intro _
      rw [← c2, p2, ← c6, p6, ← c3, p3]; simp
    · refine range256_complete hf hn hnU 0 (by norm_num) ?_
      rw [AdvCol.eval_cur, c1, z]; simp

/-- Every enabled row of the honest assignment satisfies the constraints, provided at least one
padding group is left. -/
theorem holds (hf : FixedOK n w) (hn : ByteBit.nRowsRequired ≤ n) (hnU : n ≤ U)
    (values : List Fr) (hv : values.length ≤ n / 32 - 1)
    (ha : Assigned w values n) (r : ℤ) (hr : Enabled n r) : Cmd.HoldsL w U r configure :=
  holds_full hf hn hnU values (by omega) (.inl hv) ha r hr

/-- Every listed value is exposed with all its bytes and its RLC. -/
theorem served (hf : FixedOK n w) (values : List Fr) (hv : values.length ≤ n / 32)
    (ha : Assigned w values n) (v : Fr) (hm : v ∈ values) :
    (∀ i : ℕ, i < 32 → n % 32 ≠ 0 ∨ i ≠ 31 ∨ values.length < n / 32 → ∃ r, Enabled n r ∧ w.adv .crValue r = v ∧
      w.fix .crIndex r = (i : Fr) ∧ w.adv .crByte r = (((frBytes v).getD i 0 : ℕ) : Fr)) ∧
    (n % 32 ≠ 0 ∨ values.length < n / 32 → ∃ r, Enabled n r ∧ w.fix .crIndexIs31 r = 1 ∧
      w.adv .crValue r = v ∧ w.adv .crRlc r = Spec.rlc w.chal (frBytes v)) := by
  obtain ⟨j, hj, rfl⟩ := List.getElem_of_mem hm
  have hrow := rows_getElem? w.chal values n hv
  have hget : ∀ i, i < 32 → (rows w.chal values n)[32 * j + i]? =
      some (rowSpec w.chal values[j] i) := by
    intro i hi
    have h1 : (32 * j + i) / 32 = j := by omega
    have h2 : (32 * j + i) % 32 = i := by omega
    rw [hrow, if_pos (by omega), h1, h2, getD_eq_getElem' hj]
  constructor
  · intro i hi hn
    refine ⟨((32 * j + i : ℕ) : ℤ) + 1, ⟨by omega, by omega⟩, ?_, ?_, ?_⟩
    · rw [ha .crValue (by simp), cell, tableCell_succ, hget i hi]; rfl
    · rw [hf .crIndex (by decide)]
      simp only [fixedCell]
      have h4 : (((((32 * j + i : ℕ) : ℤ) + 1 - 1) % 32).toNat) = i := by omega
      rw [if_pos (by omega), h4]
    · rw [ha .crByte (by simp), cell, tableCell_succ, hget i hi]; rfl
  · intro hn
    refine ⟨((32 * j + 31 : ℕ) : ℤ) + 1, ⟨by omega, by omega⟩, ?_, ?_, ?_⟩
    · rw [hf .crIndexIs31 (by decide)]
      simp only [fixedCell]
      rw [if_pos (by omega)]
    · rw [ha .crValue (by simp), cell, tableCell_succ, hget 31 (by norm_num)]; rfl
    · rw [ha .crRlc (by simp), cell, tableCell_succ, hget 31 (by norm_num)]
      show Spec.rlc w.chal ((frBytes values[j]).take 32) = _
      rw [List.take_of_length_le (by simp)]

end Canonical
end Mpt
