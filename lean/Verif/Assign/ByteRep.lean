import Verif.Gadgets.LookupSound
import Verif.Lagrange

set_option autoImplicit false

/-!
# Model of `ByteRepresentationConfig::assign` (/repo/src/gadgets/byte_representation.rs:98-172)

The assignment code writes one row after the other, starting at offset 1. A table's assignment is
modelled by the list of the rows it writes; `tableCell` is the resulting content of a column (cells
that are never written are 0, as halo2 initialises them).
-/

namespace Mpt
open Spec

/-- Content of a column after writing `rows` consecutively from offset 1.
/repo/src/gadgets/byte_representation.rs:112-137. -/
def tableCell {R : Type} (rows : List R) (f : R → Fr) (r : ℤ) : Fr :=
  if 1 ≤ r then (rows[(r - 1).toNat]?).elim 0 f else 0

theorem tableCell_succ {R : Type} (rows : List R) (f : R → Fr) (k : ℕ) :
    tableCell rows f ((k : ℤ) + 1) = (rows[k]?).elim 0 f := by
  simp [tableCell]

theorem tableCell_nonpos {R : Type} (rows : List R) (f : R → Fr) (r : ℤ) (h : r ≤ 0) :
    tableCell rows f r = 0 := by
  have : ¬ 1 ≤ r := by omega
  simp [tableCell, this]

theorem tableCell_beyond {R : Type} (rows : List R) (f : R → Fr) (r : ℤ) (h : rows.length < r) :
    tableCell rows f r = 0 := by
  obtain ⟨k, rfl⟩ : ∃ k : ℕ, r = (k : ℤ) + 1 := ⟨(r - 1).toNat, by omega⟩
  rw [tableCell_succ, List.getElem?_eq_none (by omega)]
  rfl

namespace ByteRep

/-- One written row: byte, value, rlc, index, byte_representation.rs:118-128. -/
structure Row where
  byte : Fr
  value : Fr
  rlc : Fr
  index : Fr

/-- The inner loop, byte_representation.rs:114-131: `value`, `rlc` are the loop variables, `index`
the enumeration index. -/
def loop (ρ : Fr) : Fr → Fr → ℕ → List ℕ → List Row
  | _, _, _, [] => []
  | value, rlc, index, byte :: bytes =>
    let value' := value * 256 + (byte : Fr)
    let rlc' := rlc * ρ + (byte : Fr)
    ⟨byte, value', rlc', index⟩ :: loop ρ value' rlc' (index + 1) bytes

/-- The outer loop, byte_representation.rs:111-133. -/
def assignRows (ρ : Fr) (strings : List (List ℕ)) : List Row := strings.flatMap (loop ρ 0 0 0)

/-- `fr_to_big_endian`, byte_representation.rs:160-169; `none` = the panic of `assert_eq!(bytes[0], 0)`. -/
def frToBigEndian (x : Fr) : Option (List ℕ) :=
  match frBytes x with
  | 0 :: rest => some rest
  | _ => none

/-- The byte strings of byte_representation.rs:104-109. `u32`, `u64`, `u128` are natural numbers in
range; `to_be_bytes` is `beBytes 4/8/16`. -/
def byteStrings (u32s u64s u128s : List ℕ) (frs : List Fr) : Option (List (List ℕ)) := do
  let f ← frs.mapM frToBigEndian
  some (u32s.map (beBytes 4) ++ u64s.map (beBytes 8) ++ u128s.map (beBytes 16) ++ f)

/-- Content of the advice columns after `assign`. `index_is_zero.assign` writes the inverse of the
index. /repo/src/gadgets/byte_representation.rs:112-137. -/
def cell (ρ : Fr) (strings : List (List ℕ)) : AdvCol → ℤ → Fr
  | .brByte, r => tableCell (assignRows ρ strings) (·.byte) r
  | .brValue, r => tableCell (assignRows ρ strings) (·.value) r
  | .brRlc, r => tableCell (assignRows ρ strings) (·.rlc) r
  | .brIndex, r => tableCell (assignRows ρ strings) (·.index) r
  | .brIndexInv, r => tableCell (assignRows ρ strings) (fun x => IsZeroGadget.assignInverse x.index) r
  | _, _ => 0

/-- Total number of bytes. /repo/src/gadgets/byte_representation.rs:140-143. -/
def total (strings : List (List ℕ)) : ℕ := (strings.map List.length).sum

theorem loop_getElem? (ρ v x : Fr) (j : ℕ) (s : List ℕ) (k : ℕ) :
    (loop ρ v x j s)[k]? = (s[k]?).map (fun b => ⟨(b : Fr), v * 256 ^ (k + 1) +
      ((beVal (s.take (k + 1)) : ℕ) : Fr), x * ρ ^ (k + 1) + Spec.rlc ρ (s.take (k + 1)),
      ((j + k : ℕ) : Fr)⟩) := by
  induction s generalizing v x j k with
  | nil => simp [loop]
  | cons b s ih =>
    cases k with
    | zero => simp [loop, beVal, Spec.rlc]
    | succ k =>
      simp only [loop, List.getElem?_cons_succ, ih]
      rcases hk : s[k]? with _ | c
      · simp
      · have hlen : k < s.length := by
          rw [List.getElem?_eq_some_iff] at hk; exact hk.1
        have ht : (s.take (k + 1)).length = k + 1 := by simp; omega
        simp only [Option.map_some, Option.some.injEq, Row.mk.injEq, List.take_succ_cons, beVal,
          Spec.rlc, ht]
        refine ⟨trivial, ?_, ?_, ?_⟩
        · push_cast; ring
        · ring
        · push_cast; ring

theorem loop_length (ρ v x : Fr) (j : ℕ) (s : List ℕ) : (loop ρ v x j s).length = s.length := by
  induction s generalizing v x j with
  | nil => rfl
  | cons b s ih => simp [loop, ih]

theorem assignRows_length (ρ : Fr) (strings : List (List ℕ)) :
    (assignRows ρ strings).length = total strings := by
  induction strings with
  | nil => rfl
  | cons s l ih =>
    simp only [assignRows, total, List.flatMap_cons, List.length_append, loop_length,
      List.map_cons, List.sum_cons] at *
    rw [ih]

/-- Every row of the table belongs to a position in one of the strings. -/
theorem locate (strings : List (List ℕ)) (k : ℕ) (hk : k < total strings) :
    ∃ pre s post i, strings = pre ++ s :: post ∧ i < s.length ∧ k = total pre + i := by
  induction strings generalizing k with
  | nil => simp [total] at hk
  | cons s l ih =>
    by_cases h : k < s.length
    · exact ⟨[], s, l, k, rfl, h, by simp [total]⟩
    · have : k - s.length < total l := by
        simp only [total, List.map_cons, List.sum_cons] at hk ⊢; omega
      obtain ⟨pre, s', post, i, rfl, hi, hk'⟩ := ih _ this
      refine ⟨s :: pre, s', post, i, rfl, hi, ?_⟩
      simp only [total, List.map_cons, List.sum_cons] at hk' ⊢; omega

/-- Closed form of the row at position `i` of string `s`. -/
theorem assignRows_getElem? (ρ : Fr) (pre post : List (List ℕ)) (s : List ℕ) (i : ℕ)
    (hi : i < s.length) :
    (assignRows ρ (pre ++ s :: post))[total pre + i]? = some ⟨((s.getD i 0 : ℕ) : Fr),
      ((beVal (s.take (i + 1)) : ℕ) : Fr), Spec.rlc ρ (s.take (i + 1)), (i : Fr)⟩ := by
  have e : assignRows ρ (pre ++ s :: post) =
      assignRows ρ pre ++ (loop ρ 0 0 0 s ++ assignRows ρ post) := by
    simp [assignRows]
  rw [e, List.getElem?_append_right (by rw [assignRows_length]; omega), assignRows_length,
    Nat.add_sub_cancel_left, List.getElem?_append_left (by rw [loop_length]; exact hi),
    loop_getElem?, List.getElem?_eq_getElem hi]
  simp [List.getElem?_eq_getElem hi]

variable {n U : ℕ} {w : Witness Fr}

/-- The byte-representation columns of `w` are those written by `assign`.
Models /repo/src/gadgets/byte_representation.rs:94-138. -/
def Assigned (w : Witness Fr) (strings : List (List ℕ)) : Prop :=
  ∀ c ∈ [AdvCol.brByte, .brValue, .brRlc, .brIndex, .brIndexInv], ∀ r,
    w.adv c r = cell w.chal strings c r

theorem small_ne_zero {i : ℕ} (h : i < 2 ^ 64) (h0 : i ≠ 0) : ((i : ℕ) : Fr) ≠ 0 := by
  intro e
  exact h0 (natCast_inj_of_lt (lt_trans h frModulus_big) (Nat.pos_of_ne_zero frModulus_prime.ne_zero)
    (by simpa using e))

/-- Every row of the honest assignment satisfies the constraints. -/
theorem holds (hf : FixedOK n w) (hn : ByteBit.nRowsRequired ≤ n) (hnU : n ≤ U)
    (strings : List (List ℕ)) (hb : ∀ s ∈ strings, IsBytes s) (hs : ∀ s ∈ strings, s.length < 2 ^ 64)
    (ha : Assigned w strings) (r : ℤ) (hr : Enabled n r) : Cmd.HoldsL w U r configure := by
  have c1 := ha .brByte (by simp)
  have c2 := ha .brValue (by simp)
  have c3 := ha .brRlc (by simp)
  have c4 := ha .brIndex (by simp)
  have c5 := ha .brIndexInv (by simp)
  simp only [cell] at c1 c2 c3 c4 c5
  obtain ⟨k, rfl⟩ : ∃ k : ℕ, r = (k : ℤ) + 1 := ⟨(r - 1).toNat, by have := hr.1; omega⟩
  have hinv : w.adv .brIndexInv ((k : ℤ) + 1) = (w.adv .brIndex ((k : ℤ) + 1))⁻¹ := by
    rw [c4, c5, tableCell_succ, tableCell_succ]
    cases (assignRows w.chal strings)[k]? <;> simp [IsZeroGadget.assignInverse]
  have hcur := IsZeroGadget.eval_current indexIsZero w ((k : ℤ) + 1) hinv
  have hfirst : w.fix .brIsFirst ((k : ℤ) + 1) = 0 := by
    rw [hf .brIsFirst (by decide)]; simp only [fixedCell]; rw [if_neg (by omega)]
  unfold configure
  rw [Cmd.holdsL_append]
  refine ⟨(IsZeroGadget.configure_holds ..).2 hinv, ?_⟩
  simp only [Cmd.holdsL_cons, Cmd.holdsL_nil, and_true, Cmd.holds_cond, Cmd.holds_assertZero,
    Cmd.holds_assertEqual, FixCol.eval_cur, hfirst, AdvCol.eval_cur, AdvCol.eval_prev,
    Query.eval_mul, Query.eval_sub, Query.eval_add, Query.eval_bnot, hcur, Query.eval_one,
    Query.eval_challenge, Query.eval_natLit, add_sub_cancel_right]
  simp only [indexIsZero, ne_eq, not_true_eq_false, false_imp_iff, true_and]
  by_cases hk : k < total strings
  · obtain ⟨pre, s, post, i, rfl, hi, rfl⟩ := locate strings k hk
    have hrow := assignRows_getElem? w.chal pre post s i hi
    have hbs : IsBytes s := hb s (by simp)
    have hsl : s.length < 2 ^ 64 := hs s (by simp)
    have e1 : w.adv .brByte (((total pre + i : ℕ) : ℤ) + 1) = ((s.getD i 0 : ℕ) : Fr) := by
      rw [c1, tableCell_succ, hrow]; rfl
    have e2 : w.adv .brValue (((total pre + i : ℕ) : ℤ) + 1) = ((beVal (s.take (i + 1)) : ℕ) : Fr) := by
      rw [c2, tableCell_succ, hrow]; rfl
    have e3 : w.adv .brRlc (((total pre + i : ℕ) : ℤ) + 1) = Spec.rlc w.chal (s.take (i + 1)) := by
      rw [c3, tableCell_succ, hrow]; rfl
    have e4 : w.adv .brIndex (((total pre + i : ℕ) : ℤ) + 1) = (i : Fr) := by
      rw [c4, tableCell_succ, hrow]; rfl
    have hbyte : s.getD i 0 < 256 := by
      rw [getD_eq_getElem' hi]; exact hbs _ (List.getElem_mem hi)
    have htk : s.take (i + 1) = s.take i ++ [s.getD i 0] := by
      rw [getD_eq_getElem' hi, List.take_append_getElem hi]
    simp only [e1, e2, e3, e4]
    refine ⟨?_, ?_, ?_, range256_complete hf hn hnU _ hbyte (by rw [AdvCol.eval_cur, e1])⟩
    all_goals
      cases i with
      | zero =>
        simp [htk, beVal, Spec.rlc]
      | succ j =>
        have hprow := assignRows_getElem? w.chal pre post s j (by omega)
        have ee : (((total pre + (j + 1) : ℕ) : ℤ)) = ((total pre + j : ℕ) : ℤ) + 1 := by
          push_cast; ring
        have p2 : w.adv .brValue ((total pre + (j + 1) : ℕ) : ℤ) = ((beVal (s.take (j + 1)) : ℕ) : Fr) := by
          rw [ee, c2, tableCell_succ, hprow]; rfl
        have p3 : w.adv .brRlc ((total pre + (j + 1) : ℕ) : ℤ) = Spec.rlc w.chal (s.take (j + 1)) := by
          rw [ee, c3, tableCell_succ, hprow]; rfl
        have p4 : w.adv .brIndex ((total pre + (j + 1) : ℕ) : ℤ) = (j : Fr) := by
          rw [ee, c4, tableCell_succ, hprow]; rfl
        have hne : ((j + 1 : ℕ) : Fr) ≠ 0 := small_ne_zero (by omega) (by omega)
        first
        | (rw [p4]; push_cast; ring_nf; done)
        | (rw [p2, htk, beVal_concat, if_neg hne]; push_cast; ring_nf; done)
        | (rw [p3, htk, rlc_concat, if_neg hne]; push_cast; ring_nf; done)
  · have z : ∀ f, tableCell (assignRows w.chal strings) f ((k : ℤ) + 1) = 0 := fun f =>
      tableCell_beyond _ _ _ (by rw [assignRows_length]; omega)
    simp only [c1, c2, c3, c4, z]
    refine ⟨by simp, by simp, by simp, range256_complete hf hn hnU 0 (by norm_num) ?_⟩
    rw [AdvCol.eval_cur, c1, z]; simp

/-- Every string is exposed: its value, its index and its RLC. -/
theorem served (strings : List (List ℕ)) (ha : Assigned w strings) (hf : FixedOK n w)
    (hn : 1 + total strings ≤ n) (s : List ℕ) (hs : s ∈ strings) (hne : s ≠ []) :
    ∃ r, Enabled n r ∧ w.fix .selector r = 1 ∧ w.adv .brValue r = ((beVal s : ℕ) : Fr) ∧
      w.adv .brIndex r = ((s.length - 1 : ℕ) : Fr) ∧ w.adv .brRlc r = Spec.rlc w.chal s := by
  obtain ⟨pre, post, rfl⟩ := List.append_of_mem hs
  have hl : 0 < s.length := List.length_pos_iff.2 hne
  have hrow := assignRows_getElem? w.chal pre post s (s.length - 1) (by omega)
  have e : s.take (s.length - 1 + 1) = s := List.take_of_length_le (by omega)
  rw [e] at hrow
  have hen : Enabled n (((total pre + (s.length - 1) : ℕ) : ℤ) + 1) := by
    constructor
    · omega
    · simp only [total, List.map_append, List.map_cons, List.sum_append, List.sum_cons] at hn ⊢
      omega
  refine ⟨_, hen, (sel_eq_one_iff hf _).2 hen, ?_, ?_, ?_⟩
  · rw [ha .brValue (by simp), cell, tableCell_succ, hrow]; rfl
  · rw [ha .brIndex (by simp), cell, tableCell_succ, hrow]; rfl
  · rw [ha .brRlc (by simp), cell, tableCell_succ, hrow]; rfl

/-- The row count of `n_rows_required` is what the assignment uses. -/
theorem byteStrings_spec (u32s u64s u128s : List ℕ) (frs : List Fr) :
    (∀ strings, byteStrings u32s u64s u128s frs = some strings →
      1 + total strings = nRowsRequired u32s.length u64s.length u128s.length frs.length ∧
      ∀ s ∈ strings, IsBytes s ∧ s ≠ [] ∧ s.length < 2 ^ 64) ∧
    ((∀ x ∈ frs, x.val < 256 ^ 31) → byteStrings u32s u64s u128s frs =
      some (u32s.map (beBytes 4) ++ u64s.map (beBytes 8) ++ u128s.map (beBytes 16) ++
        frs.map (fun x => beBytes 31 x.val))) ∧
    ((∃ x ∈ frs, 256 ^ 31 ≤ x.val) → byteStrings u32s u64s u128s frs = none) := by
  have hfr : ∀ x : Fr, (x.val < 256 ^ 31 → frToBigEndian x = some (beBytes 31 x.val)) ∧
      (256 ^ 31 ≤ x.val → frToBigEndian x = none) := by
    intro x
    have hlt : x.val < 256 ^ 32 := lt_trans (ZMod.val_lt x) frModulus_lt_pow
    have hcons : frBytes x = x.val / 256 ^ 31 % 256 :: beBytes 31 x.val := rfl
    have hd : x.val / 256 ^ 31 < 256 := by
      rw [Nat.div_lt_iff_lt_mul (by positivity)]; calc
        x.val < 256 ^ 32 := hlt
        _ = 256 * 256 ^ 31 := by norm_num
    constructor
    · intro h
      have : x.val / 256 ^ 31 % 256 = 0 := by rw [Nat.div_eq_of_lt h]
      simp only [frToBigEndian, hcons, this]
    · intro h
      have : x.val / 256 ^ 31 % 256 ≠ 0 := by
        rw [Nat.mod_eq_of_lt hd]
        exact Nat.ne_of_gt (Nat.div_pos h (by positivity))
      simp only [frToBigEndian, hcons]
      split
      · rename_i heq; simp only [List.cons.injEq] at heq; exact absurd heq.1 this
      · rfl
  have hgood : (∀ x ∈ frs, x.val < 256 ^ 31) → byteStrings u32s u64s u128s frs =
      some (u32s.map (beBytes 4) ++ u64s.map (beBytes 8) ++ u128s.map (beBytes 16) ++
        frs.map (fun x => beBytes 31 x.val)) := by
    intro h
    have := mapM_eq_some_map frs frToBigEndian (fun x => beBytes 31 x.val)
      (fun x hx => (hfr x).1 (h x hx))
    simp only [byteStrings, this, Option.bind_eq_bind, Option.bind_some]
  have hbad : (∃ x ∈ frs, 256 ^ 31 ≤ x.val) → byteStrings u32s u64s u128s frs = none := by
    rintro ⟨x, hx, h⟩
    have := mapM_eq_none frs frToBigEndian x hx ((hfr x).2 h)
    simp only [byteStrings, this, Option.bind_eq_bind, Option.bind_none]
  refine ⟨?_, hgood, hbad⟩
  intro strings hs
  have hall : ∀ x ∈ frs, x.val < 256 ^ 31 := by
    by_contra hc
    push Not at hc
    rw [hbad hc] at hs; cases hs
  rw [hgood hall] at hs
  cases hs
  constructor
  · simp only [total, List.map_append, List.map_map, List.sum_append, nRowsRequired,
      Function.comp_def, beBytes_length, List.map_const', List.sum_replicate, smul_eq_mul]
    ring
  · intro s hs
    simp only [List.mem_append, List.mem_map] at hs
    rcases hs with ((⟨x, _, rfl⟩ | ⟨x, _, rfl⟩) | ⟨x, _, rfl⟩) | ⟨x, _, rfl⟩ <;>
      exact ⟨isBytes_beBytes _ _, by simp [← List.length_pos_iff], by simp⟩

end ByteRep
end Mpt
