import Verif.Assign.Canonical

set_option autoImplicit false

/-!
# Model of `KeyBitConfig::assign` and `assign_par` (/repo/src/gadgets/key_bit.rs:89-164)
-/

namespace Mpt
open Spec
namespace KeyBit

/-- A request `(value, index, bit)`. /repo/src/gadgets/key_bit.rs:89. -/
abbrev Req := Fr × ℕ × Bool

/-- One written row, key_bit.rs:114-124. -/
structure Row where
  value : Fr
  index : Fr
  bit : Fr
  div8 : Fr
  mod8 : Fr
  byte : Fr

/-- `value.to_bytes()`: the 32 canonical bytes, little endian. /repo/src/gadgets/key_bit.rs:106. -/
def leBytes (v : Fr) : List ℕ := (frBytes v).reverse

/-- The body of the loop, key_bit.rs:105-124. `none` = a panic: `bytes[index_div_8]` out of bounds,
or the `assert_eq!` on the bit. -/
def rowOf (q : Req) : Option Row :=
  match (leBytes q.1)[q.2.1 / 8]? with
  | none => none
  | some byte =>
    if q.2.2 = byte.testBit (q.2.1 % 8) then
      some ⟨q.1, (q.2.1 : Fr), bitFr q.2.2, ((q.2.1 / 8 : ℕ) : Fr), ((q.2.1 % 8 : ℕ) : Fr), (byte : Fr)⟩
    else none

/-- `assign_internal`, key_bit.rs:92-126: the rows written, from offset 1 (serial) or 0 (parallel).
Simplification: a panic is `none` for the whole call (the rows written before it are lost). -/
def assignRows (reqs : List Req) : Option (List Row) := reqs.mapM rowOf

/-- A request is correct: the bit is the bit of the canonical integer.
Property of the requests of /repo/src/gadgets/key_bit.rs:89. -/
def Correct (q : Req) : Prop := q.2.1 < 256 ∧ q.2.2 = q.1.val.testBit q.2.1

theorem leBytes_getElem? (v : Fr) (i : ℕ) :
    (leBytes v)[i]? = if i < 32 then some (v.val / 256 ^ i % 256) else none := by
  unfold leBytes
  split
  · rename_i h
    rw [List.getElem?_reverse (by simpa using h), frBytes_length, frBytes,
      beBytes_getElem? _ _ _ (by omega)]
    congr 4; omega
  · rename_i h
    rw [List.getElem?_eq_none (by simpa using h)]

/-- The row written for a correct request. Closed form of /repo/src/gadgets/key_bit.rs:99-124. -/
def rowSpec (q : Req) : Row :=
  ⟨q.1, (q.2.1 : Fr), bitFr q.2.2, ((q.2.1 / 8 : ℕ) : Fr), ((q.2.1 % 8 : ℕ) : Fr),
    ((q.1.val / 256 ^ (q.2.1 / 8) % 256 : ℕ) : Fr)⟩

theorem rowOf_eq (q : Req) : (Correct q → rowOf q = some (rowSpec q)) ∧
    (¬ Correct q → rowOf q = none) := by
  obtain ⟨v, i, b⟩ := q
  simp only [rowOf, leBytes_getElem?, Correct, rowSpec]
  by_cases hi : i < 256
  · have h8 : i / 8 < 32 := by omega
    have ht : (v.val / 256 ^ (i / 8) % 256).testBit (i % 8) = v.val.testBit i := by
      rw [testBit_byte _ _ _ (Nat.mod_lt _ (by norm_num))]
      congr 1; omega
    rw [if_pos h8]
    constructor
    · rintro ⟨_, rfl⟩; simp [ht]
    · intro h
      have : ¬ b = v.val.testBit i := fun hb => h ⟨hi, hb⟩
      simp [ht, this]
  · have h8 : ¬ i / 8 < 32 := by omega
    rw [if_neg h8]
    exact ⟨fun h => absurd h.1 hi, fun _ => rfl⟩

/-- The assignment panics exactly if one of the requests is wrong. -/
theorem assignRows_eq (reqs : List Req) :
    ((∀ q ∈ reqs, Correct q) → assignRows reqs = some (reqs.map rowSpec)) ∧
    ((∃ q ∈ reqs, ¬ Correct q) → assignRows reqs = none) := by
  constructor
  · intro h
    exact mapM_eq_some_map reqs rowOf rowSpec (fun q hq => (rowOf_eq q).1 (h q hq))
  · rintro ⟨q, hq, h⟩
    exact mapM_eq_none reqs rowOf q hq ((rowOf_eq q).2 h)

/-- Content of the advice columns after writing `rows` from offset `off`.
/repo/src/gadgets/key_bit.rs:89-124. -/
def cellFrom (off : ℤ) (rows : List Row) : AdvCol → ℤ → Fr
  | .kbValue, r => tableCell rows (·.value) (r + 1 - off)
  | .kbIndex, r => tableCell rows (·.index) (r + 1 - off)
  | .kbBit, r => tableCell rows (·.bit) (r + 1 - off)
  | .kbDiv8, r => tableCell rows (·.div8) (r + 1 - off)
  | .kbMod8, r => tableCell rows (·.mod8) (r + 1 - off)
  | .kbByte, r => tableCell rows (·.byte) (r + 1 - off)
  | _, _ => 0

variable {n U : ℕ} {w : Witness Fr}

/-- The key-bit columns of `w` are those of correct requests written from row `off`: 1 for `assign`;
0 for `assign_par`, with the requests laid out as `parReqs` (Verif.Assign.Layout).
Models /repo/src/gadgets/key_bit.rs:89-161. -/
def Assigned (w : Witness Fr) (off : ℤ) (reqs : List Req) : Prop :=
  ∀ c ∈ [AdvCol.kbValue, .kbIndex, .kbBit, .kbDiv8, .kbMod8, .kbByte], ∀ r,
    w.adv c r = cellFrom off (reqs.map rowSpec) c r

/-- The requests, padded by zero rows, as seen on row `r`. For /repo/src/gadgets/key_bit.rs:89-161. -/
def reqAt (off : ℤ) (reqs : List Req) (r : ℤ) : Req :=
  if off ≤ r then (reqs[(r - off).toNat]?).getD (0, 0, false) else (0, 0, false)

theorem rowSpec_zero : rowSpec (0, 0, false) = ⟨0, 0, 0, 0, 0, 0⟩ := by
  simp [rowSpec, bitFr]

theorem cells_eq (off : ℤ) (reqs : List Req) (r : ℤ) (ha : Assigned w off reqs) :
    w.adv .kbValue r = (rowSpec (reqAt off reqs r)).value ∧
    w.adv .kbIndex r = (rowSpec (reqAt off reqs r)).index ∧
    w.adv .kbBit r = (rowSpec (reqAt off reqs r)).bit ∧
    w.adv .kbDiv8 r = (rowSpec (reqAt off reqs r)).div8 ∧
    w.adv .kbMod8 r = (rowSpec (reqAt off reqs r)).mod8 ∧
    w.adv .kbByte r = (rowSpec (reqAt off reqs r)).byte := by
  have key : ∀ f : Row → Fr, f ⟨0, 0, 0, 0, 0, 0⟩ = 0 →
      tableCell (reqs.map rowSpec) f (r + 1 - off) = f (rowSpec (reqAt off reqs r)) := by
    intro f h0
    unfold tableCell reqAt
    by_cases h : off ≤ r
    · have e : r + 1 - off - 1 = r - off := by ring
      rw [if_pos (by omega), if_pos h, e, List.getElem?_map]
      rcases reqs[(r - off).toNat]? with _ | q
      · simp only [Option.map_none, Option.elim, Option.getD_none]; rw [rowSpec_zero, h0]
      · rfl
    · rw [if_neg (by omega), if_neg h, rowSpec_zero, h0]
  refine ⟨?_, ?_, ?_, ?_, ?_, ?_⟩ <;>
    first
    | (rw [ha .kbValue (by simp)]; exact key _ rfl)
    | (rw [ha .kbIndex (by simp)]; exact key _ rfl)
    | (rw [ha .kbBit (by simp)]; exact key _ rfl)
    | (rw [ha .kbDiv8 (by simp)]; exact key _ rfl)
    | (rw [ha .kbMod8 (by simp)]; exact key _ rfl)
    | (rw [ha .kbByte (by simp)]; exact key _ rfl)

theorem reqAt_correct (off : ℤ) (reqs : List Req) (hc : ∀ q ∈ reqs, Correct q) (r : ℤ) :
    Correct (reqAt off reqs r) := by
  have h0 : Correct (0, 0, false) := by simp [Correct]
  unfold reqAt
  split
  · rcases h : reqs[(r - off).toNat]? with _ | q
    · exact h0
    · exact hc q (List.mem_of_getElem? h)
  · exact h0

theorem reqAt_mem (off : ℤ) (reqs : List Req) (r : ℤ) :
    reqAt off reqs r ∈ reqs ∨ reqAt off reqs r = (0, 0, false) := by
  unfold reqAt
  split
  · rcases h : reqs[(r - off).toNat]? with _ | q
    · exact .inr rfl
    · exact .inl (List.mem_of_getElem? h)
  · exact .inr rfl

/-- Every row satisfies the constraints, provided the canonical-representation table serves 0 and
every requested value. -/
theorem holds (hf : FixedOK n w) (hn : ByteBit.nRowsRequired ≤ n) (hnU : n ≤ U)
    (off : ℤ) (reqs : List Req) (hc : ∀ q ∈ reqs, Correct q) (ha : Assigned w off reqs)
    (values : List Fr) (hv : values.length < n / 32) (hca : Canonical.Assigned w values n)
    (h0 : 0 ∈ values) (hm : ∀ q ∈ reqs, q.1 ∈ values) (r : ℤ) :
    Cmd.HoldsL w U r configure := by
  obtain ⟨c1, c2, c3, c4, c5, c6⟩ := cells_eq off reqs r ha
  have hq := reqAt_correct off reqs hc r
  have hmem : (reqAt off reqs r).1 ∈ values := by
    rcases reqAt_mem off reqs r with h | h
    · exact hm _ h
    · rw [h]; exact h0
  generalize reqAt off reqs r = q at *
  obtain ⟨v, i, b⟩ := q
  simp only [rowSpec] at c1 c2 c3 c4 c5 c6
  obtain ⟨hi, hb⟩ := hq
  simp only at hi hb hmem
  have hbig := frModulus_big
  simp only [configure, Cmd.holdsL_cons, Cmd.holdsL_nil, and_true]
  refine ⟨range256_complete hf hn hnU i hi (by rw [AdvCol.eval_cur, c2]),
    range256_complete hf hn hnU (i / 8) (by omega) (by rw [AdvCol.eval_cur, c4]),
    range8_complete hf hn hnU (i % 8) (by omega) (by rw [AdvCol.eval_cur, c5]), ?_, ?_, ?_⟩
  · obtain ⟨r', he, e1, e2, e3⟩ := (Canonical.served hf values (le_of_lt hv) hca v hmem).1
      (31 - i / 8) (by omega) (.inr (.inr hv))
    refine (Cmd.holds_lookup ..).2 ⟨r', enabled_inU he hnU, (sel_eq_one_iff hf r').2 he, ?_⟩
    simp only [Canonical.lookup, List.zip_cons_cons, List.zip_nil_right, List.forall_mem_cons,
      AdvCol.eval_cur, FixCol.eval_cur, List.not_mem_nil, false_imp_iff, implies_true, and_true,
      Query.eval_sub, Query.eval_natLit, c1, c4, c6, e1, e2, e3]
    refine ⟨trivial, ?_, ?_⟩
    · rw [Nat.cast_sub (by omega)]
    · rw [frBytes_getD _ _ (by omega), show 31 - (31 - i / 8) = i / 8 by omega]
  · obtain ⟨r', he, e1, e2, e3⟩ := bb_complete hf hn (v.val / 256 ^ (i / 8) % 256) (i % 8)
      (Nat.mod_lt _ (by norm_num)) (Nat.mod_lt _ (by norm_num))
    refine (Cmd.holds_lookup ..).2 ⟨r', enabled_inU he hnU, (sel_eq_one_iff hf r').2 he, ?_⟩
    simp only [ByteBit.lookup, List.zip_cons_cons, List.zip_nil_right, List.forall_mem_cons,
      AdvCol.eval_cur, FixCol.eval_cur, List.not_mem_nil, false_imp_iff, implies_true, and_true,
      c3, c5, c6, e1, e2, e3, true_and]
    rw [testBit_byte _ _ _ (Nat.mod_lt _ (by norm_num)), hb]
    have : i / 8 * 8 + i % 8 = i := by omega
    rw [this]; rfl
  · simp only [Cmd.holds_assertEqual, AdvCol.eval_cur, Query.eval_add, Query.eval_mul,
      Query.eval_natLit, c2, c4, c5]
    have : i = i / 8 * 8 + i % 8 := by omega
    conv_lhs => rw [this]
    push_cast; ring

/-- Every request that does not fall on the disabled row 0 is exposed on an enabled row. -/
theorem served (off : ℤ) (h0 : 0 ≤ off) (h1 : off ≤ 1) (reqs : List Req)
    (ha : Assigned w off reqs)
    (hn : nRowsRequired reqs.length ≤ n) (j : ℕ) (hj : j < reqs.length) (hoff : off = 1 ∨ 0 < j) :
    ∃ r, Enabled n r ∧ w.adv .kbValue r = reqs[j].1 ∧ w.adv .kbIndex r = (reqs[j].2.1 : Fr) ∧
      w.adv .kbBit r = bitFr reqs[j].2.2 := by
  unfold nRowsRequired at hn
  obtain ⟨c1, c2, c3, -⟩ := cells_eq off reqs (off + j) ha
  have hr : reqAt off reqs (off + j) = reqs[j] := by
    unfold reqAt
    have : (off + j - off).toNat = j := by omega
    rw [if_pos (by omega), this, List.getElem?_eq_getElem hj]; rfl
  rw [hr] at c1 c2 c3
  exact ⟨off + j, ⟨by omega, by omega⟩, c1, c2, c3⟩

end KeyBit
end Mpt
