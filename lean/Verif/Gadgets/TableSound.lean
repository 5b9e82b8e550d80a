import Verif.Gadgets.Tables
import Verif.Spec.Bytes
import Mathlib.Tactic.LinearCombination
import Mathlib.Data.List.GetD

set_option autoImplicit false

/-!
# Soundness of the table gadgets

From the row-wise semantics of the programs in `Verif.Gadgets.Tables` and the fixed columns.
-/

namespace Mpt
open Spec

variable {w : Witness Fr} {U n : ℕ}

/-- Enabled rows of a circuit with `n` rows. /repo/src/mpt.rs:123-141. -/
def Enabled (n : ℕ) (r : ℤ) : Prop := 1 ≤ r ∧ r < n

theorem enabled_inU {r : ℤ} (h : Enabled n r) (hnU : n ≤ U) : InU U r := by
  obtain ⟨h1, h2⟩ := h
  constructor <;> omega

theorem sel_eq_one_iff (hf : FixedOK n w) (r : ℤ) : w.fix .selector r = 1 ↔ Enabled n r := by
  rw [hf .selector (by decide)]
  simp only [fixedCell, Enabled]
  split <;> simp_all

theorem sel_binary (hf : FixedOK n w) (r : ℤ) : w.fix .selector r = 0 ∨ w.fix .selector r = 1 := by
  rw [hf .selector (by decide)]
  simp only [fixedCell]
  split <;> simp

/-! ## Byte-bit table -/

theorem bb_row (hf : FixedOK n w) (r : ℤ) : ∃ b i : ℕ, b < 256 ∧ i < 8 ∧
    w.fix .bbByte r = b ∧ w.fix .bbIndex r = i ∧ w.fix .bbBit r = if b.testBit i then 1 else 0 := by
  simp only [hf .bbByte (by decide), hf .bbIndex (by decide), hf .bbBit (by decide), fixedCell]
  by_cases h : 1 ≤ r ∧ r ≤ 2048
  · simp only [h, and_self, if_true]
    exact ⟨((r - 1) / 8).toNat, ((r - 1) % 8).toNat, by omega, by omega, rfl, rfl, rfl⟩
  · simp only [h, if_false]
    exact ⟨0, 0, by norm_num, by norm_num, by simp, by simp, by simp⟩

/-- Every byte/index pair is on an enabled row of a circuit with enough rows. -/
theorem bb_complete (hf : FixedOK n w) (hn : ByteBit.nRowsRequired ≤ n) (b i : ℕ) (hb : b < 256)
    (hi : i < 8) : ∃ r, Enabled n r ∧
    w.fix .bbByte r = b ∧ w.fix .bbIndex r = i ∧ w.fix .bbBit r = if b.testBit i then 1 else 0 := by
  unfold ByteBit.nRowsRequired at hn
  refine ⟨1 + 8 * b + i, ⟨by omega, by omega⟩, ?_⟩
  simp only [hf .bbByte (by decide), hf .bbIndex (by decide), hf .bbBit (by decide), fixedCell]
  have h : (1 : ℤ) ≤ 1 + 8 * b + i ∧ (1 + 8 * b + i : ℤ) ≤ 2048 := by omega
  have h1 : ((1 + 8 * b + i - 1 : ℤ) / 8).toNat = b := by omega
  have h2 : ((1 + 8 * b + i - 1 : ℤ) % 8).toNat = i := by omega
  simp [h, h1, h2]

theorem range256_sound (hf : FixedOK n w) {r : ℤ} {nm : String} {q : Query Fr}
    (h : Cmd.Holds w U r (.lookup nm [(q, ByteBit.rangeCheck256)])) :
    ∃ b : ℕ, b < 256 ∧ q.eval w r = b := by
  obtain ⟨r', _, _, h3⟩ := (Cmd.holds_lookup ..).1 h
  obtain ⟨b, _, hb, _, h4, _, _⟩ := bb_row hf r'
  refine ⟨b, hb, ?_⟩
  have := h3 _ (List.mem_singleton.2 rfl)
  simpa [ByteBit.rangeCheck256, h4] using this

theorem range8_sound (hf : FixedOK n w) {r : ℤ} {nm : String} {q : Query Fr}
    (h : Cmd.Holds w U r (.lookup nm [(q, ByteBit.rangeCheck8)])) :
    ∃ b : ℕ, b < 8 ∧ q.eval w r = b := by
  obtain ⟨r', _, _, h3⟩ := (Cmd.holds_lookup ..).1 h
  obtain ⟨_, b, _, hb, _, h4, _⟩ := bb_row hf r'
  refine ⟨b, hb, ?_⟩
  have := h3 _ (List.mem_singleton.2 rfl)
  simpa [ByteBit.rangeCheck8, h4] using this

theorem range256_complete (hf : FixedOK n w) (hn : ByteBit.nRowsRequired ≤ n) (hnU : n ≤ U)
    {r : ℤ} {nm : String} {q : Query Fr} (b : ℕ) (hb : b < 256) (hq : q.eval w r = b) :
    Cmd.Holds w U r (.lookup nm [(q, ByteBit.rangeCheck256)]) := by
  obtain ⟨r', h1, h2, _⟩ := bb_complete hf hn b 0 hb (by norm_num)
  refine (Cmd.holds_lookup ..).2 ⟨r', enabled_inU h1 hnU, (sel_eq_one_iff hf r').2 h1, ?_⟩
  simp [ByteBit.rangeCheck256, h2, hq]

theorem range8_complete (hf : FixedOK n w) (hn : ByteBit.nRowsRequired ≤ n) (hnU : n ≤ U)
    {r : ℤ} {nm : String} {q : Query Fr} (b : ℕ) (hb : b < 8) (hq : q.eval w r = b) :
    Cmd.Holds w U r (.lookup nm [(q, ByteBit.rangeCheck8)]) := by
  obtain ⟨r', h1, _, h2, _⟩ := bb_complete hf hn 0 b (by norm_num) hb
  refine (Cmd.holds_lookup ..).2 ⟨r', enabled_inU h1 hnU, (sel_eq_one_iff hf r').2 h1, ?_⟩
  simp [ByteBit.rangeCheck8, h2, hq]

/-! ## Byte representation -/

/-- The row-wise meaning of the byte-representation constraints. -/
theorem byteRep_row (hf : FixedOK n w) {r : ℤ} (_hr : Enabled n r)
    (h : Cmd.HoldsL w U r ByteRep.configure) :
    (w.adv .brIndex r = 0 ∨ w.adv .brIndex r = w.adv .brIndex (r - 1) + 1) ∧
    ∃ b : ℕ, b < 256 ∧ w.adv .brByte r = b ∧
      w.adv .brValue r = (if w.adv .brIndex r = 0 then 0 else w.adv .brValue (r - 1) * 256) + b ∧
      w.adv .brRlc r = (if w.adv .brIndex r = 0 then 0 else w.adv .brRlc (r - 1) * w.chal) + b := by
  unfold ByteRep.configure at h
  rw [Cmd.holdsL_append, IsZeroGadget.configure_holds] at h
  obtain ⟨hz, h⟩ := h
  simp only [Cmd.holdsL_cons, Cmd.holdsL_nil, and_true] at h
  obtain ⟨-, h1, h2, h3, h4⟩ := h
  obtain ⟨b, hb, hbq⟩ := range256_sound hf h4
  have hcur := IsZeroGadget.eval_current _ w r hz
  simp only [AdvCol.eval_cur] at hbq
  refine ⟨?_, b, hb, hbq, ?_, ?_⟩
  · simp only [Cmd.holds_assertZero, Query.eval_mul, Query.eval_sub, AdvCol.eval_cur,
      AdvCol.eval_prev, Query.eval_one, mul_eq_zero] at h1
    rcases h1 with h1 | h1
    · exact .inl h1
    · right; linear_combination h1
  · simp only [Cmd.holds_assertEqual, Query.eval_mul, Query.eval_add, AdvCol.eval_cur,
      AdvCol.eval_prev, Query.eval_bnot, hcur, hbq, Query.eval_natLit] at h2
    rw [h2]
    by_cases hi : w.adv .brIndex r = 0 <;> simp [ByteRep.indexIsZero, hi]
  · simp only [Cmd.holds_assertEqual, Query.eval_mul, Query.eval_add, AdvCol.eval_cur,
      AdvCol.eval_prev, Query.eval_bnot, hcur, hbq, Query.eval_challenge] at h3
    rw [h3]
    by_cases hi : w.adv .brIndex r = 0 <;> simp [ByteRep.indexIsZero, hi]

/-- Every enabled row of the byte-representation table holds the value and RLC of the byte string
read so far, provided a new string starts on the first enabled row. -/
theorem byteRep_sound (hf : FixedOK n w)
    (h : ∀ r, Enabled n r → Cmd.HoldsL w U r ByteRep.configure)
    (h1 : w.adv .brIndex 1 = 0) (r : ℤ) (hr : Enabled n r) :
    ∃ l : List ℕ, IsBytes l ∧ 1 ≤ l.length ∧ (l.length : ℤ) ≤ r ∧
      w.adv .brIndex r = ((l.length - 1 : ℕ) : Fr) ∧ w.adv .brValue r = (beVal l : ℕ) ∧
      w.adv .brRlc r = rlc w.chal l := by
  obtain ⟨k, hk⟩ : ∃ k : ℕ, r = k + 1 := ⟨(r - 1).toNat, by have := hr.1; omega⟩
  induction k generalizing r with
  | zero =>
    simp only [Nat.cast_zero, zero_add] at hk
    subst hk
    obtain ⟨-, b, hb, -, h2, h3⟩ := byteRep_row hf hr (h 1 hr)
    refine ⟨[b], by simp [IsBytes, hb], by simp, by simp, by simp [h1], ?_, ?_⟩
    · simpa [h1, beVal] using h2
    · simpa [h1, rlc] using h3
  | succ k ih =>
    have hr' : Enabled n (r - 1) := ⟨by push_cast at hk; omega, by have := hr.2; omega⟩
    obtain ⟨l, hl, hl1, hlr, hi, hv, hrl⟩ := ih (r - 1) hr' (by push_cast at hk; omega)
    obtain ⟨h0, b, hb, -, h2, h3⟩ := byteRep_row hf hr (h r hr)
    by_cases hz : w.adv .brIndex r = 0
    · refine ⟨[b], by simp [IsBytes, hb], by simp, by have := hr.1; simpa using this, by simp [hz], ?_, ?_⟩
      · simpa [hz, beVal] using h2
      · simpa [hz, rlc] using h3
    · refine ⟨l ++ [b], isBytes_append.2 ⟨hl, by simp [IsBytes, hb]⟩, by simp, ?_, ?_, ?_, ?_⟩
      · simp only [List.length_append, List.length_singleton]; push_cast; omega
      · rw [h0.resolve_left hz, hi]
        simp only [List.length_append, List.length_singleton]
        rw [← Nat.cast_one (R := Fr), ← Nat.cast_add]
        congr 1; omega
      · rw [h2, if_neg hz, hv, beVal_concat]; push_cast; ring
      · rw [h3, if_neg hz, hrl, rlc_concat]

theorem frModulus_big : 2 ^ 64 < frModulus := lt_trans (by norm_num) frModulus_gt

/-- Result of an `RlcLookup` with a constant index below the field size. -/
theorem rlcLookup_sound (hf : FixedOK n w) (hn : n ≤ 2 ^ 64)
    (h : ∀ r, Enabled n r → Cmd.HoldsL w U r ByteRep.configure)
    (h1 : w.adv .brIndex 1 = 0) {r : ℤ} {nm : String} {qv qi qr : Query Fr} (k : ℕ) (hk : k < 2 ^ 64)
    (hi : qi.eval w r = (k : Fr))
    (hl : Cmd.Holds w U r (.lookup nm (List.zip [qv, qi, qr] ByteRep.rlcLookup))) :
    ∃ l : List ℕ, IsBytes l ∧ l.length = k + 1 ∧ qv.eval w r = (beVal l : ℕ) ∧
      qr.eval w r = rlc w.chal l := by
  obtain ⟨r', _, hs, h3⟩ := (Cmd.holds_lookup ..).1 hl
  have he := (sel_eq_one_iff hf r').1 hs
  simp only [ByteRep.rlcLookup, List.zip_cons_cons, List.zip_nil_right, List.forall_mem_cons,
    AdvCol.eval_cur, List.not_mem_nil, false_imp_iff, implies_true, and_true] at h3
  obtain ⟨e1, e2, e3⟩ := h3
  obtain ⟨l, hl, hl1, hlr, hi', hv, hrl⟩ := byteRep_sound hf h h1 r' he
  refine ⟨l, hl, ?_, e1.trans hv, e3.trans hrl⟩
  rw [hi, hi'] at e2
  have := natCast_inj_of_lt (lt_trans hk frModulus_big) (by
    have := he.2; have := frModulus_big; omega) e2
  omega

/-- Result of a `BytesLookup` with a constant index. -/
theorem bytesLookup_sound (hf : FixedOK n w) (hn : n ≤ 2 ^ 64)
    (h : ∀ r, Enabled n r → Cmd.HoldsL w U r ByteRep.configure)
    (h1 : w.adv .brIndex 1 = 0) {r : ℤ} {nm : String} {qv qi : Query Fr} (k : ℕ) (hk : k < 2 ^ 64)
    (hi : qi.eval w r = (k : Fr))
    (hl : Cmd.Holds w U r (.lookup nm (List.zip [qv, qi] ByteRep.bytesLookup))) :
    ∃ l : List ℕ, IsBytes l ∧ l.length = k + 1 ∧ qv.eval w r = (beVal l : ℕ) := by
  obtain ⟨r', _, hs, h3⟩ := (Cmd.holds_lookup ..).1 hl
  have he := (sel_eq_one_iff hf r').1 hs
  simp only [ByteRep.bytesLookup, List.zip_cons_cons, List.zip_nil_right, List.forall_mem_cons,
    AdvCol.eval_cur, List.not_mem_nil, false_imp_iff, implies_true, and_true] at h3
  obtain ⟨e1, e2⟩ := h3
  obtain ⟨l, hl, hl1, hlr, hi', hv, hrl⟩ := byteRep_sound hf h h1 r' he
  refine ⟨l, hl, ?_, e1.trans hv⟩
  rw [hi, hi'] at e2
  have := natCast_inj_of_lt (lt_trans hk frModulus_big) (by
    have := he.2; have := frModulus_big; omega) e2
  omega

/-! ## Canonical representation -/

theorem beVal_lt_of_first_diff (pre s1 s2 : List ℕ) (x y : ℕ) (hxy : x < y) (h1 : IsBytes s1)
    (hl : s1.length = s2.length) : beVal (pre ++ x :: s1) < beVal (pre ++ y :: s2) := by
  have h := beVal_lt s1 h1
  simp only [beVal_append, beVal, List.length_cons, hl] at *
  have := Nat.mul_le_mul_right (256 ^ s2.length) (Nat.succ_le_of_lt hxy)
  rw [Nat.succ_mul] at this
  omega

theorem modulusBytes_beVal : beVal modulusBytes = frModulus := by
  simp only [modulusBytes, beVal, List.length_cons, List.length_nil, frModulus]
  norm_num
theorem modulusBytes_length : modulusBytes.length = 32 := rfl
theorem modulusBytes_lt (i : ℕ) : modulusBytes.getD i 0 < 256 := by
  by_cases h : i < 32
  · have : ∀ j : Fin 32, modulusBytes.getD j.val 0 < 256 := by decide
    exact this ⟨i, h⟩
  · rw [List.getD_eq_default _ _ (by rw [modulusBytes_length]; omega)]; norm_num

/-- The row-wise meaning of the canonical-representation constraints. -/
theorem canonical_row (hf : FixedOK n w) {r : ℤ}
    (h : Cmd.HoldsL w U r Canonical.configure) :
    (w.adv .crZeroSoFar r = 0 ∨ w.adv .crZeroSoFar r = 1) ∧
    w.adv .crDiffInv r = (w.adv .crDifference r)⁻¹ ∧
    w.adv .crDifference r = w.fix .crModulusByte r - w.adv .crByte r ∧
    (w.fix .crIndexIsZero r = 1 → w.adv .crValue r = Canonical.byteSum.eval w r ∧
      w.adv .crZeroSoFar r = 1 ∧ w.adv .crRlc r = w.adv .crByte r) ∧
    (w.fix .crIndexIsZero r = 0 → w.adv .crValue r = w.adv .crValue (r - 1) ∧
      w.adv .crZeroSoFar r = w.adv .crZeroSoFar (r - 1) *
        (1 - w.adv .crDifference (r - 1) * w.adv .crDiffInv (r - 1)) ∧
      w.adv .crRlc r = w.adv .crRlc (r - 1) * w.chal + w.adv .crByte r) ∧
    (∃ b : ℕ, b < 256 ∧ w.adv .crByte r = b) ∧
    (w.adv .crZeroSoFar r = 1 → w.adv .crDifference r ≠ 0 →
      ∃ b : ℕ, b < 256 ∧ w.adv .crDifference r = b) ∧
    (w.fix .crIndexIsZero (r - 31) = 1 →
      ¬ (w.adv .crZeroSoFar r = 1 ∧ w.adv .crDifference r = 0)) := by
  unfold Canonical.configure at h
  rw [Cmd.holdsL_append, Cmd.holdsL_append, binaryColumn_holds, IsZeroGadget.configure_holds] at h
  obtain ⟨⟨hbin, hz⟩, h⟩ := h
  simp only [Cmd.holdsL_cons, Cmd.holdsL_nil, and_true] at h
  obtain ⟨h1, h2, h3, h4, h5, h6⟩ := h
  have hcur := IsZeroGadget.eval_current _ w r hz
  have hz' : w.adv .crDiffInv r = (w.adv .crDifference r)⁻¹ := hz
  have hcur' : Query.eval w r Canonical.differenceIsZero.current =
    if w.adv .crDifference r = 0 then 1 else 0 := hcur
  refine ⟨hbin, hz', by simpa using h1, ?_, ?_, ?_, ?_, ?_⟩
  · intro hi
    simpa [hi, Cmd.holds_cond] using h2
  · intro hi
    simpa [hi, Cmd.holds_cond, Canonical.differenceIsZero, IsZeroGadget.previous] using h3
  · obtain ⟨b, hb, hq⟩ := range256_sound hf h4
    exact ⟨b, hb, by simpa using hq⟩
  · intro hzs hd
    rw [Cmd.holds_cond] at h5
    have := h5 (by simp [hcur', hd, hzs])
    rw [Cmd.holdsL_cons] at this
    obtain ⟨b, hb, hq⟩ := range256_sound hf this.1
    exact ⟨b, hb, by simpa using hq⟩
  · rintro hi ⟨hzs, hd⟩
    rw [Cmd.holds_cond] at h6
    have hi' : Query.eval w r (FixCol.crIndexIsZero.rot (-31) : Query Fr) = 1 := by
      rw [FixCol.eval_rot]; exact hi
    have := h6 (by rw [hi']; exact one_ne_zero)
    simp [hcur', hd, hzs] at this

theorem byteSum_eval (bs : ℕ → ℕ) (r : ℤ) (k : ℕ)
    (hb : ∀ i < k, w.adv .crByte (r + i) = (bs i : Fr)) :
    ((List.range k).foldl (fun acc (i : ℕ) => acc * 256 + AdvCol.crByte.rot (i : ℤ)) (0 : Query Fr)).eval
      w r = ((beVal ((List.range k).map bs) : ℕ) : Fr) := by
  induction k with
  | zero => simp [beVal]
  | succ k ih =>
    rw [List.range_succ, List.foldl_append, List.map_append]
    simp only [List.foldl_cons, List.foldl_nil, List.map_cons, List.map_nil, beVal_concat]
    rw [Query.eval_add, Query.eval_mul, ih (fun i hi => hb i (by omega)), AdvCol.eval_rot,
      hb k (by omega)]
    simp only [Query.eval_natLit]
    push_cast; ring

/-- A group of 32 enabled rows holds the canonical bytes of its value. -/
theorem canonical_group (hf : FixedOK n w)
    (h : ∀ r, Enabled n r → Cmd.HoldsL w U r Canonical.configure)
    (j : ℕ) (hj : 32 * (j + 1) < n) :
    ∃ l : List ℕ, IsBytes l ∧ l.length = 32 ∧ beVal l < frModulus ∧ ∀ i : ℕ, i < 32 →
      w.adv .crValue (1 + 32 * j + i) = (beVal l : ℕ) ∧
      w.adv .crByte (1 + 32 * j + i) = ((l.getD i 0 : ℕ) : Fr) ∧
      w.adv .crRlc (1 + 32 * j + i) = rlc w.chal (l.take (i + 1)) := by
  have hen : ∀ i : ℕ, i < 32 → Enabled n (1 + 32 * j + i) := fun i hi => ⟨by omega, by omega⟩
  have row := fun (i : ℕ) (hi : i < 32) => canonical_row hf (h _ (hen i hi))
  have hz0 : w.fix .crIndexIsZero (1 + 32 * j + (0 : ℕ)) = 1 := by
    rw [hf .crIndexIsZero (by decide)]
    simp only [fixedCell]
    rw [if_pos]
    refine ⟨by omega, by omega, by omega⟩
  have hzi : ∀ i : ℕ, 0 < i → i < 32 → w.fix .crIndexIsZero (1 + 32 * j + i) = 0 := by
    intro i h0 hi
    rw [hf .crIndexIsZero (by decide)]
    simp only [fixedCell]
    rw [if_neg]
    rintro ⟨-, -, h3⟩
    omega
  have hm : ∀ i : ℕ, i < 32 → w.fix .crModulusByte (1 + 32 * j + i) =
      ((modulusBytes.getD i 0 : ℕ) : Fr) := by
    intro i hi
    rw [hf .crModulusByte (by decide)]
    simp only [fixedCell]
    rw [if_pos ⟨by omega, by omega⟩]
    congr 3
    omega
  have hbex : ∀ i : ℕ, ∃ b : ℕ, i < 32 → b < 256 ∧ w.adv .crByte (1 + 32 * j + i) = b := by
    intro i
    by_cases hi : i < 32
    · obtain ⟨b, hb⟩ := (row i hi).2.2.2.2.2.1
      exact ⟨b, fun _ => hb⟩
    · exact ⟨0, fun h => absurd h hi⟩
  choose bs hbs using hbex
  let l := (List.range 32).map bs
  have hlen : l.length = 32 := by simp [l]
  have hl : IsBytes l := by
    intro b hb
    simp only [l, List.mem_map, List.mem_range] at hb
    obtain ⟨i, hi, rfl⟩ := hb
    exact (hbs i hi).1
  have hget : ∀ i, i < 32 → l.getD i 0 = bs i := by
    intro i hi
    simp [l, List.getD_eq_getElem?_getD, List.getElem?_map, List.getElem?_range hi]
  have hval : ∀ i : ℕ, i < 32 → w.adv .crValue (1 + 32 * j + i) = (beVal l : ℕ) := by
    intro i
    induction i with
    | zero =>
      intro _
      have := ((row 0 (by norm_num)).2.2.2.1 hz0).1
      rw [this]
      apply byteSum_eval
      intro i hi
      have := (hbs i hi).2
      simpa using this
    | succ i ih =>
      intro hi
      have := ((row (i + 1) hi).2.2.2.2.1 (hzi _ (by omega) hi)).1
      rw [this, show (1 + 32 * (j : ℤ) + ((i + 1 : ℕ) : ℤ) - 1) = 1 + 32 * j + i by push_cast; ring]
      exact ih (by omega)
  have hrlc : ∀ i : ℕ, i < 32 → w.adv .crRlc (1 + 32 * j + i) = rlc w.chal (l.take (i + 1)) := by
    intro i
    induction i with
    | zero =>
      intro _
      have := ((row 0 (by norm_num)).2.2.2.1 hz0).2.2
      rw [this, (hbs 0 (by norm_num)).2]
      simp [l, rlc, List.range_succ_eq_map]
    | succ i ih =>
      intro hi
      have := ((row (i + 1) hi).2.2.2.2.1 (hzi _ (by omega) hi)).2.2
      rw [this, show (1 + 32 * (j : ℤ) + ((i + 1 : ℕ) : ℤ) - 1) = 1 + 32 * j + i by push_cast; ring,
        ih (by omega), (hbs (i + 1) hi).2]
      have ht : l.take (i + 1 + 1) = l.take (i + 1) ++ [bs (i + 1)] := by
        rw [List.take_add_one]
        simp [l, List.getElem?_range hi]
      rw [ht, rlc_concat]
  -- differences
  have hdiff : ∀ i : ℕ, i < 32 → w.adv .crDifference (1 + 32 * j + i) =
      ((modulusBytes.getD i 0 : ℕ) : Fr) - (bs i : Fr) := by
    intro i hi
    rw [(row i hi).2.2.1, hm i hi, (hbs i hi).2]
  have hd0 : ∀ i : ℕ, i < 32 → (w.adv .crDifference (1 + 32 * j + i) = 0 ↔
      bs i = modulusBytes.getD i 0) := by
    intro i hi
    rw [hdiff i hi, sub_eq_zero]
    constructor
    · intro he
      have h256 : 256 < frModulus := lt_trans (by norm_num) frModulus_big
      exact (natCast_inj_of_lt (lt_trans (modulusBytes_lt i) h256)
        (lt_trans (hbs i hi).1 h256) he).symm
    · intro he; rw [he]
  have hzs : ∀ i : ℕ, i < 32 → (∀ k < i, bs k = modulusBytes.getD k 0) →
      w.adv .crZeroSoFar (1 + 32 * j + i) = 1 := by
    intro i
    induction i with
    | zero => intro _ _; exact ((row 0 (by norm_num)).2.2.2.1 hz0).2.1
    | succ i ih =>
      intro hi hk
      have := ((row (i + 1) hi).2.2.2.2.1 (hzi _ (by omega) hi)).2.1
      rw [this, show (1 + 32 * (j : ℤ) + ((i + 1 : ℕ) : ℤ) - 1) = 1 + 32 * j + i by push_cast; ring,
        ih (by omega) (fun k hk' => hk k (by omega)),
        (hd0 i (by omega)).2 (hk i (by omega))]
      simp
  -- there is a first difference
  have hex : ∃ i, i < 32 ∧ bs i ≠ modulusBytes.getD i 0 := by
    by_contra hcon
    push Not at hcon
    have := (row 31 (by norm_num)).2.2.2.2.2.2.2
    rw [show (1 + 32 * (j : ℤ) + ((31 : ℕ) : ℤ) - 31) = 1 + 32 * j + (0 : ℕ) by push_cast; ring] at this
    exact this hz0 ⟨hzs 31 (by norm_num) (fun k hk => hcon k (by omega)),
      (hd0 31 (by norm_num)).2 (hcon 31 (by norm_num))⟩
  classical
  let i := Nat.find hex
  obtain ⟨hi, hne⟩ := Nat.find_spec hex
  have hmin : ∀ k < i, bs k = modulusBytes.getD k 0 := by
    intro k hk
    have := Nat.find_min hex hk
    push Not at this
    exact this (lt_trans hk hi)
  have hlt : bs i < modulusBytes.getD i 0 := by
    obtain ⟨b, hb, hbd⟩ := (row i hi).2.2.2.2.2.2.1 (hzs i hi hmin)
      (fun h0 => hne ((hd0 i hi).1 h0))
    rw [hdiff i hi, sub_eq_iff_eq_add, ← Nat.cast_add] at hbd
    have h512 : 512 < frModulus := lt_trans (by norm_num) frModulus_big
    have hb1 := (hbs i hi).1
    have hm1 := modulusBytes_lt i
    have := natCast_inj_of_lt (by omega) (by omega) hbd
    have : bs i ≠ modulusBytes.getD i 0 := hne
    omega
  have hlt2 : beVal l < frModulus := by
    rw [← modulusBytes_beVal]
    have e1 : l = l.take i ++ bs i :: l.drop (i + 1) := by
      conv_lhs => rw [← List.take_append_drop i l]
      congr 1
      have hi' : i < l.length := by rw [hlen]; exact hi
      rw [List.drop_eq_getElem_cons hi']
      congr 1
      simp [l]
    have e2 : modulusBytes = l.take i ++ modulusBytes.getD i 0 :: modulusBytes.drop (i + 1) := by
      conv_lhs => rw [← List.take_append_drop i modulusBytes]
      congr 1
      · apply List.ext_getElem
        · simp [hlen, modulusBytes_length]
        · intro k hk1 hk2
          simp only [List.length_take, modulusBytes_length] at hk1
          have hk : k < i := by omega
          have hk32 : k < 32 := by omega
          rw [List.getElem_take, List.getElem_take]
          have := hmin k hk
          rw [List.getD_eq_getElem _ _ (by rw [modulusBytes_length]; exact hk32)] at this
          rw [← this]
          simp [l]
      · have hi' : i < modulusBytes.length := by rw [modulusBytes_length]; exact hi
        rw [List.drop_eq_getElem_cons hi', List.getD_eq_getElem _ _ hi']
    rw [e1, e2]
    apply beVal_lt_of_first_diff _ _ _ _ _ hlt
    · intro b hb
      exact hl b (List.mem_of_mem_drop hb)
    · simp [hlen, modulusBytes_length]
  refine ⟨l, hl, hlen, hlt2, fun k hk => ⟨hval k hk, ?_, hrlc k hk⟩⟩
  rw [hget k hk, (hbs k hk).2]

end Mpt
