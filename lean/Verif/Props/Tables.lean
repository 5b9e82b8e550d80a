import Verif.Accepted
import Verif.Assign.Fixed

set_option autoImplicit false

/-!
# Properties C09-C15 and C50: the lookup tables

`InBytes`, `InRlc`, `InFrRlc`, `InKeyBit` (Verif.Gadgets.UpdateRows): the tuple is on an enabled row
of the corresponding table. The full statements of C09, C11 and C13 are refuted in
`Verif.Props.NegativeTables`; here are the strongest variants that hold.
-/

namespace Mpt.Props
open Mpt Spec MptUpdate

variable {H : HashFn} {n U : ℕ} {w : Witness Fr}

/-- `(v, i, b)` is on an enabled row of the canonical-representation table. -/
def InCanonical (w : Witness Fr) (U : ℕ) (v i b : Fr) : Prop :=
  ∃ r', InU U r' ∧ w.fix .selector r' = 1 ∧ v = w.adv .crValue r' ∧ i = w.fix .crIndex r' ∧
    b = w.adv .crByte r'

/-! ## C09 -/

/-- **C09, partial.** If (value, index, rlc) is found in the byte-representation table of an accepted
witness, value is the integer of `index + 1` bytes and rlc their RLC.

Missing: the hypothesis that the first enabled row starts a new string (`brIndex = 0` on row 1). The
code means to enforce it (`is_first` is enabled on row 0), but the constraint is switched off on row 0
by the selector; without it the statement is false (`c09_false`). -/
theorem c09_bytes_partial (h : Accepted H n U w) (h1 : w.adv .brIndex 1 = 0) (value rlc : Fr)
    (index : ℕ) (hi : index ≤ 30) :
    (InBytes w U value index → ∃ l, IsBytes l ∧ l.length = index + 1 ∧ value = (beVal l : ℕ)) ∧
    (InBytes w U value index → value.val < 256 ^ (index + 1)) ∧
    (InRlc w U value index rlc →
      ∃ l, IsBytes l ∧ l.length = index + 1 ∧ value = (beVal l : ℕ) ∧ rlc = Spec.rlc w.chal l) := by
  have hn64 : n ≤ 2 ^ 64 := le_trans h.rows h.size
  have hk : index < 2 ^ 64 := by omega
  have key : InBytes w U value index →
      ∃ l, IsBytes l ∧ l.length = index + 1 ∧ value = (beVal l : ℕ) := by
    intro hb
    have := (holds_bytes (w := w) (U := U) (r := 0) "" (.const value) (.const (index : Fr))).2 hb
    exact bytesLookup_sound h.fixed hn64 h.byteRep h1 index hk (qi := .const (index : Fr)) rfl this
  refine ⟨key, fun hb => ?_, fun hb => ?_⟩
  · obtain ⟨l, hl, hlen, hv⟩ := key hb
    have hlt := beVal_lt l hl
    rw [hlen] at hlt
    rw [hv, ZMod.val_natCast]
    exact lt_of_le_of_lt (Nat.mod_le _ _) hlt
  · have := (holds_rlc (w := w) (U := U) (r := 0) "" (.const value) (.const (index : Fr))
      (.const rlc)).2 hb
    exact rlcLookup_sound h.fixed hn64 h.byteRep h1 index hk (qi := .const (index : Fr)) rfl this

/-- **C09 without the hypothesis**: what is unsound is confined to the first string of the table. A
table row is sound as soon as one of the rows `1..r` starts a string. -/
theorem c09_after_first_string_partial (h : Accepted H n U w) (r₀ r : ℤ) (hr₀ : Enabled n r₀)
    (h0 : w.adv .brIndex r₀ = 0) (hr : r₀ ≤ r) (he : Enabled n r) :
    ∃ l, IsBytes l ∧ 1 ≤ l.length ∧ w.adv .brIndex r = ((l.length - 1 : ℕ) : Fr) ∧
      w.adv .brValue r = (beVal l : ℕ) ∧ w.adv .brRlc r = Spec.rlc w.chal l := by
  obtain ⟨k, rfl⟩ : ∃ k : ℕ, r = r₀ + k := ⟨(r - r₀).toNat, by omega⟩
  induction k with
  | zero =>
    simp only [Nat.cast_zero, add_zero] at *
    obtain ⟨-, b, hb, -, h2, h3⟩ := byteRep_row h.fixed hr₀ (h.byteRep r₀ hr₀)
    refine ⟨[b], by simp [IsBytes, hb], by simp, by simp [h0], ?_, ?_⟩
    · simpa [h0, beVal] using h2
    · simpa [h0, Spec.rlc] using h3
  | succ k ih =>
    have he' : Enabled n (r₀ + k) :=
      ⟨by have := hr₀.1; omega, by have := he.2; push_cast at this; omega⟩
    obtain ⟨l, hl, hl1, hi, hv, hrl⟩ := ih (by omega) he'
    obtain ⟨h0', b, hb, -, h2, h3⟩ := byteRep_row h.fixed he (h.byteRep _ he)
    have e : r₀ + ((k + 1 : ℕ) : ℤ) - 1 = r₀ + k := by push_cast; ring
    rw [e] at h0' h2 h3
    generalize r₀ + ((k + 1 : ℕ) : ℤ) = r at *
    by_cases hz : w.adv .brIndex r = 0
    · refine ⟨[b], by simp [IsBytes, hb], by simp, by simp [hz], ?_, ?_⟩
      · simpa [hz, beVal] using h2
      · simpa [hz, Spec.rlc] using h3
    · refine ⟨l ++ [b], isBytes_append.2 ⟨hl, by simp [IsBytes, hb]⟩, by simp, ?_, ?_, ?_⟩
      · rw [h0'.resolve_left hz, hi]
        simp only [List.length_append, List.length_singleton]
        rw [← Nat.cast_one (R := Fr), ← Nat.cast_add]
        congr 1; omega
      · rw [h2, if_neg hz, hv, beVal_concat]; push_cast; ring
      · rw [h3, if_neg hz, hrl, rlc_concat]

/-! ## C10 -/

/-- **C10.** For `u32`s, `u64`s, `u128`s and field elements below `2^248`, the byte-representation
assignment uses exactly `n_rows_required` rows (row 0 included), satisfies the gadget's constraints
on every enabled row, and exposes each number at the index of its width, with the RLC of its
big-endian bytes. -/
theorem c10_byte_representation_assign (hf : FixedOK n w) (hb : ByteBit.nRowsRequired ≤ n)
    (hnU : n ≤ U) (u32s u64s u128s : List ℕ) (frs : List Fr)
    (h32 : ∀ x ∈ u32s, x < 2 ^ 32) (h64 : ∀ x ∈ u64s, x < 2 ^ 64) (h128 : ∀ x ∈ u128s, x < 2 ^ 128)
    (hfr : ∀ x ∈ frs, x.val < 2 ^ 248)
    (hn : ByteRep.nRowsRequired u32s.length u64s.length u128s.length frs.length ≤ n) :
    ∃ strings, ByteRep.byteStrings u32s u64s u128s frs = some strings ∧
      1 + (ByteRep.assignRows w.chal strings).length =
        ByteRep.nRowsRequired u32s.length u64s.length u128s.length frs.length ∧
      (ByteRep.Assigned w strings →
        (∀ r, Enabled n r → Cmd.HoldsL w U r ByteRep.configure) ∧
        (∀ x ∈ u32s, InRlc w U x 3 (Spec.rlc w.chal (beBytes 4 x)) ∧ InBytes w U x 3) ∧
        (∀ x ∈ u64s, InRlc w U x 7 (Spec.rlc w.chal (beBytes 8 x)) ∧ InBytes w U x 7) ∧
        (∀ x ∈ u128s, InRlc w U x 15 (Spec.rlc w.chal (beBytes 16 x)) ∧ InBytes w U x 15) ∧
        (∀ x ∈ frs, InRlc w U x 30 (Spec.rlc w.chal (beBytes 31 x.val)) ∧ InBytes w U x 30)) := by
  obtain ⟨p1, p2, -⟩ := ByteRep.byteStrings_spec u32s u64s u128s frs
  have e := p2 (fun x hx => lt_of_lt_of_le (hfr x hx) (by norm_num))
  obtain ⟨q1, q2⟩ := p1 _ e
  refine ⟨_, e, by rw [ByteRep.assignRows_length]; exact q1, fun ha => ?_⟩
  have hserved : ∀ s ∈ u32s.map (beBytes 4) ++ u64s.map (beBytes 8) ++ u128s.map (beBytes 16) ++
      frs.map (fun x => beBytes 31 x.val), ∀ (v : ℕ) (k : ℕ), s = beBytes (k + 1) v →
      v < 256 ^ (k + 1) →
      InRlc w U (v : Fr) (k : Fr) (Spec.rlc w.chal s) ∧ InBytes w U (v : Fr) (k : Fr) := by
    intro s hs v k hsv hv
    obtain ⟨r, he, hsel, h1, h2, h3⟩ := ByteRep.served _ ha hf (by rw [q1]; exact hn) s hs (q2 s hs).2.1
    have hl : s.length - 1 = k := by rw [hsv]; simp
    have hbv : beVal s = v := by rw [hsv, beVal_beBytes _ _ hv]
    rw [hl] at h2
    rw [hbv] at h1
    exact ⟨⟨r, enabled_inU he hnU, hsel, h1.symm, h2.symm, h3.symm⟩,
      ⟨r, enabled_inU he hnU, hsel, h1.symm, h2.symm⟩⟩
  refine ⟨fun r hr => ByteRep.holds hf hb hnU _ (fun s hs => (q2 s hs).1)
    (fun s hs => (q2 s hs).2.2) ha r hr, ?_, ?_, ?_, ?_⟩
  · intro x hx
    exact_mod_cast hserved (beBytes 4 x) (by
      simp only [List.mem_append, List.mem_map]
      exact (.inl (.inl (.inl ⟨x, hx, rfl⟩)))) x 3 rfl (lt_of_lt_of_le (h32 x hx) (by norm_num))
  · intro x hx
    exact_mod_cast hserved (beBytes 8 x) (by
      simp only [List.mem_append, List.mem_map]
      exact (.inl (.inl (.inr ⟨x, hx, rfl⟩)))) x 7 rfl (lt_of_lt_of_le (h64 x hx) (by norm_num))
  · intro x hx
    exact_mod_cast hserved (beBytes 16 x) (by
      simp only [List.mem_append, List.mem_map]
      exact (.inl (.inr ⟨x, hx, rfl⟩))) x 15 rfl (lt_of_lt_of_le (h128 x hx) (by norm_num))
  · intro x hx
    have := hserved (beBytes 31 x.val) (by
      simp only [List.mem_append, List.mem_map]
      exact (.inr ⟨x, hx, rfl⟩)) x.val 30 rfl (lt_of_lt_of_le (hfr x hx) (by norm_num))
    rw [ZMod.natCast_zmod_val] at this
    exact_mod_cast this

/-- **C10, panic.** A field element of 2^248 or more makes the assignment panic. -/
theorem c10_large_field_element_panics (u32s u64s u128s : List ℕ) (frs : List Fr)
    (h : ∃ x ∈ frs, 2 ^ 248 ≤ x.val) : ByteRep.byteStrings u32s u64s u128s frs = none :=
  (ByteRep.byteStrings_spec u32s u64s u128s frs).2.2
    (by obtain ⟨x, hx, hv⟩ := h; exact ⟨x, hx, le_trans (by norm_num) hv⟩)

/-- The hypotheses of C10 are met by a witness assigned for any numbers. -/
example (ρ : Fr) : ∃ w : Witness Fr, w.chal = ρ ∧ FixedOK 2049 w ∧
    ByteRep.Assigned w [beBytes 4 7, beBytes 8 (2 ^ 63), beBytes 31 12345] ∧
    ByteRep.nRowsRequired 1 1 0 1 ≤ 2049 ∧ ByteBit.nRowsRequired ≤ 2049 :=
  ⟨⟨ByteRep.cell ρ [beBytes 4 7, beBytes 8 (2 ^ 63), beBytes 31 12345], fixedCell 2049, ρ⟩, rfl,
    fun _ _ _ => rfl, fun _ _ _ => rfl, by norm_num [ByteRep.nRowsRequired],
    by norm_num [ByteBit.nRowsRequired]⟩

/-! ## C11 -/

/-- **C11, partial.** If (value, index, byte) is found in the canonical-representation table then
index < 32 and byte is byte `index` of the canonical (smaller than the modulus) 32-byte big-endian
representation of value.

Missing: the number of rows must not be a multiple of 32, and the rows after the last complete group (there
are none if the number of rows is 1 modulo 32) must hold the leading bytes of their values; the code enforces
neither, and otherwise the statement is false (`c11_c13_false_mod_zero`, `c11_c13_false_trailing`). -/
theorem c11_canonical_partial (h : Accepted H n U w) (hn : n % 32 ≠ 0) (hT : TrailingOK n w) (value index byte : Fr)
    (hl : InCanonical w U value index byte) :
    ∃ (i : ℕ) (l : List ℕ), i < 32 ∧ index = i ∧ IsBytes l ∧ l.length = 32 ∧ beVal l < frModulus ∧
      value = (beVal l : ℕ) ∧ byte = ((l.getD i 0 : ℕ) : Fr) := by
  have h2 : Cmd.Holds w U 0 (.lookup "" (List.zip [.const value, .const index, .const byte]
      Canonical.lookup)) := by
    obtain ⟨r', a, b, c, d, e⟩ := hl
    rw [Cmd.holds_lookup]
    exact ⟨r', a, b, by simp [Canonical.lookup, c, d, e]⟩
  obtain ⟨i, hi, e1, e2⟩ := canonLookup_sound h.fixed hn hT h.canonical h2
  exact ⟨i, frBytes value, hi, e1, isBytes_frBytes value, by simp,
    by rw [beVal_frBytes]; exact ZMod.val_lt value,
    by rw [beVal_frBytes]; exact (ZMod.natCast_zmod_val value).symm, e2⟩

/-- **C11, partial.** For any number of rows that is not a multiple of 32, the canonical bytes at
index 1 to 31 are right, and `FrRlcLookup` returns the RLC of the canonical bytes.

Missing: index 0 (the rows after the last complete group show index 0 with an arbitrary byte), and
`n % 32 = 0`. -/
theorem c11_canonical_rlc_partial (h : Accepted H n U w) (hn : n % 32 ≠ 0) (value : Fr) :
    (∀ rlc, InFrRlc w U value rlc → rlc = Spec.rlc w.chal (frBytes value)) ∧
    (∀ index byte, index ≠ 0 → InCanonical w U value index byte →
      ∃ i : ℕ, i < 32 ∧ index = i ∧ byte = (((frBytes value).getD i 0 : ℕ) : Fr)) := by
  constructor
  · intro rlc hb
    have := (holds_frRlc (w := w) (U := U) (r := 0) "" (.const value) (.const rlc)).2 hb
    exact frRlcLookup_sound h.fixed hn h.canonical this
  · intro index byte h0 hl
    have h2 : Cmd.Holds w U 0 (.lookup "" (List.zip [.const value, .const index, .const byte]
        Canonical.lookup)) := by
      obtain ⟨r', a, b, c, d, e⟩ := hl
      rw [Cmd.holds_lookup]
      exact ⟨r', a, b, by simp [Canonical.lookup, c, d, e]⟩
    exact canonLookup_sound_ne_zero h.fixed hn h.canonical
      (qi := .const index) (r := 0) h0 h2

/-! ## C12 -/

/-- **C12.** For any list of field elements with at least one group to spare (mpt.rs:173 asserts
this), `assign` does not panic, and the assigned witness satisfies the gadget's constraints on every
enabled row and exposes all 32 canonical bytes and the RLC of each listed value (and of 0); the fixed
columns depend on `n` only. -/
theorem c12_canonical_assign (hb : ByteBit.nRowsRequired ≤ n) (hnU : n ≤ U)
    (values : List Fr) (hv : values.length ≤ n / 32 - 1) :
    (∃ rows, Canonical.assignRows w.chal values n = some rows) ∧
    (FixedOK n w → Canonical.SerialAssigned w values n →
      (∀ r, Enabled n r → Cmd.HoldsL w U r Canonical.configure) ∧
      (∀ v ∈ values, (∀ i : ℕ, i < 32 →
        InCanonical w U v i (((frBytes v).getD i 0 : ℕ) : Fr)) ∧
        InFrRlc w U v (Spec.rlc w.chal (frBytes v)))) ∧
    (Canonical.SerialAssigned w values n →
      ∀ c ∈ [FixCol.crIndex, .crIndexIsZero, .crIndexIs31, .crModulusByte], ∀ r,
        w.fix c r = fixedCell n c r) := by
  have hn32 : 1 ≤ n / 32 := by unfold ByteBit.nRowsRequired at hb; omega
  have hv' : values.length < n / 32 := by omega
  refine ⟨⟨_, Canonical.assignRows_eq _ _ _ (le_of_lt hv')⟩, ?_, fun ha => ha.assigned.2.2⟩
  intro hf ha
  obtain ⟨-, ha, -⟩ := ha.assigned
  refine ⟨fun r hr => Canonical.holds hf hb hnU values hv ha r hr, fun v hvm => ?_⟩
  obtain ⟨s1, s2⟩ := Canonical.served hf values (le_of_lt hv') ha v hvm
  refine ⟨fun i hi => ?_, ?_⟩
  · obtain ⟨r, he, e1, e2, e3⟩ := s1 i hi (.inr (.inr hv'))
    exact ⟨r, enabled_inU he hnU, (sel_eq_one_iff hf r).2 he, e1.symm, e2.symm, e3.symm⟩
  · obtain ⟨r, he, e1, e2, e3⟩ := s2 (.inr hv')
    exact ⟨r, enabled_inU he hnU, (sel_eq_one_iff hf r).2 he, by rw [e1, e2, mul_one],
      by rw [e1, e3, mul_one]⟩

/-- A witness as in C12 exists for every list of values. -/
theorem c12_witness (ρ : Fr) (values : List Fr) (n : ℕ) (hv : values.length ≤ n / 32) :
    ∃ w : Witness Fr, w.chal = ρ ∧ FixedOK n w ∧ Canonical.SerialAssigned w values n := by
  have h1 : Canonical.assignRows ρ values n = some (Canonical.rows ρ values n) := by
    rw [Canonical.rows, Canonical.assignRows_eq _ _ _ hv]; rfl
  refine ⟨⟨Canonical.cell ρ values n, fixedCell n, ρ⟩, rfl, fun _ _ _ => rfl,
    Canonical.rows ρ values n, h1, ?_, ?_⟩
  · intro p hp r
    simp only [Canonical.adviceCols, List.mem_cons, List.not_mem_nil, or_false] at hp
    rcases hp with rfl | rfl | rfl | rfl | rfl | rfl <;> rfl
  · intro p hp r
    have := fun c hc => (Canonical.fixCell_eq ρ values n hv c hc r).symm
    simp only [Canonical.fixedCols, List.mem_cons, List.not_mem_nil, or_false] at hp
    rcases hp with rfl | rfl | rfl | rfl
    · exact this .crIndex (by simp)
    · exact this .crIndexIsZero (by simp)
    · exact this .crIndexIs31 (by simp)
    · exact this .crModulusByte (by simp)

/-! ## C13 -/

/-- **C13, partial.** If (value, index, bit) is found in the key-bit table then index < 256 and bit is
bit `index` of the canonical integer of value. Missing: as in C11; false otherwise
(`c11_c13_false_mod_zero`, `c11_c13_false_trailing`). -/
theorem c13_key_bit_partial (h : Accepted H n U w) (hn : n % 32 ≠ 0) (hT : TrailingOK n w) (value index bit : Fr)
    (hl : InKeyBit w U value index bit) :
    ∃ i : ℕ, i < 256 ∧ index = i ∧ bit = if value.val.testBit i then 1 else 0 := by
  have := (holds_keyBit (w := w) (U := U) (r := 0) "" (.const value) (.const index) (.const bit)).2 hl
  exact keyBitLookup_sound h.fixed hn hT h.canonical h.keyBit this

/-- **C13, partial.** For any number of rows that is not a multiple of 32, bits 0 to 247 are right. -/
theorem c13_key_bit_low_partial (h : Accepted H n U w) (hn : n % 32 ≠ 0) (value bit : Fr) (i : ℕ)
    (hi : i < 248) (hl : InKeyBit w U value i bit) :
    bit = if value.val.testBit i then 1 else 0 := by
  obtain ⟨r', a, b, rfl, d, rfl⟩ := hl
  exact keyBit_row_sound_lt_248 h.fixed hn h.canonical
    (h.keyBit r' ((sel_eq_one_iff h.fixed r').1 b)) i hi d.symm

/-! ## C14 -/

/-- **C14.** For correct requests whose values (and 0) are in the canonical-representation list, the
serial key-bit assignment does not panic, satisfies the gadget's constraints on every enabled row and
exposes every request; a wrong request (index ≥ 256 or wrong bit) panics. -/
theorem c14_key_bit_assign (hf : FixedOK n w) (hb : ByteBit.nRowsRequired ≤ n) (hnU : n ≤ U)
    (reqs : List KeyBit.Req) (values : List Fr) (hv : values.length < n / 32)
    (hca : Canonical.SerialAssigned w values n) (h0 : 0 ∈ values) (hm : ∀ q ∈ reqs, q.1 ∈ values)
    (hn : KeyBit.nRowsRequired reqs.length ≤ n) :
    ((∀ q ∈ reqs, q.2.1 < 256 ∧ q.2.2 = q.1.val.testBit q.2.1) →
      (∃ rows, KeyBit.assignRows reqs = some rows) ∧
      (KeyBit.SerialAssigned w reqs →
        (∀ r, Enabled n r → Cmd.HoldsL w U r KeyBit.configure) ∧
        ∀ q ∈ reqs, InKeyBit w U q.1 q.2.1 (bitFr q.2.2))) ∧
    ((∃ q ∈ reqs, ¬ (q.2.1 < 256 ∧ q.2.2 = q.1.val.testBit q.2.1)) →
      KeyBit.assignRows reqs = none) := by
  refine ⟨fun hc => ⟨⟨_, (KeyBit.assignRows_eq reqs).1 hc⟩, fun ha => ?_⟩,
    (KeyBit.assignRows_eq reqs).2⟩
  obtain ⟨-, ha⟩ := ha.assigned
  refine ⟨fun r hr => KeyBit.holds hf hb hnU 1 reqs hc ha values hv hca.assigned.2.1 h0 hm r, ?_⟩
  intro q hq
  obtain ⟨j, hj, rfl⟩ := List.getElem_of_mem hq
  obtain ⟨r, he, e1, e2, e3⟩ := KeyBit.served 1 (by norm_num) (le_refl _) reqs ha hn j hj (.inl rfl)
  exact ⟨r, enabled_inU he hnU, (sel_eq_one_iff hf r).2 he, e1.symm, e2.symm, e3.symm⟩

/-- **C14, parallel.** The same for `assign_par`, for any number of threads, if the first request is
`(0, 0, false)` (`key_bit_lookups` puts it there). -/
theorem c14_key_bit_assign_par (hf : FixedOK n w) (hb : ByteBit.nRowsRequired ≤ n) (hnU : n ≤ U)
    (reqs : List KeyBit.Req) (values : List Fr) (hv : values.length < n / 32)
    (hca : Canonical.SerialAssigned w values n) (h0 : 0 ∈ values) (hm : ∀ q ∈ reqs, q.1 ∈ values)
    (hn : KeyBit.nRowsRequired reqs.length ≤ n) (threads : ℕ) (ht : 0 < threads)
    (hhead : reqs.head? = some (0, 0, false))
    (hc : ∀ q ∈ reqs, q.2.1 < 256 ∧ q.2.2 = q.1.val.testBit q.2.1) :
    (∃ regions, KeyBit.parRegions reqs threads = some regions) ∧
    (KeyBit.ParAssigned w reqs threads →
      (∀ r, Enabled n r → Cmd.HoldsL w U r KeyBit.configure) ∧
      ∀ q ∈ reqs, InKeyBit w U q.1 q.2.1 (bitFr q.2.2)) := by
  have hne : reqs ≠ [] := by rintro rfl; simp at hhead
  refine ⟨(KeyBit.par_cells reqs threads ht hne hc).imp fun _ h => h.1, fun ha => ?_⟩
  obtain ⟨-, ha⟩ := ha.assigned ht hne
  refine ⟨fun r hr => KeyBit.holds hf hb hnU 0 _ (KeyBit.parReqs_correct reqs threads hc) ha values hv
    hca.assigned.2.1 h0 ?_ r, ?_⟩
  · intro q hq
    simp only [KeyBit.parReqs, List.mem_append, List.mem_cons] at hq
    rcases hq with h | rfl | h
    · exact hm q (List.mem_of_mem_take h)
    · exact h0
    · exact hm q (List.mem_of_mem_drop h)
  · intro q hq
    obtain ⟨r, he, e1, e2, e3⟩ := KeyBit.served_parReqs reqs threads ht ha hn hhead q hq
    exact ⟨r, enabled_inU he hnU, (sel_eq_one_iff hf r).2 he, e1.symm, e2.symm, e3.symm⟩

/-- Correct requests exist: bit 1 of 6 is set, bit 0 is not. -/
example : ∀ q ∈ ([(0, 0, false), (6, 0, false), (6, 1, true)] : List KeyBit.Req),
    q.2.1 < 256 ∧ q.2.2 = q.1.val.testBit q.2.1 := by
  have h6 : (6 : Fr).val = 6 := by
    have : ((6 : ℕ) : Fr) = 6 := by norm_num
    rw [← this, ZMod.val_natCast, Nat.mod_eq_of_lt (lt_trans (by norm_num) frModulus_big)]
  simp [h6]; decide

/-! ## C15 -/

/-- **C15, canonical representation.** For every number of threads the parallel assignment leaves
exactly the same cells as the serial one. -/
theorem c15_canonical (values : List Fr) (threads : ℕ) (ht : 0 < threads) (hn : 32 ≤ n)
    (hv : values.length ≤ n / 32) :
    Canonical.ParAssigned w values n threads ↔ Canonical.SerialAssigned w values n :=
  Canonical.parAssigned_iff values n threads ht hn hv

/-- **C15, key bits.** For every number of threads, the parallel and the serial assignment of the same
requests expose the same set of tuples on enabled rows, if the first request is `(0, 0, false)`. -/
theorem c15_key_bit {ws wp : Witness Fr} (hfs : FixedOK n ws) (hfp : FixedOK n wp) (hnU : n ≤ U)
    (reqs : List KeyBit.Req) (hn : KeyBit.nRowsRequired reqs.length ≤ n) (threads : ℕ)
    (ht : 0 < threads) (hhead : reqs.head? = some (0, 0, false))
    (hs : KeyBit.SerialAssigned ws reqs) (hp : KeyBit.ParAssigned wp reqs threads)
    (value index bit : Fr) : InKeyBit ws U value index bit ↔ InKeyBit wp U value index bit := by
  have hne : reqs ≠ [] := by rintro rfl; simp at hhead
  obtain ⟨hc, hs⟩ := hs.assigned
  obtain ⟨-, hp⟩ := hp.assigned ht hne
  have h0 : (0, 0, false) ∈ reqs := List.mem_of_mem_head? hhead
  have hmemP : ∀ q ∈ KeyBit.parReqs reqs threads, q ∈ reqs := by
    intro q hq
    simp only [KeyBit.parReqs, List.mem_append, List.mem_cons] at hq
    rcases hq with h | rfl | h
    · exact List.mem_of_mem_take h
    · exact h0
    · exact List.mem_of_mem_drop h
  constructor
  · rintro ⟨r, hr, hsel, e1, e2, e3⟩
    obtain ⟨c1, c2, c3, -⟩ := KeyBit.cells_eq 1 reqs r hs
    have hq : KeyBit.reqAt 1 reqs r ∈ reqs := by
      rcases KeyBit.reqAt_mem 1 reqs r with h | h
      · exact h
      · rw [h]; exact h0
    obtain ⟨r', he, d1, d2, d3⟩ := KeyBit.served_parReqs reqs threads ht hp hn hhead _ hq
    exact ⟨r', enabled_inU he hnU, (sel_eq_one_iff hfp r').2 he, by rw [e1, c1, d1]; rfl,
      by rw [e2, c2, d2]; rfl, by rw [e3, c3, d3]; rfl⟩
  · rintro ⟨r, hr, hsel, e1, e2, e3⟩
    obtain ⟨c1, c2, c3, -⟩ := KeyBit.cells_eq 0 _ r hp
    have hq : KeyBit.reqAt 0 (KeyBit.parReqs reqs threads) r ∈ reqs := by
      rcases KeyBit.reqAt_mem 0 (KeyBit.parReqs reqs threads) r with h | h
      · exact hmemP _ h
      · rw [h]; exact h0
    obtain ⟨j, hj, hjq⟩ := List.getElem_of_mem hq
    obtain ⟨r', he, d1, d2, d3⟩ := KeyBit.served 1 (by norm_num) (le_refl _) reqs hs hn j hj (.inl rfl)
    rw [hjq] at d1 d2 d3
    exact ⟨r', enabled_inU he hnU, (sel_eq_one_iff hfs r').2 he, by rw [e1, c1, d1]; rfl,
      by rw [e2, c2, d2]; rfl, by rw [e3, c3, d3]; rfl⟩

/-- The hypothesis on the first request matters: with any other first request, `assign_par` writes it
to the disabled row 0. -/
theorem c15_key_bit_first_request_lost (reqs : List KeyBit.Req) (threads : ℕ) (ht : 0 < threads)
    (q : KeyBit.Req) (hc : ∀ q ∈ reqs, KeyBit.Correct q) (hq : reqs.head? = some q)
    (hp : KeyBit.ParAssigned w reqs threads) :
    w.adv .kbValue 0 = q.1 ∧ w.adv .kbIndex 0 = (q.2.1 : Fr) ∧ w.adv .kbBit 0 = bitFr q.2.2 := by
  have hne : reqs ≠ [] := by rintro rfl; simp at hq
  obtain ⟨-, hp⟩ := hp.assigned ht hne
  obtain ⟨c1, c2, c3, -⟩ := KeyBit.cells_eq 0 _ 0 hp
  have : KeyBit.reqAt 0 (KeyBit.parReqs reqs threads) 0 = q := by
    have hk := chunkSize_pos (List.length_pos_iff.2 hne) ht
    obtain ⟨k, hk'⟩ : ∃ k, chunkSize reqs.length threads = k + 1 :=
      ⟨_ - 1, (Nat.succ_pred_eq_of_pos hk).symm⟩
    cases reqs with
    | nil => exact absurd rfl hne
    | cons a l =>
      simp only [List.head?_cons, Option.some.injEq] at hq
      subst hq
      simp only [KeyBit.reqAt, KeyBit.parReqs, hk']
      simp
  rw [this] at c1 c2 c3
  exact ⟨c1, c2, c3⟩

/-! ## C50 -/

/-- **C50.** The fixed cells written by `assign` are a function of the number of rows: for any two key
lists (that fit) and any challenges, the selector, final-row marker, byte-bit and
canonical-representation columns are the same. -/
theorem c50_fixed_columns (ρ ρ' : Fr) (keys keys' : List Fr) (n : ℕ)
    (f f' : FixCol → ℤ → Fr) (h : assignFixed ρ keys n = some f)
    (h' : assignFixed ρ' keys' n = some f') : f = f' ∧ f = fixedCell n := by
  have key : ∀ (ρ : Fr) (keys : List Fr) (f : FixCol → ℤ → Fr), assignFixed ρ keys n = some f →
      f = fixedCell n := by
    intro ρ keys f h
    by_cases hc : n / 32 = 0 ∨ n / 32 - 1 < keys.length
    · rw [assignFixed, if_pos hc] at h; exact absurd h (by simp)
    · rw [assignFixed_eq ρ keys n (by omega) (by omega)] at h
      exact (Option.some.inj h).symm
  exact ⟨(key _ _ _ h).trans (key _ _ _ h').symm, key _ _ _ h⟩

/-- Both sides of C50 occur. -/
example : assignFixed 5 [1, 2, 3] 2049 = some (fixedCell 2049) ∧
    assignFixed 7 [] 2049 = some (fixedCell 2049) :=
  ⟨assignFixed_eq _ _ _ (by norm_num) (by norm_num), assignFixed_eq _ _ _ (by norm_num) (by norm_num)⟩

end Mpt.Props
