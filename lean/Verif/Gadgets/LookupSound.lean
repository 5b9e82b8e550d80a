import Verif.Gadgets.TableSound

set_option autoImplicit false

/-!
# What the lookups into the canonical-representation and key-bit tables guarantee
-/

namespace Mpt
open Spec

variable {w : Witness Fr} {U n : ℕ}

/-- An enabled row in the area covered by complete groups of 32 rows. -/
theorem canonical_row_sound (hf : FixedOK n w) (hn : n % 32 ≠ 0)
    (h : ∀ r, Enabled n r → Cmd.HoldsL w U r Canonical.configure)
    (r : ℤ) (hr : 1 ≤ r) (hr2 : r ≤ 32 * (n / 32 : ℕ)) :
    w.adv .crByte r = (((frBytes (w.adv .crValue r)).getD ((r - 1) % 32).toNat 0 : ℕ) : Fr) ∧
    w.adv .crRlc r = rlc w.chal ((frBytes (w.adv .crValue r)).take (((r - 1) % 32).toNat + 1)) := by
  obtain ⟨j, i, hi, hj, rfl⟩ : ∃ j i : ℕ, i < 32 ∧ 32 * (j + 1) < n ∧ r = 1 + 32 * j + i :=
    ⟨((r - 1) / 32).toNat, ((r - 1) % 32).toNat, by omega, by omega, by omega⟩
  obtain ⟨l, hl, hlen, hlt, hall⟩ := canonical_group hf h j hj
  obtain ⟨h1, h2, h3⟩ := hall i hi
  have hl' : l = frBytes (w.adv .crValue (1 + 32 * j + i)) :=
    eq_frBytes _ l hl hlen hlt h1.symm
  have he : ((1 + 32 * (j : ℤ) + i - 1) % 32).toNat = i := by omega
  rw [he, ← hl']
  exact ⟨h2, h3⟩

/-- On the rows after the last complete group of the canonical-representation table, all of whose fixed
cells are 0, stands the leading byte of the value. There are no such rows if `n % 32 ≤ 1`. For
/repo/src/gadgets/canonical_representation.rs:54-126. -/
def TrailingOK (n : ℕ) (w : Witness Fr) : Prop :=
  ∀ r : ℤ, 32 * (n / 32 : ℕ) < r → r < n →
    w.adv .crByte r = (((frBytes (w.adv .crValue r)).getD 0 0 : ℕ) : Fr)

theorem TrailingOK.of_mod {n : ℕ} {w : Witness Fr} (hn : n % 32 = 1) : TrailingOK n w := by
  intro r h1 h2
  exact absurd h2 (by omega)

/-- Result of a lookup in the canonical-representation table. -/
theorem canonLookup_sound (hf : FixedOK n w) (hn : n % 32 ≠ 0) (hT : TrailingOK n w)
    (h : ∀ r, Enabled n r → Cmd.HoldsL w U r Canonical.configure)
    {r : ℤ} {nm : String} {qv qi qb : Query Fr}
    (hl : Cmd.Holds w U r (.lookup nm (List.zip [qv, qi, qb] Canonical.lookup))) :
    ∃ i : ℕ, i < 32 ∧ qi.eval w r = i ∧
      qb.eval w r = (((frBytes (qv.eval w r)).getD i 0 : ℕ) : Fr) := by
  obtain ⟨r', _, hs, h3⟩ := (Cmd.holds_lookup ..).1 hl
  have he := (sel_eq_one_iff hf r').1 hs
  simp only [Canonical.lookup, List.zip_cons_cons, List.zip_nil_right, List.forall_mem_cons,
    AdvCol.eval_cur, FixCol.eval_cur, List.not_mem_nil, false_imp_iff, implies_true, and_true] at h3
  obtain ⟨e1, e2, e3⟩ := h3
  by_cases hr2 : r' ≤ 32 * (n / 32 : ℕ)
  · have := canonical_row_sound hf hn h r' he.1 hr2
    refine ⟨((r' - 1) % 32).toNat, by omega, ?_, ?_⟩
    · rw [e2, hf .crIndex (by decide)]
      simp only [fixedCell]
      rw [if_pos ⟨he.1, hr2⟩]
    · rw [e3, e1]; exact this.1
  · refine ⟨0, by norm_num, ?_, ?_⟩
    · rw [e2, hf .crIndex (by decide)]
      simp only [fixedCell]
      rw [if_neg (fun hc => hr2 hc.2)]
      simp
    · rw [e3, e1]; exact hT r' (by omega) he.2

/-- Result of a lookup in the canonical-representation table for any size that is not a multiple of
32, at an index other than 0. -/
theorem canonLookup_sound_ne_zero (hf : FixedOK n w) (hn : n % 32 ≠ 0)
    (h : ∀ r, Enabled n r → Cmd.HoldsL w U r Canonical.configure)
    {r : ℤ} {nm : String} {qv qi qb : Query Fr} (h0 : qi.eval w r ≠ 0)
    (hl : Cmd.Holds w U r (.lookup nm (List.zip [qv, qi, qb] Canonical.lookup))) :
    ∃ i : ℕ, i < 32 ∧ qi.eval w r = i ∧
      qb.eval w r = (((frBytes (qv.eval w r)).getD i 0 : ℕ) : Fr) := by
  obtain ⟨r', _, hs, h3⟩ := (Cmd.holds_lookup ..).1 hl
  have he := (sel_eq_one_iff hf r').1 hs
  simp only [Canonical.lookup, List.zip_cons_cons, List.zip_nil_right, List.forall_mem_cons,
    AdvCol.eval_cur, FixCol.eval_cur, List.not_mem_nil, false_imp_iff, implies_true, and_true] at h3
  obtain ⟨e1, e2, e3⟩ := h3
  have hidx := hf .crIndex (by decide) r'
  simp only [fixedCell] at hidx
  by_cases hr2 : 1 ≤ r' ∧ r' ≤ 32 * (n / 32 : ℕ)
  · rw [if_pos hr2] at hidx
    have := canonical_row_sound hf (by omega) h r' he.1 hr2.2
    refine ⟨((r' - 1) % 32).toNat, by omega, e2.trans hidx, ?_⟩
    rw [e3, e1]; exact this.1
  · rw [if_neg hr2] at hidx
    exact absurd (e2.trans hidx) h0

theorem rlc_zeros {F : Type} [Field F] (ρ : F) (k : ℕ) : rlc ρ (beBytes k 0) = 0 := by
  induction k with
  | zero => rfl
  | succ k ih => simp [beBytes, rlc, ih]

/-- Result of an `FrRlcLookup`. -/
theorem frRlcLookup_sound (hf : FixedOK n w) (hn : n % 32 ≠ 0)
    (h : ∀ r, Enabled n r → Cmd.HoldsL w U r Canonical.configure)
    {r : ℤ} {nm : String} {qv qr : Query Fr}
    (hl : Cmd.Holds w U r (.lookup nm (List.zip [qv, qr] Canonical.frRlcLookup))) :
    qr.eval w r = rlc w.chal (frBytes (qv.eval w r)) := by
  obtain ⟨r', _, hs, h3⟩ := (Cmd.holds_lookup ..).1 hl
  have he := (sel_eq_one_iff hf r').1 hs
  simp only [Canonical.frRlcLookup, List.zip_cons_cons, List.zip_nil_right, List.forall_mem_cons,
    AdvCol.eval_cur, FixCol.eval_cur, List.not_mem_nil, false_imp_iff, implies_true, and_true,
    Query.eval_mul] at h3
  obtain ⟨e1, e2⟩ := h3
  have h31 := hf .crIndexIs31 (by decide) r'
  simp only [fixedCell] at h31
  by_cases hc : 1 ≤ r' ∧ r' ≤ 32 * (n / 32 : ℕ) ∧ (r' - 1) % 32 = 31
  · rw [if_pos hc] at h31
    have := (canonical_row_sound hf hn h r' he.1 hc.2.1).2
    rw [e2, e1, h31, mul_one, mul_one, this, hc.2.2]
    congr 1
  · rw [if_neg hc] at h31
    rw [e2, e1, h31, mul_zero, mul_zero]
    simp only [frBytes, ZMod.val_zero]
    exact (rlc_zeros _ _).symm

theorem testBit_byte (x d m : ℕ) (hm : m < 8) :
    (x / 256 ^ d % 256).testBit m = x.testBit (d * 8 + m) := by
  rw [show (256 : ℕ) = 2 ^ 8 by norm_num, ← pow_mul, Nat.testBit_mod_two_pow,
    Nat.testBit_div_two_pow]
  simp [hm]; congr 1; ring

theorem frBytes_getD (x : Fr) (i : ℕ) (hi : i < 32) :
    (frBytes x).getD i 0 = x.val / 256 ^ (31 - i) % 256 := by
  rw [List.getD_eq_getElem?_getD, frBytes, beBytes_getElem? _ _ _ hi]
  simp

/-- A field element denotes a bit: 0 for `false`, 1 for `true`. -/
def bitFr (b : Bool) : Fr := if b then 1 else 0

/-- Result of a byte-bit lookup. -/
theorem byteBitLookup_sound (hf : FixedOK n w) {r : ℤ} {nm : String} {q1 q2 q3 : Query Fr}
    (h : Cmd.Holds w U r (.lookup nm (List.zip [q1, q2, q3] ByteBit.lookup))) :
    ∃ b i : ℕ, b < 256 ∧ i < 8 ∧ q1.eval w r = b ∧ q2.eval w r = i ∧
      q3.eval w r = bitFr (b.testBit i) := by
  obtain ⟨r', _, hs, h3⟩ := (Cmd.holds_lookup ..).1 h
  simp only [ByteBit.lookup, List.zip_cons_cons, List.zip_nil_right, List.forall_mem_cons,
    FixCol.eval_cur, List.not_mem_nil, false_imp_iff, implies_true, and_true] at h3
  obtain ⟨b, i, hb, hi, e1, e2, e3⟩ := bb_row hf r'
  exact ⟨b, i, hb, hi, h3.1.trans e1, h3.2.1.trans e2, h3.2.2.trans e3⟩

/-- An enabled key-bit row holds the true bit. -/
theorem keyBit_row_sound (hf : FixedOK n w) (hn : n % 32 ≠ 0) (hT : TrailingOK n w)
    (hc : ∀ r, Enabled n r → Cmd.HoldsL w U r Canonical.configure)
    {r : ℤ} (hk : Cmd.HoldsL w U r KeyBit.configure) :
    ∃ i : ℕ, i < 256 ∧ w.adv .kbIndex r = i ∧
      w.adv .kbBit r = bitFr ((w.adv .kbValue r).val.testBit i) := by
  simp only [KeyBit.configure, Cmd.holdsL_cons, Cmd.holdsL_nil, and_true] at hk
  obtain ⟨h1, h2, h3, h4, h5, h6⟩ := hk
  obtain ⟨d, hd, ed⟩ := range256_sound hf h2
  obtain ⟨i, hi, ei, eb⟩ := canonLookup_sound hf hn hT hc h4
  obtain ⟨b, m, hb, hm, eb', em, ebit⟩ := byteBitLookup_sound hf h5
  simp only [AdvCol.eval_cur, Query.eval_sub, Query.eval_natLit, Cmd.holds_assertEqual,
    Query.eval_add, Query.eval_mul] at *
  have hbig := frModulus_big
  -- d = 31 - i
  have hdi : d + i = 31 := by
    rw [ed, sub_eq_iff_eq_add, ← Nat.cast_add] at ei
    have := natCast_inj_of_lt (by omega) (by omega) ei
    omega
  have hbyte : b = (w.adv .kbValue r).val / 256 ^ d % 256 := by
    rw [eb', frBytes_getD _ _ hi, show 31 - i = d by omega] at eb
    exact natCast_inj_of_lt (by omega)
      (lt_trans (Nat.mod_lt _ (by norm_num)) (by omega)) eb
  refine ⟨d * 8 + m, by omega, ?_, ?_⟩
  · rw [h6, ed, em]; push_cast; ring
  · rw [ebit, hbyte, testBit_byte _ _ _ hm]

/-- For any number of rows that is not a multiple of 32, the bits below 248 are right. -/
theorem keyBit_row_sound_lt_248 (hf : FixedOK n w) (hn : n % 32 ≠ 0)
    (hc : ∀ r, Enabled n r → Cmd.HoldsL w U r Canonical.configure)
    {r : ℤ} (hk : Cmd.HoldsL w U r KeyBit.configure) (k : ℕ) (hk248 : k < 248)
    (hik : w.adv .kbIndex r = k) :
      w.adv .kbBit r = bitFr ((w.adv .kbValue r).val.testBit k) := by
  simp only [KeyBit.configure, Cmd.holdsL_cons, Cmd.holdsL_nil, and_true] at hk
  obtain ⟨h1, h2, h3, h4, h5, h6⟩ := hk
  obtain ⟨d, hd, ed⟩ := range256_sound hf h2
  obtain ⟨b, m, hb, hm, eb', em, ebit⟩ := byteBitLookup_sound hf h5
  simp only [AdvCol.eval_cur, Cmd.holds_assertEqual,
    Query.eval_add, Query.eval_mul, Query.eval_natLit] at ed eb' em ebit h6
  have hbig := frModulus_big
  have hkd : k = d * 8 + m := by
    rw [hik, ed, em] at h6
    have h6' : ((k : ℕ) : Fr) = ((d * 8 + m : ℕ) : Fr) := by rw [h6]; push_cast; ring
    exact natCast_inj_of_lt (by omega) (by omega) h6'
  have h0 : (31 - AdvCol.kbDiv8.cur : Query Fr).eval w r ≠ 0 := by
    simp only [Query.eval_sub, AdvCol.eval_cur, Query.eval_natLit, ed, ne_eq, sub_eq_zero]
    intro he
    have := natCast_inj_of_lt (by omega) (by omega) he
    omega
  obtain ⟨i, hi, ei, eb⟩ := canonLookup_sound_ne_zero hf hn hc h0 h4
  simp only [AdvCol.eval_cur, Query.eval_sub, Query.eval_natLit] at ei eb
  have hdi : d + i = 31 := by
    rw [ed, sub_eq_iff_eq_add, ← Nat.cast_add] at ei
    have := natCast_inj_of_lt (by omega) (by omega) ei
    omega
  have hbyte : b = (w.adv .kbValue r).val / 256 ^ d % 256 := by
    rw [eb', frBytes_getD _ _ hi, show 31 - i = d by omega] at eb
    exact natCast_inj_of_lt (by omega)
      (lt_trans (Nat.mod_lt _ (by norm_num)) (by omega)) eb
  rw [ebit, hbyte, testBit_byte _ _ _ hm, hkd]

/-- Result of a lookup in the key-bit table. -/
theorem keyBitLookup_sound (hf : FixedOK n w) (hn : n % 32 ≠ 0) (hT : TrailingOK n w)
    (hc : ∀ r, Enabled n r → Cmd.HoldsL w U r Canonical.configure)
    (hk : ∀ r, Enabled n r → Cmd.HoldsL w U r KeyBit.configure)
    {r : ℤ} {nm : String} {qv qi qb : Query Fr}
    (hl : Cmd.Holds w U r (.lookup nm (List.zip [qv, qi, qb] KeyBit.lookup))) :
    ∃ i : ℕ, i < 256 ∧ qi.eval w r = i ∧ qb.eval w r = bitFr ((qv.eval w r).val.testBit i) := by
  obtain ⟨r', _, hs, h3⟩ := (Cmd.holds_lookup ..).1 hl
  have he := (sel_eq_one_iff hf r').1 hs
  simp only [KeyBit.lookup, List.zip_cons_cons, List.zip_nil_right, List.forall_mem_cons,
    AdvCol.eval_cur, List.not_mem_nil, false_imp_iff, implies_true, and_true] at h3
  obtain ⟨e1, e2, e3⟩ := h3
  obtain ⟨i, hi, h1, h2⟩ := keyBit_row_sound hf hn hT hc (hk r' he)
  exact ⟨i, hi, e2.trans h1, by rw [e3, e1]; exact h2⟩

end Mpt
