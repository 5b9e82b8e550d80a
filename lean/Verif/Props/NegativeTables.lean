import Verif.Props.Tables
import Verif.Assign.Runs

set_option autoImplicit false

/-!
# C09, C11 and C13 are false of the circuit

Witnesses that the whole circuit accepts, for every hash function, and whose lookup tables contain
wrong entries. The updates are all padding; only the cells of the table gadgets are forged.
-/

namespace Mpt.Props
open Mpt Spec MptUpdate

variable {H : HashFn} {n U : ℕ} {w : Witness Fr}

/-- The forged cells. `bv`, `bi`, `bx`: value, index and RLC on row 1 of the byte table; `cv`: value of
the last group of the canonical table; `cb`: byte on the row after the last group; `kv`, `ki`, `kbyte`:
value, index and byte on row 1 of the key-bit table. -/
structure Forge where
  bv : Fr := 0
  bi : Fr := 0
  bx : Fr := 0
  cv : Fr := 0
  cb : ℕ := 0
  kv : Fr := 0
  ki : ℕ := 0
  kbyte : ℕ := 0

/-- The row after the last group of the canonical representation. -/
def trailRow (n : ℕ) : ℤ := 32 * (n / 32 : ℕ) + 1

def Forge.crByte (f : Forge) (n : ℕ) (r : ℤ) : Fr :=
  if r = n then f.cv else if r = trailRow n ∧ r < n then f.cb else 0

def Forge.brIndex (f : Forge) (r : ℤ) : Fr :=
  if r = 0 then f.bi - 1 else if r = 1 then f.bi else
    if 2 ≤ r ∧ r ≤ 17 then ((r - 2).toNat : Fr) else 0

/-- The cells of the table gadgets. -/
def Forge.cell (f : Forge) (ρ : Fr) (n : ℕ) : AdvCol → ℤ → Fr
  | .brValue, r => if r = 0 then f.bv * 256⁻¹ else if r = 1 then f.bv else 0
  | .brIndex, r => f.brIndex r
  | .brRlc, r => if r = 0 then f.bx * ρ⁻¹ else if r = 1 then f.bx else 0
  | .brIndexInv, r => (f.brIndex r)⁻¹
  | .crValue, r => if (n : ℤ) - 31 ≤ r ∧ r ≤ n then f.cv else 0
  | .crByte, r => f.crByte n r
  | .crRlc, r => if trailRow n ≤ r ∧ r < n then f.cb * ρ ^ (r - trailRow n).toNat else 0
  | .crDifference, r => fixedCell n .crModulusByte r - f.crByte n r
  | .crDiffInv, r => (fixedCell n .crModulusByte r - f.crByte n r)⁻¹
  | .crZeroSoFar, r => fixedCell n .crIndexIsZero r
  | .kbValue, r => if r = 1 then f.kv else 0
  | .kbIndex, r => if r = 1 then f.ki else 0
  | .kbBit, r => if r = 1 then (if f.kbyte.testBit (f.ki % 8) then 1 else 0) else 0
  | .kbDiv8, r => if r = 1 then ((f.ki / 8 : ℕ) : Fr) else 0
  | .kbMod8, r => if r = 1 then ((f.ki % 8 : ℕ) : Fr) else 0
  | .kbByte, r => if r = 1 then f.kbyte else 0
  | _, _ => 0

/-- Padding rows everywhere, the forged tables, and a Poseidon table with the padding hash. -/
def Forge.witness (f : Forge) (H : HashFn) (ρ : Fr) (n : ℕ) : Witness Fr where
  adv c r := match c with
    | .brValue | .brIndex | .brByte | .brRlc | .brIndexInv
    | .crValue | .crByte | .crDifference | .crRlc | .crZeroSoFar | .crDiffInv
    | .kbValue | .kbIndex | .kbBit | .kbDiv8 | .kbMod8 | .kbByte => f.cell ρ n c r
    | .posHash | .posLeft | .posRight | .posControl | .posDomain | .posHead =>
      (posTable H [(0, 0, HashDomain.Pair.toFr)]).adv c r
    | c => (if 1 ≤ r ∧ r < n then URow.padding H else .blank).cell c
  fix c r := match c with
    | .posEnable => (posTable H [(0, 0, HashDomain.Pair.toFr)]).fix .posEnable r
    | c => fixedCell n c r
  chal := ρ

/-- What the forgery needs. -/
structure Forge.OK (f : Forge) (ρ : Fr) (n U : ℕ) : Prop where
  size : ByteBit.nRowsRequired ≤ n
  usable : n + 2 ≤ U
  bound : U ≤ 2 ^ 64
  bytes : (ρ ≠ 0 ∧ f.bi ≠ 0) ∨ (f.bv = 0 ∧ f.bx = 0)
  last : f.cv = 0 ∨ n % 32 = 0
  trail : f.cb < 256
  bit : f.ki < 256 ∧ f.kbyte < 256
  key : ∃ r, Enabled n r ∧ f.cell ρ n .crValue r = f.kv ∧
    fixedCell n .crIndex r = ((31 - f.ki / 8 : ℕ) : Fr) ∧ f.crByte n r = f.kbyte

variable {f : Forge} {ρ : Fr}

theorem Forge.fixedOK (f : Forge) : FixedOK n (f.witness H ρ n) := by
  intro c hc r
  cases c <;> first
    | rfl
    | exact absurd rfl hc

theorem Forge.atRow (f : Forge) (r : ℤ) :
    AtRow (f.witness H ρ n) r (if 1 ≤ r ∧ r < n then URow.padding H else .blank) := by
  intro c hc
  cases c <;> first
    | rfl
    | exact absurd hc (by simp [isUpdateCol])

theorem fr256_ne : (256 : Fr) ≠ 0 := by
  have := ByteRep.small_ne_zero (i := 256) (by norm_num) (by norm_num)
  exact_mod_cast this

theorem Forge.byteRep (h : f.OK ρ n U) (r : ℤ) (hr : Enabled n r) :
    Cmd.HoldsL (f.witness H ρ n) U r ByteRep.configure := by
  have hf : FixedOK n (f.witness H ρ n) := f.fixedOK
  have hU : n ≤ U := by have := h.usable; omega
  have hinv : (f.witness H ρ n).adv .brIndexInv r = ((f.witness H ρ n).adv .brIndex r)⁻¹ := rfl
  have hcur : (ByteRep.indexIsZero.current : Query Fr).eval (f.witness H ρ n) r =
      if f.brIndex r = 0 then 1 else 0 :=
    IsZeroGadget.eval_current ByteRep.indexIsZero (f.witness H ρ n) r hinv
  have hfirst : (f.witness H ρ n).fix .brIsFirst r = 0 := by
    rw [hf .brIsFirst (by decide)]; simp only [fixedCell]; rw [if_neg (by have := hr.1; omega)]
  have c1 : ∀ r, (f.witness H ρ n).adv .brByte r = 0 := fun r => rfl
  have c2 : ∀ r, (f.witness H ρ n).adv .brValue r =
    if r = 0 then f.bv * 256⁻¹ else if r = 1 then f.bv else 0 := fun r => rfl
  have c3 : ∀ r, (f.witness H ρ n).adv .brRlc r =
    if r = 0 then f.bx * ρ⁻¹ else if r = 1 then f.bx else 0 := fun r => rfl
  have c4 : ∀ r, (f.witness H ρ n).adv .brIndex r = f.brIndex r := fun r => rfl
  have c5 : (f.witness H ρ n).chal = ρ := rfl
  unfold ByteRep.configure
  rw [Cmd.holdsL_append]
  refine ⟨(IsZeroGadget.configure_holds ..).2 hinv, ?_⟩
  simp only [Cmd.holdsL_cons, Cmd.holdsL_nil, and_true, Cmd.holds_cond, Cmd.holds_assertZero,
    Cmd.holds_assertEqual, FixCol.eval_cur, hfirst, AdvCol.eval_cur, AdvCol.eval_prev,
    Query.eval_mul, Query.eval_sub, Query.eval_add, Query.eval_bnot, hcur, Query.eval_one,
    Query.eval_challenge, Query.eval_natLit]
  simp only [ne_eq, not_true_eq_false, false_imp_iff, true_and]
  have hb := range256_complete hf h.size hU (r := r) (nm := "0 <= byte < 256")
    (q := AdvCol.brByte.cur) 0 (by norm_num) (by rw [AdvCol.eval_cur, c1]; simp)
  rw [c1, c2, c2, c3, c3, c4, c4, c5]
  have hr1 := hr.1
  refine ⟨?_, ?_, ?_, hb⟩
  · by_cases e1 : r = 1
    · subst e1; simp [Forge.brIndex]
    · by_cases e2 : r = 2
      · subst e2; simp [Forge.brIndex]
      · by_cases e3 : r ≤ 17
        · rw [mul_eq_zero]; right
          obtain ⟨k, rfl⟩ : ∃ k : ℕ, r = (k : ℤ) + 3 := ⟨(r - 3).toNat, by omega⟩
          have a1 : ¬ ((k : ℤ) + 3 = 0) := by omega
          have a2 : ¬ ((k : ℤ) + 3 - 1 = 0) := by omega
          have a3 : ¬ ((k : ℤ) + 3 - 1 = 1) := by omega
          have a4 : ((k : ℤ) + 3 - 2).toNat = k + 1 := by omega
          have a5 : ((k : ℤ) + 3 - 1 - 2).toNat = k := by omega
          have a6 : (2 ≤ (k : ℤ) + 3 ∧ (k : ℤ) + 3 ≤ 17) := by omega
          have a7 : (2 ≤ (k : ℤ) + 3 - 1 ∧ (k : ℤ) + 3 - 1 ≤ 17) := by omega
          simp only [Forge.brIndex, a1, a2, a3, a4, a5, e1, if_false, a6, a7, if_true, and_self]
          push_cast; ring
        · rw [mul_eq_zero]; left
          simp only [Forge.brIndex]
          rw [if_neg (by omega), if_neg e1, if_neg (by omega)]
  · by_cases e1 : r = 1
    · subst e1
      rcases h.bytes with ⟨_, hi⟩ | ⟨hv, _⟩
      · simp [Forge.brIndex, hi]
        rw [mul_assoc, inv_mul_cancel₀ fr256_ne, mul_one]
      · simp [hv]
    · by_cases e2 : r = 2
      · subst e2; simp [Forge.brIndex]
      · rw [if_neg (by omega), if_neg e1, if_neg (by omega), if_neg (by omega)]; simp
  · by_cases e1 : r = 1
    · subst e1
      rcases h.bytes with ⟨h0, hi⟩ | ⟨_, hv⟩
      · simp [Forge.brIndex, hi]
        rw [mul_assoc, inv_mul_cancel₀ h0, mul_one]
      · simp [hv]
    · by_cases e2 : r = 2
      · subst e2; simp [Forge.brIndex]
      · rw [if_neg (by omega), if_neg e1, if_neg (by omega), if_neg (by omega)]; simp

theorem Forge.modByte_zero (r : ℤ) (hr : fixedCell n .crIndexIsZero r = 1) :
    fixedCell n .crModulusByte r = 48 := by
  have hr' : 1 ≤ r ∧ r ≤ 32 * (n / 32 : ℕ) ∧ (r - 1) % 32 = 0 := by
    by_contra hc
    simp only [fixedCell] at hr
    rw [if_neg hc] at hr
    exact one_ne_zero hr.symm
  simp only [fixedCell]
  rw [if_pos ⟨hr'.1, hr'.2.1⟩, hr'.2.2]
  simp [modulusBytes]

theorem byteSum_zero (r : ℤ) (k : ℕ) (hb : ∀ i < k, w.adv .crByte (r + i) = 0) :
    ((List.range k).foldl (fun acc (i : ℕ) => acc * 256 + AdvCol.crByte.rot (i : ℤ)) (0 : Query Fr)).eval
      w r = 0 := by
  have := byteSum_eval (w := w) (fun _ => 0) r k (by simpa using hb)
  rw [this]
  have e : beVal ((List.range k).map fun _ => 0) = 0 := by
    induction k with
    | zero => simp [beVal]
    | succ k ih =>
      rw [List.range_succ, List.map_append, List.map_singleton, beVal_concat,
        ih (fun i hi => hb i (by omega)) (byteSum_eval (w := w) (fun _ => 0) r k
          (by intro i hi; simpa using hb i (by omega)))]
  rw [e]; simp

theorem Forge.canonical (h : f.OK ρ n U) (r : ℤ) (hr : Enabled n r) :
    Cmd.HoldsL (f.witness H ρ n) U r Canonical.configure := by
  have hf : FixedOK n (f.witness H ρ n) := f.fixedOK
  have hU : n ≤ U := by have := h.usable; omega
  have hr1 := hr.1
  have hr2 := hr.2
  have hinv : ∀ r, (f.witness H ρ n).adv .crDiffInv r = ((f.witness H ρ n).adv .crDifference r)⁻¹ :=
    fun _ => rfl
  have hcur : (Canonical.differenceIsZero.current : Query Fr).eval (f.witness H ρ n) r =
      if fixedCell n .crModulusByte r - f.crByte n r = 0 then 1 else 0 :=
    IsZeroGadget.eval_current Canonical.differenceIsZero (f.witness H ρ n) r (hinv _)
  have hprev : (Canonical.differenceIsZero.previous : Query Fr).eval (f.witness H ρ n) r =
      if fixedCell n .crModulusByte (r - 1) - f.crByte n (r - 1) = 0 then 1 else 0 :=
    IsZeroGadget.eval_previous Canonical.differenceIsZero (f.witness H ρ n) r (hinv _)
  have c1 : ∀ r, (f.witness H ρ n).adv .crByte r = f.crByte n r := fun _ => rfl
  have c2 : ∀ r, (f.witness H ρ n).adv .crValue r =
    if (n : ℤ) - 31 ≤ r ∧ r ≤ n then f.cv else 0 := fun _ => rfl
  have c3 : ∀ r, (f.witness H ρ n).adv .crRlc r =
    if trailRow n ≤ r ∧ r < n then f.cb * ρ ^ (r - trailRow n).toNat else 0 := fun _ => rfl
  have c4 : ∀ r, (f.witness H ρ n).adv .crDifference r =
    fixedCell n .crModulusByte r - f.crByte n r := fun _ => rfl
  have c6 : ∀ r, (f.witness H ρ n).adv .crZeroSoFar r = fixedCell n .crIndexIsZero r := fun _ => rfl
  have c7 : (f.witness H ρ n).chal = ρ := rfl
  have f0 : ∀ r, (f.witness H ρ n).fix .crIndexIsZero r = fixedCell n .crIndexIsZero r := fun _ => rfl
  have fm : (f.witness H ρ n).fix .crModulusByte r = fixedCell n .crModulusByte r := rfl
  have hz : ∀ r, fixedCell n .crIndexIsZero r = 0 ∨ fixedCell n .crIndexIsZero r = 1 := by
    intro r; simp only [fixedCell]; split <;> simp
  have hbyte : ∃ b : ℕ, b < 256 ∧ f.crByte n r = b := by
    unfold Forge.crByte
    rw [if_neg (by omega)]
    split
    · exact ⟨_, h.trail, rfl⟩
    · exact ⟨0, by norm_num, by simp⟩
  have hb0 : ∀ r, fixedCell n .crIndexIsZero r = 1 → 1 ≤ r → r < n → f.crByte n r = 0 := by
    intro r hz h1 h2
    have hr' : 1 ≤ r ∧ r ≤ 32 * (n / 32 : ℕ) ∧ (r - 1) % 32 = 0 := by
      by_contra hc
      simp only [fixedCell] at hz
      rw [if_neg hc] at hz
      exact one_ne_zero hz.symm
    unfold Forge.crByte trailRow
    rw [if_neg (by omega), if_neg (by omega)]
  unfold Canonical.configure
  simp only [Cmd.holdsL_append]
  refine ⟨⟨?_, (IsZeroGadget.configure_holds ..).2 (hinv _)⟩, ?_⟩
  · rw [binaryColumn_holds, c6]; exact hz r
  simp only [Cmd.holdsL_cons, Cmd.holdsL_nil, and_true, Cmd.holds_cond,
    Cmd.holds_assertEqual, Cmd.holds_assert, FixCol.eval_cur, FixCol.eval_rot, AdvCol.eval_cur,
    AdvCol.eval_prev, Query.eval_mul, Query.eval_sub, Query.eval_add, Query.eval_bnot, hcur, hprev,
    Query.eval_band, Query.eval_challenge, f0, fm, c1, c2, c3, c4, c6, c7]
  refine ⟨trivial, ?_, ?_, ?_, ?_, ?_⟩
  · intro hne
    have h1 := (hz r).resolve_left hne
    have hr' : 1 ≤ r ∧ r ≤ 32 * (n / 32 : ℕ) ∧ (r - 1) % 32 = 0 := by
      by_contra hc
      simp only [fixedCell] at h1
      rw [if_neg hc] at h1
      exact one_ne_zero h1.symm
    refine ⟨?_, h1, ?_⟩
    · have hs : (Canonical.byteSum).eval (f.witness H ρ n) r =
          f.crByte n (r + 31) := by
        show ((List.range (31 + 1)).foldl (fun acc (i : ℕ) => acc * 256 + AdvCol.crByte.rot (i : ℤ))
          (0 : Query Fr)).eval (f.witness H ρ n) r = _
        rw [List.range_succ, List.foldl_append]
        simp only [List.foldl_cons, List.foldl_nil]
        rw [Query.eval_add, Query.eval_mul, byteSum_zero r 31, AdvCol.eval_rot, c1, zero_mul, zero_add]
        · rfl
        · intro i hi
          rw [c1]; unfold Forge.crByte trailRow
          rw [if_neg (by omega), if_neg (by omega)]
      rw [hs]
      unfold Forge.crByte trailRow
      by_cases he : r + 31 = n
      · rw [if_pos he, if_pos (by omega)]
      · have e2 : (if r + 31 = 32 * ((n / 32 : ℕ) : ℤ) + 1 ∧ r + 31 < n then (f.cb : Fr) else 0) = 0 :=
          if_neg (by omega)
        rw [if_neg he, e2]
        rcases h.last with h0 | h0
        · simp [h0]
        · rw [if_neg (by omega)]
    · rw [hb0 r h1 hr1 hr2]
      unfold trailRow
      rw [if_neg (by omega)]
  · intro hne
    have h1 := (hz r).resolve_right (by intro hc; rw [hc] at hne; simp at hne)
    have hr' : ¬ (1 ≤ r ∧ r ≤ 32 * (n / 32 : ℕ) ∧ (r - 1) % 32 = 0) := by
      intro hc
      simp only [fixedCell] at h1
      rw [if_pos hc] at h1
      exact one_ne_zero h1
    have hr3 : r ≠ 1 := by
      rintro rfl
      have := h.size
      unfold ByteBit.nRowsRequired at this
      exact hr' (by omega)
    refine ⟨?_, ?_, ?_⟩
    · rcases h.last with h0 | h0
      · simp [h0]
      · by_cases h2 : (n : ℤ) - 31 ≤ r
        · rw [if_pos (by omega), if_pos (by omega)]
        · rw [if_neg (by omega), if_neg (by omega)]
    · rw [h1]
      rcases hz (r - 1) with hp | hp
      · rw [hp, zero_mul]
      · rw [hp, Forge.modByte_zero _ hp, hb0 _ hp (by omega) (by omega), if_neg, mul_zero]
        have := ByteRep.small_ne_zero (i := 48) (by norm_num) (by norm_num)
        rw [sub_zero]; exact_mod_cast this
    · unfold Forge.crByte trailRow
      rw [if_neg (by omega : ¬ r = n)]
      by_cases h2 : r = 32 * ((n / 32 : ℕ) : ℤ) + 1
      · rw [if_pos (by omega), if_neg (by omega), if_pos (by omega), h2]; simp
      · by_cases h3 : 32 * ((n / 32 : ℕ) : ℤ) + 1 ≤ r
        · rw [if_pos (by omega), if_pos (by omega), if_neg (by omega)]
          have : (r - (32 * ((n / 32 : ℕ) : ℤ) + 1)).toNat =
            (r - 1 - (32 * ((n / 32 : ℕ) : ℤ) + 1)).toNat + 1 := by omega
          rw [this, pow_succ]; ring
        · rw [if_neg (by omega), if_neg (by omega), if_neg (by omega)]; simp
  · obtain ⟨b, hb, e⟩ := hbyte
    exact range256_complete hf h.size hU b hb (by rw [AdvCol.eval_cur, c1, e])
  · intro hne
    have h1 := (hz r).resolve_left (by intro hc; rw [hc] at hne; simp at hne)
    refine range256_complete hf h.size hU 48 (by norm_num) ?_
    rw [AdvCol.eval_cur, c4, Forge.modByte_zero r h1, hb0 r h1 hr1 hr2]; simp
  · intro hne
    have : fixedCell n .crIndexIsZero r = 0 := by
      have h31 := (hz (r + -31)).resolve_left hne
      have hr' : 1 ≤ r + -31 ∧ r + -31 ≤ 32 * (n / 32 : ℕ) ∧ (r + -31 - 1) % 32 = 0 := by
        by_contra hc
        simp only [fixedCell] at h31
        rw [if_neg hc] at h31
        exact one_ne_zero h31.symm
      simp only [fixedCell]
      rw [if_neg (by omega)]
    rw [this]; simp

theorem Forge.zero_byte (h : f.OK ρ n U) : f.cell ρ n .crValue 32 = 0 ∧
    fixedCell n .crIndex 32 = 31 ∧ f.crByte n 32 = 0 := by
  have hs := h.size
  unfold ByteBit.nRowsRequired at hs
  refine ⟨?_, ?_, ?_⟩
  · simp only [Forge.cell]; rw [if_neg (by omega)]
  · simp only [fixedCell]; rw [if_pos (by omega)]; simp
  · unfold Forge.crByte trailRow; rw [if_neg (by omega), if_neg (by omega)]

theorem Forge.keyBit (h : f.OK ρ n U) (r : ℤ) :
    Cmd.HoldsL (f.witness H ρ n) U r KeyBit.configure := by
  have hf : FixedOK n (f.witness H ρ n) := f.fixedOK
  have hU : n ≤ U := by have := h.usable; omega
  have hs := h.size
  unfold ByteBit.nRowsRequired at hs
  obtain ⟨v, i, y, c1, c2, c3, c4, c5, c6, hi, hy, hk⟩ : ∃ (v : Fr) (i y : ℕ),
      (f.witness H ρ n).adv .kbValue r = v ∧ (f.witness H ρ n).adv .kbIndex r = i ∧
      (f.witness H ρ n).adv .kbBit r = (if y.testBit (i % 8) then 1 else 0) ∧
      (f.witness H ρ n).adv .kbDiv8 r = ((i / 8 : ℕ) : Fr) ∧
      (f.witness H ρ n).adv .kbMod8 r = ((i % 8 : ℕ) : Fr) ∧
      (f.witness H ρ n).adv .kbByte r = y ∧ i < 256 ∧ y < 256 ∧
      ∃ r', Enabled n r' ∧ f.cell ρ n .crValue r' = v ∧
        fixedCell n .crIndex r' = ((31 - i / 8 : ℕ) : Fr) ∧ f.crByte n r' = y := by
    by_cases e : r = 1
    · subst e
      exact ⟨f.kv, f.ki, f.kbyte, by simp [Forge.witness, Forge.cell],
        by simp [Forge.witness, Forge.cell], by simp [Forge.witness, Forge.cell],
        by simp [Forge.witness, Forge.cell], by simp [Forge.witness, Forge.cell],
        by simp [Forge.witness, Forge.cell], h.bit.1, h.bit.2, h.key⟩
    · obtain ⟨z1, z2, z3⟩ := Forge.zero_byte h
      exact ⟨0, 0, 0, by simp [Forge.witness, Forge.cell, e],
        by simp [Forge.witness, Forge.cell, e], by simp [Forge.witness, Forge.cell, e],
        by simp [Forge.witness, Forge.cell, e], by simp [Forge.witness, Forge.cell, e],
        by simp [Forge.witness, Forge.cell, e], by norm_num, by norm_num, 32,
        ⟨by norm_num, by omega⟩, z1, by rw [z2]; simp, by rw [z3]; simp⟩
  simp only [KeyBit.configure, Cmd.holdsL_cons, Cmd.holdsL_nil, and_true]
  refine ⟨range256_complete hf h.size hU i hi (by rw [AdvCol.eval_cur, c2]),
    range256_complete hf h.size hU (i / 8) (by omega) (by rw [AdvCol.eval_cur, c4]),
    range8_complete hf h.size hU (i % 8) (by omega) (by rw [AdvCol.eval_cur, c5]), ?_, ?_, ?_⟩
  · obtain ⟨r', he, e1, e2, e3⟩ := hk
    refine (Cmd.holds_lookup ..).2 ⟨r', enabled_inU he hU, (sel_eq_one_iff hf r').2 he, ?_⟩
    have d1 : (f.witness H ρ n).adv .crValue r' = v := e1
    have d2 : (f.witness H ρ n).fix .crIndex r' = ((31 - i / 8 : ℕ) : Fr) := e2
    have d3 : (f.witness H ρ n).adv .crByte r' = y := e3
    simp only [Canonical.lookup, List.zip_cons_cons, List.zip_nil_right, List.forall_mem_cons,
      AdvCol.eval_cur, FixCol.eval_cur, List.not_mem_nil, false_imp_iff, implies_true, and_true,
      Query.eval_sub, Query.eval_natLit, c1, c4, c6, d1, d2, d3, true_and]
    rw [Nat.cast_sub (by omega)]
  · obtain ⟨r', he, e1, e2, e3⟩ := bb_complete hf h.size y (i % 8) hy (Nat.mod_lt _ (by norm_num))
    refine (Cmd.holds_lookup ..).2 ⟨r', enabled_inU he hU, (sel_eq_one_iff hf r').2 he, ?_⟩
    simp only [ByteBit.lookup, List.zip_cons_cons, List.zip_nil_right, List.forall_mem_cons,
      AdvCol.eval_cur, FixCol.eval_cur, List.not_mem_nil, false_imp_iff, implies_true, and_true,
      c3, c5, c6, e1, e2, e3, true_and]
  · simp only [Cmd.holds_assertEqual, AdvCol.eval_cur, Query.eval_add, Query.eval_mul,
      Query.eval_natLit, c2, c4, c5]
    have : i = i / 8 * 8 + i % 8 := by omega
    conv_lhs => rw [this]
    push_cast; ring

/-- The forged witness is accepted by the whole circuit. -/
theorem Forge.accepted (h : f.OK ρ n U) : Accepted H n U (f.witness H ρ n) := by
  have hf : FixedOK n (f.witness H ρ n) := f.fixedOK
  have hs := h.size
  unfold ByteBit.nRowsRequired at hs
  have hU := h.usable
  have hpos := posTable_fits H [(0, 0, HashDomain.Pair.toFr)] U (by simp; omega)
  have hsel : ∀ r, Enabled n r → InU U r ∧ (f.witness H ρ n).fix .selector r = 1 := fun r hr =>
    ⟨enabled_inU hr (by omega), (sel_eq_one_iff hf r).2 hr⟩
  have hpad : RunSat H (f.witness H ρ n) U [.padding H] := by
    refine padding_sat (hpos.has (0, 0, HashDomain.Pair.toFr) (by simp)) ?_ ?_ ?_
    · refine ⟨17, (hsel 17 ⟨by norm_num, by omega⟩).1, (hsel 17 ⟨by norm_num, by omega⟩).2, ?_, ?_⟩
      · simp [Forge.witness, Forge.cell]
      · simp [Forge.witness, Forge.cell, Forge.brIndex]
    · refine ⟨5, (hsel 5 ⟨by norm_num, by omega⟩).1, (hsel 5 ⟨by norm_num, by omega⟩).2, ?_, ?_⟩
      · simp [Forge.witness, Forge.cell]
      · simp [Forge.witness, Forge.cell, Forge.brIndex]
    · have e : (f.witness H ρ n).fix .crIndexIs31 1 = 0 := by
        rw [hf _ (by decide)]; simp [fixedCell]
      refine ⟨1, (hsel 1 ⟨by norm_num, by omega⟩).1, (hsel 1 ⟨by norm_num, by omega⟩).2, ?_, ?_⟩ <;>
        rw [e, mul_zero]
  set T : ℤ → RowTypes := fun r =>
    let u := if 1 ≤ r ∧ r < n then URow.padding H else .blank
    ⟨u.seg, u.path, u.proof⟩ with hT
  have hTs : ∀ r, (T r).seg = .Start := by intro r; simp only [hT]; split <;> rfl
  have hTp : ∀ r, (T r).path = .Start := by intro r; simp only [hT]; split <;> rfl
  refine accepted_of_rows hf (by omega) h.bound hpos.bool hpos.sound hpos.zero ((n : ℤ) + 1)
    ⟨by omega, by push_cast; omega⟩ (by unfold Enabled; omega) ?_ (f.byteRep h) (f.canonical h)
    (fun r _ => f.keyBit h r) T ?_ ?_ ?_ ?_ ?_
  · refine ⟨?_, ?_, ?_, ?_, ?_, ?_, ?_, ?_, ?_, ?_, ?_, ?_, ?_⟩
    · rw [hf _ (by decide)]; simp only [fixedCell]; rw [if_neg (by omega)]
    · rw [hf _ (by decide)]; simp only [fixedCell]; rw [if_neg (by omega)]
    · rw [hf _ (by decide)]; simp only [fixedCell]; rw [if_neg (by omega)]
    · rw [hf _ (by decide)]; simp only [fixedCell]; rw [if_neg (by omega)]
    · rw [hf _ (by decide)]; simp only [fixedCell]; rw [if_neg (by omega)]
    all_goals
      simp only [Forge.witness, Forge.cell, Forge.brIndex, Forge.crByte]
      repeat rw [if_neg (by omega)]
  · intro r
    exact ⟨(f.atRow r).seg, (f.atRow r).path, (f.atRow r).proof⟩
  · intro r _ i
    rw [(f.atRow r).izInv, (f.atRow r).iz]
  · intro r hr
    have ha := f.atRow (H := H) (ρ := ρ) (n := n) r
    rw [if_pos (show 1 ≤ r ∧ r < (n : ℤ) from hr)] at ha
    have := (hpad.ok r _ (f.atRow (r - 1)) ⟨ha, trivial⟩).1
    rw [hTs (r + 1), hTp (r + 1)]
    simp only [hT]
    rw [if_pos (show 1 ≤ r ∧ r < (n : ℤ) from hr)]
    exact this
  · intro r _ hr
    have ha := f.atRow (H := H) (ρ := ρ) (n := n) r
    rw [if_neg (show ¬ (1 ≤ r ∧ r < (n : ℤ)) from hr)] at ha
    exact ⟨ha.seg, ha.path, ha.proof, ha.iz 2⟩
  · intro r hr
    simp only [finalRow, Cmd.holdsL_cons, Cmd.holdsL_nil, and_true, Cmd.holds_cond]
    intro _
    have hat := f.atRow (H := H) (ρ := ρ) (n := n) r
    rw [if_pos (show 1 ≤ r ∧ r < (n : ℤ) from hr)] at hat
    have e1 : (seg [.Start]).eval (f.witness H ρ n) r = 1 := by
      have : (seg [.Start]).eval (f.witness H ρ n) r =
          if SegmentType.Start ∈ [SegmentType.Start] then (1 : Fr) else 0 :=
        OneHot.eval_matches _ _ _ _ _ _ (by decide) (by simpa [URow.padding] using hat.seg)
      simpa using this
    have e2 : (proofType.index 0 : Query Fr).eval (f.witness H ρ n) r = _ :=
      OneHot.eval_index _ _ _ _ MPTProofType.AccountDoesNotExist
        (by simpa [URow.padding] using hat.proof)
    have e3 : ((EnumIter.iter : List MPTProofType).idxOf MPTProofType.AccountDoesNotExist) = 5 := by
      decide
    simp [paddingRow, MptUpdate.lookup, hat.oldValue, hat.newValue, hat.storageKeyRlc,
      hat.iv, hat.sp, e1, e2, e3, URow.padding, MPTProofType.toNat]

theorem Forge.zeroKey (hn : 2049 ≤ n) (f : Forge) (h0 : f.kv = 0) (h1 : f.ki = 0) (h2 : f.kbyte = 0) :
    ∃ r, Enabled n r ∧ f.cell ρ n .crValue r = f.kv ∧
    fixedCell n .crIndex r = ((31 - f.ki / 8 : ℕ) : Fr) ∧ f.crByte n r = f.kbyte := by
  refine ⟨32, ⟨by norm_num, by omega⟩, ?_, ?_, ?_⟩
  · simp only [Forge.cell]; rw [if_neg (by omega), h0]
  · simp only [fixedCell]; rw [if_pos (by omega), h1]; simp
  · unfold Forge.crByte trailRow; rw [if_neg (by omega), if_neg (by omega), h2]; simp

/-- **C09 is false.** For every hash function, every non-zero challenge and every size of circuit that
leaves two rows free, *any* value, with *any* non-zero index and *any* RLC, can be put into the
byte-representation table of an accepted witness: the first row is not forced to start a byte string.
All range checks (nonces, code sizes, balances, word halves, address parts) can thus be bypassed. -/
theorem c09_false (H : HashFn) (ρ : Fr) (hρ : ρ ≠ 0) (n U : ℕ) (hn : 2049 ≤ n) (hU : n + 2 ≤ U)
    (hU' : U ≤ 2 ^ 64) (value index rlc : Fr) (hi : index ≠ 0) :
    ∃ w, w.chal = ρ ∧ Accepted H n U w ∧ InRlc w U value index rlc ∧ InBytes w U value index := by
  let f : Forge := { bv := value, bi := index, bx := rlc }
  have h : f.OK ρ n U := ⟨hn, hU, hU', .inl ⟨hρ, hi⟩, .inl rfl, by norm_num [f], by norm_num [f],
    f.zeroKey hn rfl rfl rfl⟩
  have hs : InU U 1 ∧ (f.witness H ρ n).fix .selector 1 = 1 :=
    ⟨⟨by norm_num, by omega⟩, (sel_eq_one_iff f.fixedOK 1).2 ⟨by norm_num, by omega⟩⟩
  exact ⟨f.witness H ρ n, rfl, Forge.accepted h, ⟨1, hs.1, hs.2, rfl, rfl, rfl⟩,
    ⟨1, hs.1, hs.2, rfl, rfl⟩⟩

/-- **C11 and C13 are false when `n_rows` is a multiple of 32.** For every hash function, challenge and
*every* field element there is an accepted witness that presents it as having 31 leading zero bytes:
the canonical table claims that bytes 0 to 30 of `value` are all 0, and for any bit position from 8 to
255 there is one whose key-bit table claims that this bit of `value` is 0. (The row with index 31 of
the last group is outside the enabled area.) -/
theorem c11_c13_false_mod_zero (H : HashFn) (ρ : Fr) (n U : ℕ) (hn : 2049 ≤ n) (h32 : n % 32 = 0)
    (hU : n + 2 ≤ U) (hU' : U ≤ 2 ^ 64) (value : Fr) (i : ℕ) (hi : 8 ≤ i) (hi' : i < 256) :
    ∃ w, w.chal = ρ ∧ Accepted H n U w ∧ (∀ k : ℕ, k < 31 → InCanonical w U value k 0) ∧
      InKeyBit w U value i 0 := by
  let f : Forge := { cv := value, kv := value, ki := i }
  have hb : ∀ k : ℕ, k < 31 → f.crByte n ((n : ℤ) - 31 + k) = 0 := by
    intro k hk
    unfold Forge.crByte trailRow; rw [if_neg (by omega), if_neg (by omega)]
  have hv : ∀ k : ℕ, k < 31 → f.cell ρ n .crValue ((n : ℤ) - 31 + k) = value := by
    intro k hk
    simp only [Forge.cell]; rw [if_pos (by omega)]
  have hx : ∀ k : ℕ, k < 31 → fixedCell n .crIndex ((n : ℤ) - 31 + k) = k := by
    intro k hk
    simp only [fixedCell]; rw [if_pos (by omega)]
    congr 1; omega
  have h : f.OK ρ n U := by
    refine ⟨hn, hU, hU', .inr ⟨rfl, rfl⟩, .inr h32, by norm_num [f], ⟨hi', by norm_num [f]⟩,
      (n : ℤ) - 31 + (31 - i / 8 : ℕ), ⟨by omega, by omega⟩, hv _ (by omega), hx _ (by omega), ?_⟩
    rw [hb _ (by omega)]; simp [f]
  have hs : ∀ r, Enabled n r → InU U r ∧ (f.witness H ρ n).fix .selector r = 1 := fun r hr =>
    ⟨enabled_inU hr (by omega), (sel_eq_one_iff f.fixedOK r).2 hr⟩
  refine ⟨f.witness H ρ n, rfl, Forge.accepted h, fun k hk => ?_, ?_⟩
  · obtain ⟨s1, s2⟩ := hs ((n : ℤ) - 31 + k) ⟨by omega, by omega⟩
    exact ⟨_, s1, s2, (hv k hk).symm, (hx k hk).symm, (hb k hk).symm⟩
  · obtain ⟨s1, s2⟩ := hs 1 ⟨by omega, by omega⟩
    refine ⟨1, s1, s2, rfl, rfl, ?_⟩
    simp [Forge.witness, Forge.cell, f]

/-- The witness of `c11_c13_false_trailing`. Its other edges are in order and it has no paths, so that `EdgesOK`
holds all the same. -/
theorem trailing_witness (H : HashFn) (ρ : Fr) (n U : ℕ) (hn : 2049 ≤ n) (h32 : 2 ≤ n % 32)
    (hU : n + 2 ≤ U) (hU' : U ≤ 2 ^ 64) (byte i : ℕ) (hb : byte < 256) (hi : 248 ≤ i) (hi' : i < 256) :
    ∃ w, w.chal = ρ ∧ Accepted H n U w ∧ InCanonical w U 0 0 byte ∧
      InKeyBit w U 0 i (if byte.testBit (i - 248) then 1 else 0) ∧ EdgesOK n w := by
  let f : Forge := { cb := byte, ki := i, kbyte := byte }
  have ht : Enabled n (trailRow n) := by unfold trailRow Enabled; omega
  have e1 : f.cell ρ n .crValue (trailRow n) = 0 := by
    simp only [Forge.cell]; split <;> rfl
  have e2 : fixedCell n .crIndex (trailRow n) = 0 := by
    simp only [fixedCell, trailRow]
    exact if_neg (by omega)
  have e3 : f.crByte n (trailRow n) = byte := by
    unfold Forge.crByte
    rw [if_neg (by have := ht.2; omega), if_pos ⟨rfl, ht.2⟩]
  have h : f.OK ρ n U := by
    refine ⟨hn, hU, hU', .inr ⟨rfl, rfl⟩, .inl rfl, hb, ⟨hi', hb⟩, _, ht, e1, ?_, e3⟩
    rw [e2, show f.ki = i from rfl, show 31 - i / 8 = 0 by omega]; simp
  have hs : ∀ r, Enabled n r → InU U r ∧ (f.witness H ρ n).fix .selector r = 1 := fun r hr =>
    ⟨enabled_inU hr (by omega), (sel_eq_one_iff f.fixedOK r).2 hr⟩
  refine ⟨f.witness H ρ n, rfl, Forge.accepted h, ?_, ?_, ⟨by omega, rfl, .inr fun r hr => ?_⟩⟩
  · obtain ⟨s1, s2⟩ := hs _ ht
    exact ⟨_, s1, s2, e1.symm, e2.symm, e3.symm⟩
  · obtain ⟨s1, s2⟩ := hs 1 ⟨by omega, by omega⟩
    refine ⟨1, s1, s2, rfl, rfl, ?_⟩
    show _ = if byte.testBit (i % 8) then (1 : Fr) else 0
    rw [show i - 248 = i % 8 by omega]
  · have e : (f.witness H ρ n).adv .depth r = 0 := by
      show (if 1 ≤ r ∧ r < n then URow.padding H else .blank).cell .depth = 0
      split <;> rfl
    rw [e, ZMod.val_zero]; omega

/-- **C11 and C13 are false when `n_rows % 32 ≥ 2`.** For every hash function and challenge there are
accepted witnesses that claim *any* byte to be the leading byte of 0, and any of bits 248 to 255 of 0
to be 1: the rows after the last group keep its value and are not part of a group. -/
theorem c11_c13_false_trailing (H : HashFn) (ρ : Fr) (n U : ℕ) (hn : 2049 ≤ n) (h32 : 2 ≤ n % 32)
    (hU : n + 2 ≤ U) (hU' : U ≤ 2 ^ 64) (byte i : ℕ) (hb : byte < 256) (hi : 248 ≤ i) (hi' : i < 256) :
    ∃ w, w.chal = ρ ∧ Accepted H n U w ∧ InCanonical w U 0 0 byte ∧
      InKeyBit w U 0 i (if byte.testBit (i - 248) then 1 else 0) := by
  obtain ⟨w, h1, h2, h3, h4, -⟩ := trailing_witness H ρ n U hn h32 hU hU' byte i hb hi hi'
  exact ⟨w, h1, h2, h3, h4⟩

/-- A case of `EdgesOK` that is not an honest one: the rows after the last group are forged and the key-bit
table has a wrong entry, but no path is long enough to use it. -/
theorem edges_forged (H : HashFn) (ρ : Fr) (n U : ℕ) (hn : 2049 ≤ n) (h32 : 2 ≤ n % 32)
    (hU : n + 2 ≤ U) (hU' : U ≤ 2 ^ 64) :
    ∃ w, w.chal = ρ ∧ Accepted H n U w ∧ EdgesOK n w ∧ ¬ TrailingOK n w ∧ InKeyBit w U 0 (255 : ℕ) 1 := by
  obtain ⟨w, h1, h2, -, h4, h5⟩ := trailing_witness H ρ n U hn h32 hU hU' 128 255 (by norm_num) (by norm_num)
    (by norm_num)
  rw [if_pos (by decide)] at h4
  refine ⟨w, h1, h2, h5, fun hT => ?_, h4⟩
  have := (holds_keyBit (w := w) (U := U) (r := 0) "" (.const 0) (.const ((255 : ℕ) : Fr)) (.const 1)).2 h4
  obtain ⟨i, -, -, e⟩ := keyBitLookup_sound h2.fixed h5.size hT h2.canonical h2.keyBit this
  simp [bitFr] at e

/-- The circuit sizes that the three counterexamples need exist, for every residue. -/
example : (2049 : ℕ) ≤ 2080 ∧ 2080 % 32 = 0 ∧ 2 ≤ 2090 % 32 := by norm_num

end Mpt.Props
