import Verif.Props.NegativeForge

set_option autoImplicit false

/-!
# B2 at the level of the tables: two keys with the same last byte can be confused

If `n_rows` is a multiple of 32, the last byte of the last group of the canonical representation is
written on the disabled row `n_rows` (/repo/src/gadgets/canonical_representation.rs:65-75 and
/repo/src/mpt.rs:201-216), so it need not be a byte. Then the group can present the value `v` with the
31 leading bytes of any other value `b`.
-/

namespace Mpt
open Spec MptUpdate

namespace Assembly
variable (a : Assembly)

/-- The values of the groups: those of `a`, zeros, and `b` in the last group. -/
def fullKeys (b : Fr) : List Fr :=
  a.keys ++ (List.replicate (a.n / 32 - 1 - a.keys.length) 0 ++ [b])

/-- The last byte of a value. -/
def lastByte (b : Fr) : Fr := (((frBytes b).getD 31 0 : ℕ) : Fr)

/-- The witness of `a` with `b` in the last group of the canonical representation. -/
def padded (b : Fr) : Witness Fr where
  adv c r := match c with
    | .crByte | .crValue | .crRlc | .crDifference | .crDiffInv | .crZeroSoFar =>
      Canonical.cell a.ρ (a.fullKeys b) a.n c r
    | c => a.witness.adv c r
  fix := a.witness.fix
  chal := a.witness.chal

/-- The same, but the last group is said to be that of `v`, as are the requests for bits on the rows
from `s` to `e`. -/
def hidden (v b : Fr) (s e : ℤ) : Witness Fr where
  adv c r := match c with
    | .crValue => if (a.n : ℤ) - 31 ≤ r ∧ r ≤ a.n then v else (a.padded b).adv .crValue r
    | .crByte => if r = a.n then v - b + lastByte b else (a.padded b).adv .crByte r
    | .kbValue => if s ≤ r ∧ r < e then v else a.witness.adv .kbValue r
    | c => (a.padded b).adv c r
  fix := a.witness.fix
  chal := a.witness.chal

variable {a} {v b : Fr} {s e : ℤ} {U : ℕ}

theorem hidden_atRow (r : ℤ) : AtRow (a.hidden v b s e) r (rowAt a.rows r) := by
  intro c hc
  have h := a.atRow r c hc
  cases c <;> first
    | exact h
    | exact absurd hc (by simp [isUpdateCol])

theorem fullKeys_length (h : a.keys.length ≤ a.n / 32 - 1) (hn : 1 ≤ a.n / 32) :
    (a.fullKeys b).length = a.n / 32 := by
  simp only [fullKeys, List.length_append, List.length_replicate, List.length_singleton]
  omega

theorem padded_assigned : Canonical.Assigned (a.padded b) (a.fullKeys b) a.n := by
  intro c hc r
  simp only [List.mem_cons, List.not_mem_nil, or_false] at hc
  rcases hc with rfl | rfl | rfl | rfl | rfl | rfl <;> rfl

theorem hidden_canonical (hf : a.TablesFit U) (h32 : a.n % 32 = 0) (r : ℤ) (hr : Enabled a.n r) :
    Cmd.HoldsL (a.hidden v b s e) U r Canonical.configure := by
  have hn := hf.size
  unfold ByteBit.nRowsRequired at hn
  have hlen := fullKeys_length (b := b) hf.keysFit (by omega)
  have hfx : FixedOK a.n (a.padded b) := a.fixedOK
  have hbase := Canonical.holds_full hfx hf.size hf.usable (a.fullKeys b) (le_of_eq hlen) (.inr h32)
    padded_assigned r hr
  have hr1 := hr.1
  have hr2 := hr.2
  set w := a.hidden v b s e with hw
  set w0 := a.padded b with hw0
  have cByte : ∀ x : ℤ, x ≠ a.n → w.adv .crByte x = w0.adv .crByte x := by
    intro x hx; simp [hw, hidden, hx, hw0]
  have cRlc : ∀ x, w.adv .crRlc x = w0.adv .crRlc x := fun _ => rfl
  have cDiff : ∀ x, w.adv .crDifference x = w0.adv .crDifference x := fun _ => rfl
  have cInv : ∀ x, w.adv .crDiffInv x = w0.adv .crDiffInv x := fun _ => rfl
  have cSo : ∀ x, w.adv .crZeroSoFar x = w0.adv .crZeroSoFar x := fun _ => rfl
  have cFix : ∀ c x, w.fix c x = w0.fix c x := fun _ _ => rfl
  have cChal : w.chal = w0.chal := rfl
  have hcur : (Canonical.differenceIsZero.current : Query Fr).eval w r =
      (Canonical.differenceIsZero.current : Query Fr).eval w0 r := rfl
  have hprev : (Canonical.differenceIsZero.previous : Query Fr).eval w r =
      (Canonical.differenceIsZero.previous : Query Fr).eval w0 r := rfl
  unfold Canonical.configure at hbase ⊢
  simp only [Cmd.holdsL_append] at hbase ⊢
  obtain ⟨⟨b1, b2⟩, b3⟩ := hbase
  refine ⟨⟨?_, ?_⟩, ?_⟩
  · rw [binaryColumn_holds] at b1 ⊢; exact b1
  · have b2' := (IsZeroGadget.configure_holds _ w0 U r).1 b2
    exact (IsZeroGadget.configure_holds _ w U r).2 b2'
  simp only [Cmd.holdsL_cons, Cmd.holdsL_nil, and_true, Cmd.holds_cond,
    Cmd.holds_assertEqual, Cmd.holds_assert, FixCol.eval_cur, FixCol.eval_rot, AdvCol.eval_cur,
    AdvCol.eval_prev, Query.eval_mul, Query.eval_sub, Query.eval_add, Query.eval_bnot, hcur, hprev,
    Query.eval_band, Query.eval_challenge, cRlc, cDiff, cSo, cFix, cChal] at b3 ⊢
  rw [cByte r (by omega)]
  obtain ⟨d1, d2, d3, d4, d5, d6⟩ := b3
  have hlk : ∀ (nm : String) (c : AdvCol), w.adv c r = w0.adv c r →
      Cmd.Holds w0 U r (.lookup nm [(c.cur, ByteBit.rangeCheck256)]) →
      Cmd.Holds w U r (.lookup nm [(c.cur, ByteBit.rangeCheck256)]) := by
    intro nm c hc h
    rw [Cmd.holds_lookup] at h ⊢
    obtain ⟨r', h1, h2, h3⟩ := h
    refine ⟨r', h1, h2, ?_⟩
    intro p hp
    have := h3 p hp
    rw [List.mem_singleton] at hp
    subst hp
    rw [AdvCol.eval_cur] at this ⊢
    rw [hc, this]
    rfl
  refine ⟨d1, ?_, ?_, hlk _ _ (cByte r (by omega)) d4, fun h => hlk _ _ (cDiff r) (d5 h), d6⟩
  · intro h
    obtain ⟨e1, e2, e3⟩ := d2 h
    refine ⟨?_, e2, e3⟩
    have hz : 1 ≤ r ∧ r ≤ 32 * (a.n / 32 : ℕ) ∧ (r - 1) % 32 = 0 := by
      by_contra hc
      rw [hfx .crIndexIsZero (by decide)] at h
      simp only [fixedCell] at h
      rw [if_neg hc] at h
      exact h rfl
    -- the sum of the bytes
    have hsum : ∀ w' : Witness Fr, (Canonical.byteSum).eval w' r =
        ((List.range 31).foldl (fun acc (i : ℕ) => acc * 256 + AdvCol.crByte.rot (i : ℤ))
          (0 : Query Fr)).eval w' r * 256 + w'.adv .crByte (r + 31) := by
      intro w'
      show ((List.range (31 + 1)).foldl (fun acc (i : ℕ) => acc * 256 + AdvCol.crByte.rot (i : ℤ))
        (0 : Query Fr)).eval w' r = _
      rw [List.range_succ, List.foldl_append]
      simp only [List.foldl_cons, List.foldl_nil]
      rw [Query.eval_add, Query.eval_mul, AdvCol.eval_rot]
      rfl
    have hpre : ∀ k : ℕ, k ≤ 31 → ((List.range k).foldl (fun acc (i : ℕ) => acc * 256 +
        AdvCol.crByte.rot (i : ℤ)) (0 : Query Fr)).eval w r = ((List.range k).foldl
        (fun acc (i : ℕ) => acc * 256 + AdvCol.crByte.rot (i : ℤ)) (0 : Query Fr)).eval w0 r := by
      intro k
      induction k with
      | zero => intro _; rfl
      | succ k ih =>
        intro hk
        rw [List.range_succ, List.foldl_append]
        simp only [List.foldl_cons, List.foldl_nil]
        rw [Query.eval_add, Query.eval_mul, Query.eval_add, Query.eval_mul, AdvCol.eval_rot,
          AdvCol.eval_rot, ih (by omega), cByte _ (by omega)]
        rfl
    rw [hsum, hpre 31 le_rfl]
    rw [hsum] at e1
    by_cases hl : r + 31 = a.n
    · have v1 : w.adv .crValue r = v := by
        simp only [hw, hidden]; rw [if_pos (by omega)]
      have hrow := Canonical.rows_getElem? a.ρ (a.fullKeys b) a.n (le_of_eq hlen)
      obtain ⟨k, rfl⟩ : ∃ k : ℕ, r = (k : ℤ) + 1 := ⟨(r - 1).toNat, by omega⟩
      have hk32 : k / 32 = a.n / 32 - 1 := by omega
      have hget : (a.fullKeys b).getD (a.n / 32 - 1) 0 = b := by
        have h1 : a.n / 32 - 1 = (a.keys ++ List.replicate (a.n / 32 - 1 - a.keys.length) (0 : Fr)).length := by
          have := hf.keysFit
          simp only [List.length_append, List.length_replicate]; omega
        rw [fullKeys, ← List.append_assoc, h1]
        simp
      have w1 : w0.adv .crValue ((k : ℤ) + 1) = b := by
        show tableCell (Canonical.rows a.ρ (a.fullKeys b) a.n) (·.value) ((k : ℤ) + 1) = b
        rw [tableCell_succ, hrow, if_pos (by omega), hk32, hget]; rfl
      have w2 : w0.adv .crByte ((k : ℤ) + 1 + 31) = lastByte b := by
        show tableCell (Canonical.rows a.ρ (a.fullKeys b) a.n) (·.byte) ((k : ℤ) + 1 + 31) = _
        have : (k : ℤ) + 1 + 31 = ((k + 31 : ℕ) : ℤ) + 1 := by push_cast; ring
        have hq : (k + 31) / 32 = a.n / 32 - 1 := by omega
        have hm : (k + 31) % 32 = 31 := by omega
        rw [this, tableCell_succ, hrow, if_pos (by omega), hq, hget, hm]; rfl
      have v2 : w.adv .crByte ((k : ℤ) + 1 + 31) = v - b + lastByte b := by
        simp only [hw, hidden]; rw [if_pos hl]
      rw [w1, w2] at e1
      rw [v1, v2]
      linear_combination e1
    · have v1 : w.adv .crValue r = w0.adv .crValue r := by
        simp only [hw, hidden]; rw [if_neg (by omega)]
      rw [v1, cByte _ hl]
      exact e1
  · intro h
    obtain ⟨e1, e2, e3⟩ := d3 h
    refine ⟨?_, e2, e3⟩
    have hz : ¬ (1 ≤ r ∧ r ≤ 32 * (a.n / 32 : ℕ) ∧ (r - 1) % 32 = 0) := by
      intro hc
      rw [hfx .crIndexIsZero (by decide)] at h
      simp only [fixedCell] at h
      rw [if_pos hc] at h
      simp at h
    simp only [hw, hidden]
    by_cases hl : (a.n : ℤ) - 31 ≤ r
    · rw [if_pos (by omega), if_pos (by omega)]
    · rw [if_neg (by omega), if_neg (by omega)]
      exact e1

/-- The values of `a` are still served with all their bytes and their RLC. -/
theorem hidden_served (hf : a.TablesFit U) {x : Fr} (hx : x ∈ a.keys) :
    (∀ i : ℕ, i < 32 → ∃ r, Enabled a.n r ∧ (a.hidden v b s e).adv .crValue r = x ∧
      (a.hidden v b s e).fix .crIndex r = (i : Fr) ∧
      (a.hidden v b s e).adv .crByte r = (((frBytes x).getD i 0 : ℕ) : Fr)) ∧
    InFrRlc (a.hidden v b s e) U x (Spec.rlc a.ρ (frBytes x)) := by
  have hn := hf.size
  unfold ByteBit.nRowsRequired at hn
  have hkf := hf.keysFit
  have hlen := fullKeys_length (b := b) hkf (by omega)
  obtain ⟨j, hj, rfl⟩ := List.getElem_of_mem hx
  have hrow := Canonical.rows_getElem? a.ρ (a.fullKeys b) a.n (le_of_eq hlen)
  have hget : ∀ i, i < 32 → (Canonical.rows a.ρ (a.fullKeys b) a.n)[32 * j + i]? =
      some (Canonical.rowSpec a.ρ a.keys[j] i) := by
    intro i hi
    have h1 : (32 * j + i) / 32 = j := by omega
    have h2 : (32 * j + i) % 32 = i := by omega
    rw [hrow, if_pos (by omega), h1, h2, fullKeys, List.getD_append _ _ _ _ hj, getD_eq_getElem' hj]
  have hfx : FixedOK a.n (a.hidden v b s e) := a.fixedOK
  have val : ∀ i, i < 32 → (a.hidden v b s e).adv .crValue (((32 * j + i : ℕ) : ℤ) + 1) = a.keys[j] := by
    intro i hi
    simp only [hidden]
    rw [if_neg (by omega)]
    show tableCell (Canonical.rows a.ρ (a.fullKeys b) a.n) (·.value) _ = _
    rw [tableCell_succ, hget i hi]; rfl
  constructor
  · intro i hi
    refine ⟨((32 * j + i : ℕ) : ℤ) + 1, ⟨by omega, by omega⟩, val i hi, ?_, ?_⟩
    · rw [hfx .crIndex (by decide)]
      simp only [fixedCell]
      have h4 : (((((32 * j + i : ℕ) : ℤ) + 1 - 1) % 32).toNat) = i := by omega
      rw [if_pos (by omega), h4]
    · simp only [hidden]
      rw [if_neg (by omega)]
      show tableCell (Canonical.rows a.ρ (a.fullKeys b) a.n) (·.byte) _ = _
      rw [tableCell_succ, hget i hi]; rfl
  · have he : Enabled a.n (((32 * j + 31 : ℕ) : ℤ) + 1) := ⟨by omega, by omega⟩
    have h31 : (a.hidden v b s e).fix .crIndexIs31 (((32 * j + 31 : ℕ) : ℤ) + 1) = 1 := by
      rw [hfx .crIndexIs31 (by decide)]
      simp only [fixedCell]
      rw [if_pos (by omega)]
    have hrlc : (a.hidden v b s e).adv .crRlc (((32 * j + 31 : ℕ) : ℤ) + 1) =
        Spec.rlc a.ρ (frBytes a.keys[j]) := by
      show tableCell (Canonical.rows a.ρ (a.fullKeys b) a.n) (·.rlc) _ = _
      rw [tableCell_succ, hget 31 (by norm_num)]
      show Spec.rlc a.ρ ((frBytes a.keys[j]).take 32) = _
      rw [List.take_of_length_le (by simp)]
    refine ⟨_, enabled_inU he hf.usable, (sel_eq_one_iff hfx _).2 he, ?_, ?_⟩
    · rw [h31, val 31 (by norm_num), mul_one]
    · rw [h31, hrlc, mul_one]

/-- The last group serves the leading bytes of `b` as those of `v`. -/
theorem hidden_last (hf : a.TablesFit U) (h32 : a.n % 32 = 0) (i : ℕ) (hi : i < 31) :
    ∃ r, Enabled a.n r ∧ (a.hidden v b s e).adv .crValue r = v ∧
      (a.hidden v b s e).fix .crIndex r = (i : Fr) ∧
      (a.hidden v b s e).adv .crByte r = (((frBytes b).getD i 0 : ℕ) : Fr) := by
  have hn := hf.size
  unfold ByteBit.nRowsRequired at hn
  have hkf := hf.keysFit
  have hlen := fullKeys_length (b := b) hkf (by omega)
  have hrow := Canonical.rows_getElem? a.ρ (a.fullKeys b) a.n (le_of_eq hlen)
  have hfx : FixedOK a.n (a.hidden v b s e) := a.fixedOK
  refine ⟨((a.n - 32 + i : ℕ) : ℤ) + 1, ⟨by omega, by omega⟩, ?_, ?_, ?_⟩
  · simp only [hidden]
    rw [if_pos (by omega)]
  · rw [hfx .crIndex (by decide)]
    simp only [fixedCell]
    have h4 : (((((a.n - 32 + i : ℕ) : ℤ) + 1 - 1) % 32).toNat) = i := by omega
    rw [if_pos (by omega), h4]
  · simp only [hidden]
    rw [if_neg (by omega)]
    show tableCell (Canonical.rows a.ρ (a.fullKeys b) a.n) (·.byte) _ = _
    have h1 : (a.n - 32 + i) / 32 = a.n / 32 - 1 := by omega
    have h2 : (a.n - 32 + i) % 32 = i := by omega
    have hget : (a.fullKeys b).getD (a.n / 32 - 1) 0 = b := by
      have h1 : a.n / 32 - 1 = (a.keys ++ List.replicate (a.n / 32 - 1 - a.keys.length) (0 : Fr)).length := by
        simp only [List.length_append, List.length_replicate]; omega
      rw [fullKeys, ← List.append_assoc, h1]
      simp
    rw [tableCell_succ, hrow, if_pos (by omega), h1, h2, hget]; rfl

/-- What the forgery needs: the requests of `a` on the rows from `s` to `e` are for `b`, and `v` has the
same last byte. -/
structure HiddenOK (a : Assembly) (v b : Fr) (s e : ℤ) : Prop where
  serial : a.threads = none
  reqs : ∀ r : ℤ, s ≤ r → r < e → (KeyBit.reqAt 1 a.reqs r).1 = b
  one : 1 ≤ s
  fits : e ≤ a.n
  key : v ∈ a.keys
  byte : v.val % 256 = b.val % 256

theorem hidden_keyBit (hf : a.TablesFit U) (h32 : a.n % 32 = 0) (h : HiddenOK a v b s e) (r : ℤ) :
    Cmd.HoldsL (a.hidden v b s e) U r KeyBit.configure := by
  have hfx : FixedOK a.n (a.hidden v b s e) := a.fixedOK
  have hn := hf.size
  have hU := hf.usable
  have hoff : a.kbOff = 1 := by simp [kbOff, h.serial]
  have hreqs : a.kbReqs = a.reqs := by simp [kbReqs, h.serial]
  have hcell := KeyBit.cells_eq a.kbOff a.kbReqs r a.keyBitAssigned
  rw [hoff, hreqs] at hcell
  obtain ⟨k1, c2, c3, c4, c5, c6⟩ := hcell
  have hq := KeyBit.reqAt_correct 1 a.reqs hf.reqsCorrect r
  have hmem : (KeyBit.reqAt 1 a.reqs r).1 ∈ a.keys := by
    rcases KeyBit.reqAt_mem 1 a.reqs r with h | h
    · exact hf.reqsKeys _ h
    · rw [h]; exact hf.zeroKey
  have hb := h.reqs r
  generalize KeyBit.reqAt 1 a.reqs r = q at *
  obtain ⟨x, i, bit⟩ := q
  simp only [KeyBit.rowSpec] at k1 c2 c3 c4 c5 c6
  obtain ⟨hi, hbit⟩ := hq
  simp only at hi hbit hmem hb
  replace c2 : (a.hidden v b s e).adv .kbIndex r = (i : Fr) := c2
  replace c3 : (a.hidden v b s e).adv .kbBit r = bitFr bit := c3
  replace c4 : (a.hidden v b s e).adv .kbDiv8 r = ((i / 8 : ℕ) : Fr) := c4
  replace c5 : (a.hidden v b s e).adv .kbMod8 r = ((i % 8 : ℕ) : Fr) := c5
  replace c6 : (a.hidden v b s e).adv .kbByte r = ((x.val / 256 ^ (i / 8) % 256 : ℕ) : Fr) := c6
  have hcanon : ∃ r', Enabled a.n r' ∧
      (a.hidden v b s e).adv .crValue r' = (a.hidden v b s e).adv .kbValue r ∧
      (a.hidden v b s e).fix .crIndex r' = ((31 - i / 8 : ℕ) : Fr) ∧
      (a.hidden v b s e).adv .crByte r' = ((x.val / 256 ^ (i / 8) % 256 : ℕ) : Fr) := by
    have hgen : ∀ y : Fr, (((frBytes y).getD (31 - i / 8) 0 : ℕ) : Fr) =
        ((y.val / 256 ^ (i / 8) % 256 : ℕ) : Fr) := by
      intro y
      rw [frBytes_getD _ _ (by omega), show 31 - (31 - i / 8) = i / 8 by omega]
    by_cases hr : s ≤ r ∧ r < e
    · have hv : (a.hidden v b s e).adv .kbValue r = v := by
        simp only [hidden]; rw [if_pos hr]
      have hxb := hb hr.1 hr.2
      rw [hv, hxb]
      by_cases h8 : i / 8 = 0
      · obtain ⟨r', e1, e2, e3, e4⟩ := (hidden_served (v := v) (b := b) (s := s) (e := e) hf h.key).1
          (31 - i / 8) (by omega)
        refine ⟨r', e1, e2, e3, ?_⟩
        rw [e4, hgen, h8, pow_zero, Nat.div_one, Nat.div_one, h.byte]
      · obtain ⟨r', e1, e2, e3, e4⟩ := hidden_last (v := v) (b := b) (s := s) (e := e) hf h32
          (31 - i / 8) (by omega)
        exact ⟨r', e1, e2, e3, by rw [e4, hgen]⟩
    · have hv : (a.hidden v b s e).adv .kbValue r = x := by
        simp only [hidden]; rw [if_neg hr]; exact k1
      rw [hv]
      obtain ⟨r', e1, e2, e3, e4⟩ := (hidden_served (v := v) (b := b) (s := s) (e := e) hf hmem).1
        (31 - i / 8) (by omega)
      exact ⟨r', e1, e2, e3, by rw [e4, hgen]⟩
  simp only [KeyBit.configure, Cmd.holdsL_cons, Cmd.holdsL_nil, and_true]
  refine ⟨range256_complete hfx hn hU i hi (by rw [AdvCol.eval_cur, c2]),
    range256_complete hfx hn hU (i / 8) (by omega) (by rw [AdvCol.eval_cur, c4]),
    range8_complete hfx hn hU (i % 8) (by omega) (by rw [AdvCol.eval_cur, c5]), ?_, ?_, ?_⟩
  · obtain ⟨r', he, e1, e2, e3⟩ := hcanon
    refine (Cmd.holds_lookup ..).2 ⟨r', enabled_inU he hU, (sel_eq_one_iff hfx r').2 he, ?_⟩
    simp only [Canonical.lookup, List.zip_cons_cons, List.zip_nil_right, List.forall_mem_cons,
      AdvCol.eval_cur, FixCol.eval_cur, List.not_mem_nil, false_imp_iff, implies_true, and_true,
      Query.eval_sub, Query.eval_natLit, c4, c6, e1, e2, e3, true_and]
    rw [Nat.cast_sub (by omega)]
  · obtain ⟨r', he, e1, e2, e3⟩ := bb_complete hfx hn (x.val / 256 ^ (i / 8) % 256) (i % 8)
      (Nat.mod_lt _ (by norm_num)) (Nat.mod_lt _ (by norm_num))
    refine (Cmd.holds_lookup ..).2 ⟨r', enabled_inU he hU, (sel_eq_one_iff hfx r').2 he, ?_⟩
    simp only [ByteBit.lookup, List.zip_cons_cons, List.zip_nil_right, List.forall_mem_cons,
      AdvCol.eval_cur, FixCol.eval_cur, List.not_mem_nil, false_imp_iff, implies_true, and_true,
      c3, c5, c6, e1, e2, e3, true_and]
    rw [testBit_byte _ _ _ (Nat.mod_lt _ (by norm_num)), hbit]
    have : i / 8 * 8 + i % 8 = i := by omega
    rw [this]; rfl
  · simp only [Cmd.holds_assertEqual, AdvCol.eval_cur, Query.eval_add, Query.eval_mul,
      Query.eval_natLit, c2, c4, c5]
    have : i = i / 8 * 8 + i % 8 := by omega
    conv_lhs => rw [this]
    push_cast; ring

/-- The byte table is not touched. -/
theorem hidden_byteRep (hf : a.TablesFit U) (r : ℤ) (hr : Enabled a.n r) :
    Cmd.HoldsL (a.hidden v b s e) U r ByteRep.configure := by
  have ha : ByteRep.Assigned (a.hidden v b s e) a.strings := by
    intro c hc r
    have := a.byteAssigned c hc r
    simp only [List.mem_cons, List.not_mem_nil, or_false] at hc
    rcases hc with rfl | rfl | rfl | rfl | rfl <;> exact this
  exact ByteRep.holds (w := a.hidden v b s e) a.fixedOK hf.size hf.usable a.strings
    (fun s hs => (hf.bytes s hs).1) (fun s hs => (hf.bytes s hs).2.2) ha r hr

/-- Requests of `a` are served; those on the rows from `s` to `e` are served for `v` instead of `b`. -/
theorem hidden_bit (h : HiddenOK a v b s e) (hU : a.n ≤ U) (r : ℤ) (h1 : 1 ≤ r) (hn : r < a.n) :
    InKeyBit (a.hidden v b s e) U (if s ≤ r ∧ r < e then v else (KeyBit.reqAt 1 a.reqs r).1)
      (((KeyBit.reqAt 1 a.reqs r).2.1 : ℕ) : Fr) (bitFr (KeyBit.reqAt 1 a.reqs r).2.2) := by
  have hfx : FixedOK a.n (a.hidden v b s e) := a.fixedOK
  have hoff : a.kbOff = 1 := by simp [kbOff, h.serial]
  have hreqs : a.kbReqs = a.reqs := by simp [kbReqs, h.serial]
  have hcell := KeyBit.cells_eq a.kbOff a.kbReqs r a.keyBitAssigned
  rw [hoff, hreqs] at hcell
  obtain ⟨k1, c2, c3, -⟩ := hcell
  have he : Enabled a.n r := ⟨h1, hn⟩
  refine ⟨r, enabled_inU he hU, (sel_eq_one_iff hfx r).2 he, ?_, c2.symm, c3.symm⟩
  simp only [hidden]
  split
  · rfl
  · exact k1.symm

/-- The forged witness is accepted. -/
theorem hidden_accepted (hf : a.TablesFit U) (h32 : a.n % 32 = 0) (h : HiddenOK a v b s e)
    (hU : a.n + 2 ≤ U) (hlen : a.rows.length = a.n - 1)
    (hlast : rowAt a.rows ((a.n : ℤ) - 1) = .padding a.H)
    (hrow : ∀ j : ℕ, j < a.rows.length → RowRel a.H (a.hidden v b s e) U ((j : ℤ) + 1)
      (rowAt a.rows ((j : ℤ) + 1)).seg (rowAt a.rows ((j : ℤ) + 1 + 1)).seg
      (rowAt a.rows ((j : ℤ) + 1 - 1)).path (rowAt a.rows ((j : ℤ) + 1)).path
      (rowAt a.rows ((j : ℤ) + 1 + 1)).path (rowAt a.rows ((j : ℤ) + 1 - 1)).proof
      (rowAt a.rows ((j : ℤ) + 1)).proof) :
    Accepted a.H a.n U (a.hidden v b s e) := by
  have hn := hf.size
  have hn' := hn
  unfold ByteBit.nRowsRequired at hn'
  have hkf := hf.keysFit
  have hfx : FixedOK a.n (a.hidden v b s e) := a.fixedOK
  have hlenK := fullKeys_length (b := b) hkf (by omega)
  refine accepted_of_rows (T := a.types) hfx hf.usable hf.bound hf.posFits.bool hf.posFits.sound
    hf.posFits.zero ((a.n : ℤ) + 1) ⟨by omega, by push_cast at *; omega⟩ (by unfold Enabled; omega)
    ?_ (fun r hr => hidden_byteRep hf r hr) ?_ ?_ ?_ ?_ ?_ ?_ ?_
  · have hbl : ∀ f : ByteRep.Row → Fr, tableCell (ByteRep.assignRows a.ρ a.strings) f ((a.n : ℤ) + 1) = 0 :=
      fun f => tableCell_beyond _ _ _ (by
        rw [ByteRep.assignRows_length]; have := hf.bytesFit; push_cast; omega)
    have hcl : ∀ f : Canonical.Row → Fr,
        tableCell (Canonical.rows a.ρ (a.fullKeys b) a.n) f ((a.n : ℤ) + 1) = 0 := by
      intro f
      rw [tableCell_succ, Canonical.rows_getElem? _ _ _ (by omega), if_neg (by omega)]
      rfl
    have hkb := KeyBit.cells_eq a.kbOff a.kbReqs ((a.n : ℤ) + 1) a.keyBitAssigned
    have e0 : KeyBit.reqAt a.kbOff a.kbReqs ((a.n : ℤ) + 1) = (0, 0, false) := by
      have e1 : a.kbOff = 1 := by simp [kbOff, h.serial]
      have e2 : a.kbReqs = a.reqs := by simp [kbReqs, h.serial]
      have hrf := hf.reqsFit
      unfold KeyBit.reqAt
      rw [e1, e2, if_pos (by omega), List.getElem?_eq_none (by omega)]
      rfl
    rw [e0, KeyBit.rowSpec_zero] at hkb
    obtain ⟨k1, k2, k3, -⟩ := hkb
    have hfits := h.fits
    refine ⟨?_, ?_, ?_, ?_, ?_, ?_, ?_, ?_, ?_, ?_, ?_, k2, k3⟩
    · rw [hfx _ (by decide)]; simp only [fixedCell]; rw [if_neg (by omega)]
    · rw [hfx _ (by decide)]; simp only [fixedCell]; rw [if_neg (by omega)]
    · rw [hfx _ (by decide)]; simp only [fixedCell]; rw [if_neg (by omega)]
    · rw [hfx _ (by decide)]; simp only [fixedCell]; rw [if_neg (by omega)]
    · rw [hfx _ (by decide)]; simp only [fixedCell]; rw [if_neg (by omega)]
    · exact hbl _
    · exact hbl _
    · exact hbl _
    · simp only [hidden]; rw [if_neg (by omega)]; exact hcl _
    · simp only [hidden]; rw [if_neg (by omega)]; exact hcl _
    · simp only [hidden]; rw [if_neg (by omega)]; exact k1
  · intro r hr
    exact hidden_canonical hf h32 r hr
  · intro r _
    exact hidden_keyBit hf h32 h r
  · intro r
    exact ⟨(hidden_atRow r).seg, (hidden_atRow r).path, (hidden_atRow r).proof⟩
  · intro r _ i
    rw [(hidden_atRow r).izInv, (hidden_atRow r).iz]
  · intro r hr
    obtain ⟨j, rfl⟩ : ∃ j : ℕ, r = (j : ℤ) + 1 := ⟨(r - 1).toNat, by have := hr.1; omega⟩
    exact hrow j (by have := hr.2; omega)
  · intro r _ hr
    have hat := hidden_atRow (a := a) (v := v) (b := b) (s := s) (e := e) r
    have : rowAt a.rows r = .blank := by
      unfold rowAt
      split
      · rw [List.getD_eq_default]
        unfold Enabled at hr
        omega
      · rfl
    rw [this] at hat
    exact ⟨hat.seg, hat.path, hat.proof, hat.iz 2⟩
  · intro r _
    exact final_holds_of hfx (hlast ▸ hidden_atRow _) r

end Assembly
end Mpt
