import Verif.Spec.HaloTable
import Verif.Completion

set_option autoImplicit false

/-!
# Cyclic tables

Proof support for `Verif.Props.HaloTable`: which cells the expressions of the circuit read.
-/

namespace Mpt
open MptUpdate

/-! ## Reads -/

section reads
variable {F : Type}

/-- All advice rotations satisfy `a` and all fixed queries satisfy `f`.
For /repo/src/constraint_builder/query.rs:33-43. -/
def Query.reads (a : ℤ → Bool) (f : FixCol → ℤ → Bool) : Query F → Bool
  | .const _ => true
  | .advice _ rot => a rot
  | .fixed c rot => f c rot
  | .challenge => true
  | .neg q => q.reads a f
  | .add p q => p.reads a f && q.reads a f
  | .mul p q => p.reads a f && q.reads a f

/-- The current row only. /repo/src/constraint_builder/column.rs:77-79. -/
def here (rot : ℤ) : Bool := rot == 0
/-- The current row only, fixed columns. /repo/src/constraint_builder/column.rs:14-20. -/
def fixHere (_ : FixCol) (rot : ℤ) : Bool := rot == 0

namespace Cmd
mutual
/-- All expressions of a call satisfy `Query.reads a f`; the table sides only read their row.
For /repo/src/constraint_builder.rs:43-130. -/
def reads (a : ℤ → Bool) (f : FixCol → ℤ → Bool) : Cmd F → Bool
  | .assertZero _ q => q.reads a f
  | .lookup _ ps => ps.all (fun p => p.1.reads a f && p.2.reads here fixHere)
  | .poseidon _ l r d h => l.reads a f && r.reads a f && d.reads a f && h.reads a f
  | .cond c body => c.reads a f && readsL a f body
/-- `reads` for call sequences, /repo/src/constraint_builder.rs:43-130. -/
def readsL (a : ℤ → Bool) (f : FixCol → ℤ → Bool) : List (Cmd F) → Bool
  | [] => true
  | c :: cs => reads a f c && readsL a f cs
end

theorem readsL_iff (a : ℤ → Bool) (f : FixCol → ℤ → Bool) (cs : List (Cmd F)) :
    readsL a f cs = true ↔ ∀ c ∈ cs, reads a f c = true := by
  induction cs with
  | nil => simp [readsL]
  | cons c cs ih => simp [readsL, ih]
end Cmd

variable [Field F]

theorem Query.eval_congr {a : ℤ → Bool} {f : FixCol → ℤ → Bool} {w w' : Witness F} {r : ℤ}
    (ha : ∀ c rot, a rot = true → w'.adv c (r + rot) = w.adv c (r + rot))
    (hf : ∀ c rot, f c rot = true → w'.fix c (r + rot) = w.fix c (r + rot)) (hc : w'.chal = w.chal)
    (q : Query F) (h : q.reads a f = true) : q.eval w' r = q.eval w r := by
  induction q with
  | const c => rfl
  | advice c rot => exact ha c rot h
  | fixed c rot => exact hf c rot h
  | challenge => exact hc
  | neg q ih => simp only [Query.eval, ih h]
  | add p q ihp ihq =>
    simp only [Query.reads, Bool.and_eq_true] at h
    simp only [Query.eval, ihp h.1, ihq h.2]
  | mul p q ihp ihq =>
    simp only [Query.reads, Bool.and_eq_true] at h
    simp only [Query.eval, ihp h.1, ihq h.2]

/-- The witnesses agree on the usable rows. Cells of /repo/src/constraint_builder/column.rs:1-140. -/
structure Agree (w w' : Witness F) (U : ℕ) : Prop where
  adv : ∀ c r, InU U r → w'.adv c r = w.adv c r
  fix : ∀ c r, InU U r → w'.fix c r = w.fix c r
  chal : w'.chal = w.chal

omit [Field F] in
theorem Agree.symm {w w' : Witness F} {U : ℕ} (h : Agree w w' U) : Agree w' w U :=
  ⟨fun c r hr => (h.adv c r hr).symm, fun c r hr => (h.fix c r hr).symm, h.chal.symm⟩

theorem Query.eval_here {w w' : Witness F} {U : ℕ} (h : Agree w w' U) {r : ℤ} (hr : InU U r) (q : Query F)
    (hq : q.reads here fixHere = true) : q.eval w' r = q.eval w r := by
  refine Query.eval_congr (fun c rot e => ?_) (fun c rot e => ?_) h.chal q hq
  · have e' : rot = 0 := by simpa [here] using e
    subst e'
    rw [add_zero]
    exact h.adv c r hr
  · have e' : rot = 0 := by simpa [fixHere] using e
    subst e'
    rw [add_zero]
    exact h.fix c r hr

namespace Cmd

theorem poseidonRow_congr {w w' : Witness F} {U : ℕ} (h : Agree w w' U) {acc l rr d hh : F}
    (hp : PoseidonRow w U acc l rr d hh) : PoseidonRow w' U acc l rr d hh := by
  obtain ⟨r', hr', h1, h2, h3, h4, h5, h6, h7⟩ := hp
  refine ⟨r', hr', ?_⟩
  rw [h.fix _ r' hr', h.adv _ r' hr', h.adv _ r' hr', h.adv _ r' hr', h.adv _ r' hr', h.adv _ r' hr',
    h.adv _ r' hr']
  exact ⟨h1, h2, h3, h4, h5, h6, h7⟩

mutual
/-- A call says the same about two witnesses that agree on the usable rows and on the cells it reads. -/
theorem lholds_congr {a : ℤ → Bool} {f : FixCol → ℤ → Bool} {w w' : Witness F} {U : ℕ} {r : ℤ}
    (hg : Agree w w' U) (ha : ∀ c rot, a rot = true → w'.adv c (r + rot) = w.adv c (r + rot))
    (hf : ∀ c rot, f c rot = true → w'.fix c (r + rot) = w.fix c (r + rot)) (s acc : F) (c : Cmd F)
    (hc : reads a f c = true) (h : LHolds w U r s acc c) : LHolds w' U r s acc c := by
  match c with
  | .assertZero n q =>
    simp only [LHolds] at h ⊢
    rwa [Query.eval_congr ha hf hg.chal q hc]
  | .lookup n ps =>
    simp only [LHolds] at h ⊢
    obtain ⟨r', hr', h1, h2⟩ := h
    simp only [reads, List.all_eq_true, Bool.and_eq_true] at hc
    refine ⟨r', hr', fun p hp => ?_, ?_⟩
    · rw [Query.eval_congr ha hf hg.chal p.1 (hc p hp).1, Query.eval_here hg hr' p.2 (hc p hp).2]
      exact h1 p hp
    · rw [hg.fix _ r' hr', h2]
  | .poseidon n l rr d hh =>
    simp only [LHolds] at h ⊢
    simp only [reads, Bool.and_eq_true] at hc
    rw [Query.eval_congr ha hf hg.chal l hc.1.1.1, Query.eval_congr ha hf hg.chal rr hc.1.1.2,
      Query.eval_congr ha hf hg.chal d hc.1.2, Query.eval_congr ha hf hg.chal hh hc.2]
    exact poseidonRow_congr hg h
  | .cond c body =>
    simp only [LHolds] at h ⊢
    simp only [reads, Bool.and_eq_true] at hc
    rw [Query.eval_congr ha hf hg.chal c hc.1]
    exact lholdsL_congr hg ha hf s _ body hc.2 h
theorem lholdsL_congr {a : ℤ → Bool} {f : FixCol → ℤ → Bool} {w w' : Witness F} {U : ℕ} {r : ℤ}
    (hg : Agree w w' U) (ha : ∀ c rot, a rot = true → w'.adv c (r + rot) = w.adv c (r + rot))
    (hf : ∀ c rot, f c rot = true → w'.fix c (r + rot) = w.fix c (r + rot)) (s acc : F) (cs : List (Cmd F))
    (hc : readsL a f cs = true) (h : LHoldsL w U r s acc cs) : LHoldsL w' U r s acc cs := by
  match cs with
  | [] => simp [LHoldsL]
  | c :: cs =>
    simp only [LHoldsL] at h ⊢
    simp only [readsL, Bool.and_eq_true] at hc
    exact ⟨lholds_congr hg ha hf s acc c hc.1 h.1, lholdsL_congr hg ha hf s acc cs hc.2 h.2⟩
end

theorem lholdsL_iff (w : Witness F) (U : ℕ) (r : ℤ) (s acc : F) (cs : List (Cmd F)) :
    LHoldsL w U r s acc cs ↔ ∀ c ∈ cs, LHolds w U r s acc c := by
  induction cs with
  | nil => simp [LHoldsL]
  | cons c cs ih => simp [LHoldsL, ih]

end Cmd
end reads

/-! ## What the circuit reads -/

/-- The rotations of the fixed columns: only the canonical representation looks back,
/repo/src/gadgets/canonical_representation.rs:112. -/
def fixRot (c : FixCol) (rot : ℤ) : Bool := rot == 0 || (c == .crIndexIsZero && rot == -31)
/-- Advice rotations of everything but the canonical representation.
/repo/src/constraint_builder/column.rs:73-90. -/
def nearRot (rot : ℤ) : Bool := rot == 0 || rot == 1 || rot == -1

theorem circuit_reads_fixed (H : HashFn) : Cmd.readsL (fun _ => true) fixRot (mptCircuit H) = true := by
  run_tac do
    let g ← Lean.Elab.Tactic.getMainGoal
    let some (_, _, b) := (← g.getType).eq? | return
    g.assign (← Lean.Meta.mkEqRefl b)

theorem update_reads_near (H : HashFn) : Cmd.readsL nearRot fixRot (MptUpdate.configure H) = true := by
  run_tac do
    let g ← Lean.Elab.Tactic.getMainGoal
    let some (_, _, b) := (← g.getType).eq? | return
    g.assign (← Lean.Meta.mkEqRefl b)

/-- The calls of the canonical representation whose condition is `index_is_zero`,
/repo/src/gadgets/canonical_representation.rs:64-85. -/
def canonicalGroup : Cmd Fr :=
  .cond FixCol.crIndexIsZero.cur
      [ .assertEqual "every group of 32 bytes represent value" AdvCol.crValue.cur Canonical.byteSum,
        .assert "differences_are_zero_so_far = 1 when index = 0" AdvCol.crZeroSoFar.cur,
        .assertEqual "???????" AdvCol.crRlc.cur AdvCol.crByte.cur ]

theorem small_reads_near : Cmd.readsL (F := Fr) nearRot fixRot
    (ByteBit.configure ++ ByteRep.configure ++ KeyBit.configure ++ [finalRow]) = true := by
  run_tac do
    let g ← Lean.Elab.Tactic.getMainGoal
    let some (_, _, b) := (← g.getType).eq? | return
    g.assign (← Lean.Meta.mkEqRefl b)


theorem canonical_split : Canonical.configure =
    Canonical.configure.take 4 ++ canonicalGroup :: Canonical.configure.drop 5 := by
  rfl

theorem canonical_reads_near :
    Cmd.readsL nearRot fixRot (Canonical.configure.take 4 ++ Canonical.configure.drop 5) = true := by
  run_tac do
    let g ← Lean.Elab.Tactic.getMainGoal
    let some (_, _, b) := (← g.getType).eq? | return
    g.assign (← Lean.Meta.mkEqRefl b)

/-- Advice rotations of a group of bytes, /repo/src/gadgets/canonical_representation.rs:69-71. -/
def groupRot (rot : ℤ) : Bool := decide (0 ≤ rot ∧ rot ≤ 31)

theorem group_reads : Cmd.reads groupRot fixRot canonicalGroup = true := by
  run_tac do
    let g ← Lean.Elab.Tactic.getMainGoal
    let some (_, _, b) := (← g.getType).eq? | return
    g.assign (← Lean.Meta.mkEqRefl b)

/-! ## Wrapping around -/

/-- The cells of a table with `N` rows, on all integers. /repo/src/constraint_builder/column.rs:1-140. -/
def HaloTable.unroll (t : HaloTable) (N : ℕ) : Witness Fr where
  adv c r := t.adv c (r % (N : ℤ)).toNat
  fix c r := t.fix c (r % (N : ℤ)).toNat
  chal := t.chal

theorem Query.evalTable_eq (t : HaloTable) (N r : ℕ) (q : Query Fr) :
    q.evalTable t N r = q.eval (t.unroll N) r := by
  induction q with
  | const c => rfl
  | advice c rot => rfl
  | fixed c rot => rfl
  | challenge => rfl
  | neg q ih => simp only [Query.evalTable, Query.eval, ih]
  | add p q ihp ihq => simp only [Query.evalTable, Query.eval, ihp, ihq]
  | mul p q ihp ihq => simp only [Query.evalTable, Query.eval, ihp, ihq]

theorem ConstraintSystem.satTable_iff (cs : ConstraintSystem Fr) (t : HaloTable) (N U : ℕ) :
    cs.SatTable t N U ↔ cs.Sat (t.unroll N) U := by
  unfold ConstraintSystem.SatTable ConstraintSystem.Sat
  constructor
  · rintro ⟨h1, h2⟩
    refine ⟨fun g hg r hr => ?_, fun l hl r hr => ?_⟩
    · have h0 := hr.1
      have h3 := hr.2
      lift r to ℕ using h0
      rw [← Query.evalTable_eq]
      exact h1 g hg r (by omega)
    · have h0 := hr.1
      have h3 := hr.2
      lift r to ℕ using h0
      obtain ⟨r', h4, h5⟩ := h2 l hl r (by omega)
      refine ⟨r', ⟨by omega, by omega⟩, fun p hp => ?_⟩
      rw [← Query.evalTable_eq, ← Query.evalTable_eq]
      exact h5 p hp
  · rintro ⟨h1, h2⟩
    refine ⟨fun g hg r hr => ?_, fun l hl r hr => ?_⟩
    · rw [Query.evalTable_eq]
      exact h1 g hg r ⟨by omega, by omega⟩
    · obtain ⟨r', h4, h5⟩ := h2 l hl r ⟨by omega, by omega⟩
      obtain ⟨h6, h7⟩ := h4
      lift r' to ℕ using h6
      refine ⟨r', by omega, fun p hp => ?_⟩
      rw [Query.evalTable_eq, Query.evalTable_eq]
      exact h5 p hp

theorem mod_of_lt {N : ℕ} {r : ℤ} (h0 : 0 ≤ r) (h1 : r < N) : (r % (N : ℤ)).toNat = r.toNat := by
  rw [Int.emod_eq_of_lt h0 h1]

/-- The same cells with the fixed columns as the model has them. /repo/src/mpt.rs:112-260. -/
noncomputable def HaloTable.model (t : HaloTable) (n N : ℕ) : Witness Fr where
  adv := (t.unroll N).adv
  fix c r := if c = .posEnable then (t.unroll N).fix .posEnable r else fixedCell n c r
  chal := t.chal

/-- Looking back 31 rows from a usable row never finds the first row of a group by wrapping around. -/
theorem wrapped_fixed {n U N : ℕ} {t : HaloTable} (hf : ∀ c, c ≠ .posEnable → ∀ r < N, t.fix c r = fixedCell n c r)
    (hn : n ≤ U) (hU : U < N) (h32 : 32 ∣ N) {r : ℤ} (hr : InU U r) (c : FixCol) (rot : ℤ)
    (h : fixRot c rot = true) : (t.unroll N).fix c (r + rot) = (t.model n N).fix c (r + rot) := by
  by_cases hc : c = .posEnable
  · subst hc; rfl
  have e : (t.model n N).fix c (r + rot) = fixedCell n c (r + rot) := if_neg hc
  rw [e]
  have h0 := hr.1
  have h1 := hr.2
  show t.fix c ((r + rot) % (N : ℤ)).toNat = _
  simp only [fixRot, Bool.or_eq_true, Bool.and_eq_true, beq_iff_eq] at h
  by_cases hz : 0 ≤ r + rot
  · have hlt : r + rot < N := by rcases h with h | ⟨-, h⟩ <;> omega
    rw [mod_of_lt hz hlt, hf c hc _ (by omega), Int.toNat_of_nonneg hz]
  · rcases h with h | ⟨rfl, rfl⟩
    · omega
    · have hm : ((r + -31) % (N : ℤ)) = r + -31 + N := by
        rw [← Int.add_emod_right, Int.emod_eq_of_lt (by omega) (by omega)]
      rw [hm, hf _ hc _ (by omega), Int.toNat_of_nonneg (by omega)]
      obtain ⟨k, rfl⟩ := h32
      simp only [fixedCell]
      rw [if_neg, if_neg]
      · omega
      · push_cast at *
        omega

theorem unroll_agree {n U N : ℕ} {t : HaloTable} (hf : ∀ c, c ≠ .posEnable → ∀ r < N, t.fix c r = fixedCell n c r)
    (hU : U < N) : Agree (t.model n N) (t.unroll N) U := by
  refine ⟨fun c r hr => rfl, fun c r hr => ?_, rfl⟩
  by_cases hc : c = .posEnable
  · subst hc; rfl
  have e : (t.model n N).fix c r = fixedCell n c r := if_neg hc
  rw [e]
  show t.fix c (r % (N : ℤ)).toNat = _
  have h0 := hr.1
  have h1 := hr.2
  rw [mod_of_lt h0 (by omega), hf c hc _ (by omega), Int.toNat_of_nonneg h0]

theorem dvd_32 {N : ℕ} (h : ∃ k, N = 2 ^ k ∧ 5 ≤ k ∧ k ≤ 64) : 32 ∣ N ∧ N ≤ 2 ^ 64 := by
  obtain ⟨k, rfl, h5, h6⟩ := h
  exact ⟨pow_dvd_pow 2 h5, Nat.pow_le_pow_right (by norm_num) h6⟩

/-- An accepted table, read on all integers, is accepted by the model. -/
theorem HaloAccepted.model {H : HashFn} {n U N : ℕ} {t : HaloTable} (h : HaloAccepted H n U N t) :
    Accepted H n U (t.model n N) := by
  obtain ⟨h32, h64⟩ := dvd_32 h.size
  obtain ⟨cs, hcs, hs⟩ := h.sat
  obtain ⟨cs', hcs', hiff⟩ := Cmd.sat_iff (mptCircuit H)
  obtain rfl : cs = cs' := Option.some.inj (hcs.symm.trans hcs')
  have hg := unroll_agree h.fixed h.blinded
  have hU := h.blinded
  refine ⟨⟨cs, hcs, (hiff _ _).2 fun r hr => ?_⟩, fun c hc r => if_neg hc, h.rows, by omega, ?_, ?_⟩
  · have h1 := (hiff _ _).1 ((cs.satTable_iff t N U).1 hs) r hr
    rw [hg.fix _ r hr] at h1
    exact Cmd.lholdsL_congr hg.symm (fun _ _ _ => rfl)
      (fun c rot e => (wrapped_fixed h.fixed h.rows h.blinded h32 hr c rot e).symm) _ _ _
      (circuit_reads_fixed H) h1
  · intro r hr
    have e : (t.model n N).fix .posEnable r = t.fix .posEnable (r % (N : ℤ)).toNat := by
      simp [HaloTable.model, HaloTable.unroll]
    have h0 := hr.1
    have h1 := hr.2
    rw [e, mod_of_lt h0 (by omega)]
    exact h.posEnable _ (by omega)
  · intro r hr
    have e : (t.model n N).fix .posEnable r = t.fix .posEnable (r % (N : ℤ)).toNat := by
      simp [HaloTable.model, HaloTable.unroll]
    have h0 := hr.1
    have h1 := hr.2
    rw [e]
    show t.fix .posEnable (r % (N : ℤ)).toNat = 1 → t.adv .posControl (r % (N : ℤ)).toNat = 0 →
      t.adv .posHead (r % (N : ℤ)).toNat = 1 → t.adv .posHash (r % (N : ℤ)).toNat = H
        (t.adv .posLeft (r % (N : ℤ)).toNat) (t.adv .posRight (r % (N : ℤ)).toNat)
        (t.adv .posDomain (r % (N : ℤ)).toNat)
    rw [mod_of_lt h0 (by omega)]
    exact h.pos _ (by omega)

/-! ## Blinding -/

/-- The rows of `w` that are not part of the circuit are blank, and so is row 0 of the lookup tables; the
Poseidon table has a blank row. For /repo/src/mpt.rs:112-260. -/
structure Quiet (n U : ℕ) (w : Witness Fr) : Prop where
  rows : ∀ r, InU U r → ¬ Enabled n r → BlankRow w r
  tables : BlankTables w 0
  zero : Cmd.PosZeroRow w U

theorem OneHot.repr_congr {T : Type} [DecidableEq T] [EnumIter T] {o : OneHot T} {w w' : Witness Fr} {r : ℤ}
    (h : ∀ c, w'.adv c r = w.adv c r) {v : T} (hv : o.Repr w r v) : o.Repr w' r v := by
  unfold OneHot.Repr at *
  intro t ht
  rw [h]
  exact hv t ht

theorem lholds_canonicalGroup {n U V : ℕ} {w w' : Witness Fr} (hg : Agree w w' U) (hgV : Agree w w' V)
    (hf : FixedOK n w) (hn : n < V)
    {r : ℤ} (hr : InU U r) {s acc : Fr} (h : Cmd.LHolds w U r s acc canonicalGroup) :
    Cmd.LHolds w' U r s acc canonicalGroup := by
  by_cases hz : 1 ≤ r ∧ r ≤ 32 * (n / 32 : ℕ) ∧ (r - 1) % 32 = 0
  · have h0 := hr.1
    refine Cmd.lholds_congr (a := groupRot) (f := fixHere) hg (fun c rot e => ?_) (fun c rot e => ?_) s acc _
      ?_ h
    · simp only [groupRot, decide_eq_true_eq] at e
      exact hgV.adv _ _ ⟨by omega, by omega⟩
    · have e' : rot = 0 := by simpa [fixHere] using e
      subst e'
      rw [add_zero]
      exact hg.fix _ _ hr
    · run_tac do
        let g ← Lean.Elab.Tactic.getMainGoal
        let some (_, _, b) := (← g.getType).eq? | return
        g.assign (← Lean.Meta.mkEqRefl b)
  · have e : w'.fix .crIndexIsZero r = 0 := by
      rw [hg.fix _ _ hr, hf _ (by decide)]
      simp only [fixedCell]
      exact if_neg hz
    simp only [canonicalGroup, Cmd.LHolds, FixCol.eval_cur, e, mul_zero, Cmd.LHoldsL, Cmd.assertEqual,
      Cmd.assert, zero_mul, and_self]


theorem holds_agree {U N : ℕ} {t : HaloTable} {w : Witness Fr} (h : t.Holds w N U) (hU : U ≤ N) :
    Agree w (t.unroll N) U := by
  refine ⟨fun c r hr => ?_, fun c r hr => ?_, h.chal⟩
  · show t.adv c (r % (N : ℤ)).toNat = _
    have h0 := hr.1
    have h1 := hr.2
    rw [mod_of_lt h0 (by omega), h.adv _ _ (by omega), Int.toNat_of_nonneg h0]
  · show t.fix c (r % (N : ℤ)).toNat = _
    have h0 := hr.1
    have h1 := hr.2
    rw [mod_of_lt h0 (by omega), h.fix _ _ (by omega), Int.toNat_of_nonneg h0]

theorem blankTables_congr {w w' : Witness Fr} {U : ℕ} (hg : Agree w w' U) {r : ℤ} (hr : InU U r)
    (h : BlankTables w r) : BlankTables w' r := by
  obtain ⟨h1, h2, h3, h4, h5, h6, h7, h8, h9, h10, h11, h12, h13⟩ := h
  constructor <;> first | rwa [hg.fix _ r hr] | rwa [hg.adv _ r hr]

theorem blankRow_congr {w w' : Witness Fr} {U : ℕ} (hg : Agree w w' U) {r : ℤ} (hr : InU U r)
    (h : BlankRow w r) : BlankRow w' r :=
  ⟨OneHot.repr_congr (fun c => hg.adv c r hr) h.seg, OneHot.repr_congr (fun c => hg.adv c r hr) h.pth,
    OneHot.repr_congr (fun c => hg.adv c r hr) h.prf, by rw [hg.adv _ r hr]; exact h.key⟩

theorem posZeroRow_congr {w w' : Witness Fr} {U : ℕ} (hg : Agree w w' U) (h : Cmd.PosZeroRow w U) :
    Cmd.PosZeroRow w' U := by
  obtain ⟨r, hr, h1, h2, h3, h4, h5, h6, h7⟩ := h
  refine ⟨r, hr, ?_⟩
  rw [hg.fix _ r hr, hg.adv _ r hr, hg.adv _ r hr, hg.adv _ r hr, hg.adv _ r hr, hg.adv _ r hr,
    hg.adv _ r hr]
  exact ⟨h1, h2, h3, h4, h5, h6, h7⟩

/-- **Blinding is harmless behind the row that follows the circuit.** The first `V` rows hold the assigned
cells, the others anything. -/
theorem Accepted.halo {H : HashFn} {n U V N : ℕ} {w : Witness Fr} (h : Accepted H n U w) (hq : Quiet n U w)
    (hn : n < V) (hUV : U ≤ V) (hVN : V ≤ N) (hU : U < N) (hN : ∃ k, N = 2 ^ k ∧ 5 ≤ k ∧ k ≤ 64) {t : HaloTable}
    (htV : t.Holds w N V) : HaloAccepted H n U N t := by
  have ht : t.Holds w N U := ⟨fun c r hr => htV.adv c r (by omega), htV.fix, htV.chal⟩
  obtain ⟨h32, -⟩ := dvd_32 hN
  have hfix : ∀ c, c ≠ .posEnable → ∀ r < N, t.fix c r = fixedCell n c r := fun c hc r hr => by
    rw [ht.fix c r hr, h.fixed c hc]
  have hg := holds_agree ht hU.le
  have hgV := holds_agree htV hVN
  refine ⟨?_, hfix, ?_, ?_, h.rows, hU, hN⟩
  · obtain ⟨cs, hcs, hs⟩ := h.sat
    obtain ⟨cs', hcs', hiff⟩ := Cmd.sat_iff (mptCircuit H)
    obtain rfl : cs = cs' := Option.some.inj (hcs.symm.trans hcs')
    refine ⟨cs, hcs, (cs.satTable_iff t N U).2 ((hiff _ _).2 fun r hr => ?_)⟩
    have hU0 : InU U 0 := ⟨le_refl _, by have h0 := hr.1; have h1 := hr.2; omega⟩
    by_cases hd : Enabled n r
    · have h1 := (hiff _ _).1 hs r hr
      rw [← hg.fix _ r hr] at h1
      have hd1 := hd.1
      have hd2 := hd.2
      have near : ∀ (s acc : Fr) (c : Cmd Fr), Cmd.reads nearRot fixRot c = true →
          Cmd.LHolds w U r s acc c → Cmd.LHolds (t.unroll N) U r s acc c := fun s acc c hc hh => by
        refine Cmd.lholds_congr hg (fun c rot e => ?_) (fun c rot e => ?_) s acc c hc hh
        · simp only [nearRot, Bool.or_eq_true, beq_iff_eq] at e
          exact hgV.adv _ _ ⟨by omega, by omega⟩
        · rw [wrapped_fixed hfix h.rows hU h32 hr c rot e]
          by_cases hc : c = .posEnable
          · subst hc
            simp only [fixRot, Bool.or_eq_true, Bool.and_eq_true, beq_iff_eq] at e
            have e' : rot = 0 := by
              rcases e with e | ⟨e, -⟩
              · exact e
              · cases e
            subst e'
            rw [add_zero]
            have e2 : (t.model n N).fix .posEnable r = (t.unroll N).fix .posEnable r := by
              simp [HaloTable.model]
            rw [e2]
            exact hg.fix _ _ hr
          · rw [h.fixed c hc]
            exact if_neg hc
      rw [Cmd.lholdsL_iff] at h1 ⊢
      intro c hc
      have h2 := h1 c hc
      simp only [mptCircuit, List.mem_append] at hc
      have hsm := (Cmd.readsL_iff nearRot fixRot _).1 small_reads_near
      simp only [List.mem_append] at hsm
      rcases hc with ((((hc | hc) | hc) | hc) | hc) | hc
      · exact near _ _ c (hsm c (.inl (.inl (.inl hc)))) h2
      · exact near _ _ c (hsm c (.inl (.inl (.inr hc)))) h2
      · rw [canonical_split] at hc
        have hca := (Cmd.readsL_iff nearRot fixRot _).1 canonical_reads_near
        rcases List.mem_append.1 hc with hc | hc
        · exact near _ _ c (hca c (List.mem_append.2 (.inl hc))) h2
        rcases List.mem_cons.1 hc with rfl | hc
        · exact lholds_canonicalGroup hg hgV h.fixed hn hr h2
        · exact near _ _ c (hca c (List.mem_append.2 (.inr hc))) h2
      · exact near _ _ c (hsm c (.inl (.inr hc))) h2
      · exact near _ _ c ((Cmd.readsL_iff nearRot fixRot _).1 (update_reads_near H) c hc) h2
      · exact near _ _ c (hsm c (.inr hc)) h2
    · have hs0 : ∀ r, InU U r → ¬ Enabled n r → (t.unroll N).fix .selector r = 0 := fun r hr hd => by
        rw [hg.fix _ r hr, h.fixed _ (by decide)]
        exact if_neg hd
      rw [hs0 r hr hd, Cmd.lholdsL_disabled _ U 0 hU0 (hs0 0 hU0 (by simp [Enabled])) r 1 _
        (tableZero_configure (blankTables_congr hg hU0 hq.tables))]
      exact Cmd.posHoldsL_of_idle _ U r (posZeroRow_congr hg hq.zero) 1 _
        (idle_circuit (blankRow_congr hg hr (hq.rows r hr hd)) (hs0 r hr hd))
  · intro r hr
    rw [ht.fix _ _ (by omega)]
    exact h.posEnable _ ⟨by omega, by omega⟩
  · intro r hr
    rw [ht.fix _ _ (by omega), ht.adv _ _ hr, ht.adv _ _ hr, ht.adv _ _ hr, ht.adv _ _ hr, ht.adv _ _ hr,
      ht.adv _ _ hr]
    exact h.pos _ ⟨by omega, by omega⟩

end Mpt
