import Verif.ConstraintBuilder

set_option autoImplicit false

/-!
# From the built constraint system to row-wise semantics

`sat_iff`: the constraint system built from a program is satisfied iff the literal semantics holds
on every usable row. `holds_of_sat`: on enabled rows of an accepted witness the structured semantics
holds. `sat_of_holds`: the converse used for completeness.
-/

namespace Mpt
variable {F : Type} [Field F]

/-- All constraints and lookups collected so far are satisfied. For /repo/src/constraint_builder.rs:163-181. -/
def CB.CSat (cb : CB F) (w : Witness F) (U : ℕ) : Prop :=
  (∀ g ∈ cb.constraints, ∀ r, InU U r → g.2.eval w r = 0) ∧
  (∀ l ∈ cb.lookups, ∀ r, InU U r → ∃ r', InU U r' ∧ ∀ p ∈ l.2, p.1.eval w r = p.2.eval w r')

theorem foldl_band_eval (w : Witness F) (r : ℤ) (l : List (Query F)) (q : Query F) :
    (l.foldl Query.band q).eval w r = q.eval w r * (l.foldl Query.band 1).eval w r := by
  induction l generalizing q with
  | nil => simp
  | cons c l ih =>
    simp only [List.foldl_cons]
    rw [ih (q.band c), ih (Query.band 1 c)]
    simp [mul_assoc]

theorem CB.condition_eval (cb : CB F) (w : Witness F) (r : ℤ) :
    cb.condition?.eval w r = cb.everyRow.eval w r * cb.conditionSkip1.eval w r := by
  simp only [CB.condition?, List.foldl_cons, CB.conditionSkip1]
  rw [foldl_band_eval]
  simp

namespace Cmd

mutual
theorem exec_frame (c : Cmd F) (cb : CB F) :
    (exec c cb).everyRow = cb.everyRow ∧ (exec c cb).conditions = cb.conditions := by
  match c with
  | .assertZero .. => exact ⟨rfl, rfl⟩
  | .lookup .. => exact ⟨rfl, rfl⟩
  | .poseidon .. => exact ⟨rfl, rfl⟩
  | .cond c body =>
    have h := execs_frame body (cb.push c)
    simp only [exec]
    refine ⟨h.1, ?_⟩
    show (execs body (cb.push c)).conditions.dropLast = _
    rw [h.2]
    simp [CB.push]
theorem execs_frame (cs : List (Cmd F)) (cb : CB F) :
    (execs cs cb).everyRow = cb.everyRow ∧ (execs cs cb).conditions = cb.conditions := by
  match cs with
  | [] => exact ⟨rfl, rfl⟩
  | c :: cs =>
    have h1 := exec_frame c cb
    have h2 := execs_frame cs (exec c cb)
    simp only [execs]
    exact ⟨h2.1.trans h1.1, h2.2.trans h1.2⟩
end

theorem csat_pop (cb : CB F) (w : Witness F) (U : ℕ) : cb.pop.CSat w U ↔ cb.CSat w U := Iff.rfl
theorem csat_push (cb : CB F) (c : Query F) (w : Witness F) (U : ℕ) :
    (cb.push c).CSat w U ↔ cb.CSat w U := Iff.rfl

theorem csat_assertZero (cb : CB F) (n : String) (q : Query F) (w : Witness F) (U : ℕ) :
    (cb.assertZero n q).CSat w U ↔ cb.CSat w U ∧ ∀ r, InU U r →
      cb.everyRow.eval w r * cb.conditionSkip1.eval w r * q.eval w r = 0 := by
  simp only [CB.CSat, CB.assertZero, List.mem_append, List.mem_singleton]
  constructor
  · rintro ⟨h1, h2⟩
    refine ⟨⟨fun g hg => h1 g (.inl hg), h2⟩, fun r hr => ?_⟩
    have := h1 _ (.inr rfl) r hr
    simpa [CB.condition_eval] using this
  · rintro ⟨⟨h1, h2⟩, h3⟩
    refine ⟨?_, h2⟩
    rintro g (hg | rfl) r hr
    · exact h1 g hg r hr
    · simpa [CB.condition_eval] using h3 r hr

theorem csat_lookup (cb : CB F) (he : cb.everyRow = FixCol.selector.cur) (n : String)
    (ps : List (Query F × Query F)) (w : Witness F) (U : ℕ) :
    (cb.addLookup n ps).CSat w U ↔ cb.CSat w U ∧ ∀ r, InU U r →
      LHolds w U r (cb.everyRow.eval w r) (cb.conditionSkip1.eval w r) (.lookup n ps) := by
  have key : ∀ r, (∃ r', InU U r' ∧ ∀ p ∈ (ps.map (fun p => (p.1 * cb.condition?, p.2)) ++
      [(cb.condition?, cb.everyRowSelector)]), p.1.eval w r = p.2.eval w r') ↔
      LHolds w U r (cb.everyRow.eval w r) (cb.conditionSkip1.eval w r) (.lookup n ps) := by
    intro r
    simp only [LHolds]
    constructor
    · rintro ⟨r', hr', h⟩
      refine ⟨r', hr', ?_, ?_⟩
      · intro p hp
        have := h (p.1 * cb.condition?, p.2)
          (List.mem_append.2 (.inl (List.mem_map.2 ⟨p, hp, rfl⟩)))
        simpa [CB.condition_eval] using this
      · have := h (cb.condition?, cb.everyRowSelector) (by simp)
        simpa [CB.condition_eval, CB.everyRowSelector, he] using this
    · rintro ⟨r', hr', h1, h2⟩
      refine ⟨r', hr', ?_⟩
      intro p hp
      rcases List.mem_append.1 hp with hp | hp
      · obtain ⟨p', hp', rfl⟩ := List.mem_map.1 hp
        simpa [CB.condition_eval] using h1 p' hp'
      · rw [List.mem_singleton] at hp
        subst hp
        simpa [CB.condition_eval, CB.everyRowSelector, he] using h2
  simp only [CB.CSat, CB.addLookup, List.mem_append, List.mem_singleton]
  constructor
  · rintro ⟨h1, h2⟩
    exact ⟨⟨h1, fun l hl => h2 l (.inl hl)⟩,
      fun r hr => (key r).1 (by simpa only [List.mem_append, List.mem_singleton] using h2 _ (.inr rfl) r hr)⟩
  · rintro ⟨⟨h1, h2⟩, h3⟩
    refine ⟨h1, ?_⟩
    rintro l (hl | rfl) r hr
    · exact h2 l hl r hr
    · have := (key r).2 (h3 r hr)
      simpa only [List.mem_append, List.mem_singleton] using this

theorem csat_poseidon (cb : CB F) (n : String) (l rr d h : Query F) (w : Witness F) (U : ℕ) :
    (cb.poseidonLookup n l rr d h).CSat w U ↔ cb.CSat w U ∧ ∀ r, InU U r →
      LHolds w U r (cb.everyRow.eval w r) (cb.conditionSkip1.eval w r) (.poseidon n l rr d h) := by
  simp only [CB.CSat, CB.poseidonLookup, List.mem_append, List.mem_singleton, LHolds, PoseidonRow]
  constructor
  · rintro ⟨h1, h2⟩
    refine ⟨⟨h1, fun l hl => h2 l (.inl hl)⟩, fun r hr => ?_⟩
    obtain ⟨r', hr', h3⟩ := h2 _ (.inr rfl) r hr
    refine ⟨r', hr', ?_⟩
    simpa [List.zip] using h3
  · rintro ⟨⟨h1, h2⟩, h3⟩
    refine ⟨h1, ?_⟩
    rintro l (hl | rfl) r hr
    · exact h2 l hl r hr
    · obtain ⟨r', hr', h4⟩ := h3 r hr
      refine ⟨r', hr', ?_⟩
      simpa [List.zip] using h4

theorem push_skip1 (cb : CB F) (c : Query F) (w : Witness F) (r : ℤ) :
    (cb.push c).conditionSkip1.eval w r = cb.conditionSkip1.eval w r * c.eval w r := by
  simp [CB.conditionSkip1, CB.push]

mutual
theorem exec_csat (c : Cmd F) (cb : CB F) (he : cb.everyRow = FixCol.selector.cur)
    (w : Witness F) (U : ℕ) :
    (exec c cb).CSat w U ↔ cb.CSat w U ∧ ∀ r, InU U r →
      LHolds w U r (cb.everyRow.eval w r) (cb.conditionSkip1.eval w r) c := by
  match c with
  | .assertZero n q => simp only [exec, csat_assertZero, LHolds]
  | .lookup n ps => simp only [exec, csat_lookup cb he]
  | .poseidon n l r d h => simp only [exec, csat_poseidon]
  | .cond c body =>
    simp only [exec, csat_pop]
    rw [execs_csat body (cb.push c) he w U, csat_push]
    simp only [push_skip1, LHolds]
    rfl
theorem execs_csat (cs : List (Cmd F)) (cb : CB F) (he : cb.everyRow = FixCol.selector.cur)
    (w : Witness F) (U : ℕ) :
    (execs cs cb).CSat w U ↔ cb.CSat w U ∧ ∀ r, InU U r →
      LHoldsL w U r (cb.everyRow.eval w r) (cb.conditionSkip1.eval w r) cs := by
  match cs with
  | [] => simp [execs, LHoldsL]
  | c :: cs =>
    simp only [execs]
    have hf := exec_frame c cb
    rw [execs_csat cs (exec c cb) (hf.1.trans he) w U, exec_csat c cb he w U]
    have e : ∀ r, (exec c cb).conditionSkip1.eval w r = cb.conditionSkip1.eval w r := by
      intro r; simp [CB.conditionSkip1, hf.2]
    simp only [hf.1, e, LHoldsL]
    constructor
    · rintro ⟨⟨h1, h2⟩, h3⟩
      exact ⟨h1, fun r hr => ⟨h2 r hr, h3 r hr⟩⟩
    · rintro ⟨h1, h2⟩
      exact ⟨⟨h1, fun r hr => (h2 r hr).1⟩, fun r hr => (h2 r hr).2⟩
end

/-- The builder never panics in `build` on a program, and the constraint system it produces is
satisfied exactly when the literal semantics of the program holds on every usable row. -/
theorem sat_iff (prog : List (Cmd F)) :
    ∃ cs, circuit prog = some cs ∧ ∀ (w : Witness F) (U : ℕ), cs.Sat w U ↔
      ∀ r, InU U r → LHoldsL w U r (w.fix .selector r) 1 prog := by
  have hf := execs_frame prog (CB.new (F := F) .selector)
  have hc : (execs prog (CB.new (F := F) .selector)).conditions = [] := hf.2
  refine ⟨⟨(execs prog (CB.new (F := F) .selector)).constraints.map (·.2),
    (execs prog (CB.new (F := F) .selector)).lookups.map (·.2)⟩, by simp [circuit, CB.build, hc], ?_⟩
  intro w U
  have h := execs_csat prog (CB.new (F := F) .selector) rfl w U
  have h0 : (CB.new (F := F) .selector).CSat w U := by simp [CB.CSat, CB.new]
  have e1 : ∀ r, (CB.new (F := F) .selector).everyRow.eval w r = w.fix .selector r := by
    intro r; simp [CB.new]
  have e2 : ∀ r, (CB.new (F := F) .selector).conditionSkip1.eval w r = 1 := by
    intro r; simp [CB.new, CB.conditionSkip1]
  simp only [e1, e2] at h
  rw [← (h.trans (and_iff_right h0))]
  simp only [ConstraintSystem.Sat, CB.CSat, List.forall_mem_map]

/-- The fixed 0/1 columns every constraint system relies on: the selector and the Poseidon table's
enable column (both are fixed columns; the selector's contents are proved to be 0/1 from the model
of `assign`, the Poseidon table is external). For /repo/src/constraint_builder.rs:27-41, 89-130. -/
structure FixedBinary (w : Witness F) (U : ℕ) : Prop where
  sel : ∀ r, InU U r → w.fix .selector r = 0 ∨ w.fix .selector r = 1
  pos : ∀ r, InU U r → w.fix .posEnable r = 0 ∨ w.fix .posEnable r = 1

mutual
theorem holds_of_lholds (w : Witness F) (U : ℕ) (hb : FixedBinary w U) (r : ℤ)
    (s acc : F) (hs : s = 1) (ha : acc ≠ 0) (c : Cmd F) (h : LHolds w U r s acc c) :
    Holds w U r c := by
  match c with
  | .assertZero n q =>
    simp only [LHolds, hs, one_mul] at h
    simpa using (mul_eq_zero.1 h).resolve_left ha
  | .lookup n ps =>
    simp only [LHolds, hs, one_mul] at h
    obtain ⟨r', hr', h1, h2⟩ := h
    have : acc = 1 := by
      rcases hb.sel r' hr' with h0 | h0
      · exact absurd (h2.trans h0) ha
      · exact h2.trans h0
    refine (holds_lookup ..).2 ⟨r', hr', by rw [← h2, this], ?_⟩
    intro p hp
    simpa [this] using h1 p hp
  | .poseidon n l rr d hh =>
    simp only [LHolds] at h
    obtain ⟨r', hr', h1, h2⟩ := h
    have : acc = 1 := by
      rcases hb.pos r' hr' with h0 | h0
      · exact absurd (h1.trans h0) ha
      · exact h1.trans h0
    subst this
    exact (holds_poseidon ..).2 ⟨r', hr', h1, h2⟩
  | .cond c body =>
    simp only [LHolds] at h
    rw [holds_cond]
    intro hc
    exact holdsL_of_lholdsL w U hb r s _ hs (mul_ne_zero ha hc) body h
theorem holdsL_of_lholdsL (w : Witness F) (U : ℕ) (hb : FixedBinary w U) (r : ℤ)
    (s acc : F) (hs : s = 1) (ha : acc ≠ 0) (cs : List (Cmd F)) (h : LHoldsL w U r s acc cs) :
    HoldsL w U r cs := by
  match cs with
  | [] => simp
  | c :: cs =>
    simp only [LHoldsL] at h
    exact (holdsL_cons ..).2 ⟨holds_of_lholds w U hb r s acc hs ha c h.1,
      holdsL_of_lholdsL w U hb r s acc hs ha cs h.2⟩
end

/-- Soundness direction: every enabled usable row of an accepted witness satisfies the structured
semantics. -/
theorem holds_of_sat (prog : List (Cmd F)) (cs : ConstraintSystem F) (hcs : circuit prog = some cs)
    (w : Witness F) (U : ℕ) (hb : FixedBinary w U) (hsat : cs.Sat w U) (r : ℤ) (hr : InU U r)
    (hs : w.fix .selector r = 1) : HoldsL w U r prog := by
  obtain ⟨cs', h1, h2⟩ := sat_iff prog
  rw [hcs] at h1
  cases h1
  exact holdsL_of_lholdsL w U hb r _ 1 hs one_ne_zero prog ((h2 w U).1 hsat r hr)

/-- The Poseidon table has an all-zero usable row (needed so that inactive Poseidon lookups are
satisfiable). For /repo/src/constraint_builder.rs:89-130. -/
def PosZeroRow (w : Witness F) (U : ℕ) : Prop :=
  ∃ r, InU U r ∧ w.fix .posEnable r = 0 ∧ w.adv .posHash r = 0 ∧ w.adv .posLeft r = 0 ∧
    w.adv .posRight r = 0 ∧ w.adv .posControl r = 0 ∧ w.adv .posDomain r = 0 ∧ w.adv .posHead r = 0

/-! ### Literal semantics with a zero accumulated condition is trivially satisfied, provided the
table side has a row of zeros for each looked-up tuple. -/

mutual
/-- The right-hand side of every `add_lookup` of the program is a tuple of expressions that vanish
on the disabled row `r₀`. For /repo/src/constraint_builder.rs:69-87. -/
def TableZero (w : Witness F) (r₀ : ℤ) : Cmd F → Prop
  | .cond _ body => TableZeroL w r₀ body
  | .lookup _ ps => ∀ p ∈ ps, p.2.eval w r₀ = 0
  | _ => True
/-- `TableZero` for call sequences, /repo/src/constraint_builder.rs:69-87. -/
def TableZeroL (w : Witness F) (r₀ : ℤ) : List (Cmd F) → Prop
  | [] => True
  | c :: cs => TableZero w r₀ c ∧ TableZeroL w r₀ cs
end

mutual
theorem lholds_zero (w : Witness F) (U : ℕ) (r₀ : ℤ) (h0 : InU U r₀)
    (hs0 : w.fix .selector r₀ = 0) (hp : PosZeroRow w U) (r : ℤ) (s : F) (c : Cmd F)
    (ht : TableZero w r₀ c) : LHolds w U r s 0 c := by
  match c with
  | .assertZero .. => simp [LHolds]
  | .lookup n ps =>
    simp only [LHolds, mul_zero]
    simp only [TableZero] at ht
    exact ⟨r₀, h0, fun p hp => (ht p hp).symm, hs0.symm⟩
  | .poseidon .. =>
    obtain ⟨r', hr', h1, h2, h3, h4, h5, h6, h7⟩ := hp
    simp only [LHolds]
    exact ⟨r', hr', by simp [h1], by simp [h2], by simp [h3], by simp [h4], h5.symm, by simp [h6],
      by simp [h7]⟩
  | .cond c body =>
    simp only [LHolds, zero_mul]
    simp only [TableZero] at ht
    exact lholdsL_zero w U r₀ h0 hs0 hp r s body ht
theorem lholdsL_zero (w : Witness F) (U : ℕ) (r₀ : ℤ) (h0 : InU U r₀)
    (hs0 : w.fix .selector r₀ = 0) (hp : PosZeroRow w U) (r : ℤ) (s : F) (cs : List (Cmd F))
    (ht : TableZeroL w r₀ cs) : LHoldsL w U r s 0 cs := by
  match cs with
  | [] => simp [LHoldsL]
  | c :: cs =>
    simp only [TableZeroL] at ht
    exact ⟨lholds_zero w U r₀ h0 hs0 hp r s c ht.1, lholdsL_zero w U r₀ h0 hs0 hp r s cs ht.2⟩
end

mutual
theorem lholds_of_holds (w : Witness F) (U : ℕ) (r₀ : ℤ) (h0 : InU U r₀)
    (hs0 : w.fix .selector r₀ = 0) (hp : PosZeroRow w U) (r : ℤ) (c : Cmd F)
    (ht : TableZero w r₀ c) (hbin : Binary w r c) (h : Holds w U r c) : LHolds w U r 1 1 c := by
  match c with
  | .assertZero .. => simpa [LHolds] using h
  | .lookup n ps =>
    obtain ⟨r', h1, h2, h3⟩ := (holds_lookup ..).1 h
    simp only [LHolds, mul_one]
    exact ⟨r', h1, h3, h2.symm⟩
  | .poseidon .. =>
    simpa [LHolds] using (holds_poseidon ..).1 h
  | .cond c body =>
    simp only [TableZero] at ht
    simp only [Binary] at hbin
    simp only [LHolds, one_mul]
    rcases hbin.1 with hc | hc
    · rw [hc]; exact lholdsL_zero w U r₀ h0 hs0 hp r 1 body ht
    · rw [hc]
      exact lholdsL_of_holdsL w U r₀ h0 hs0 hp r body ht hbin.2
        ((holds_cond ..).1 h (by rw [hc]; exact one_ne_zero))
theorem lholdsL_of_holdsL (w : Witness F) (U : ℕ) (r₀ : ℤ) (h0 : InU U r₀)
    (hs0 : w.fix .selector r₀ = 0) (hp : PosZeroRow w U) (r : ℤ) (cs : List (Cmd F))
    (ht : TableZeroL w r₀ cs) (hbin : BinaryL w r cs) (h : HoldsL w U r cs) :
    LHoldsL w U r 1 1 cs := by
  match cs with
  | [] => simp [LHoldsL]
  | c :: cs =>
    simp only [TableZeroL] at ht
    simp only [BinaryL] at hbin
    rw [holdsL_cons] at h
    exact ⟨lholds_of_holds w U r₀ h0 hs0 hp r c ht.1 hbin.1 h.1,
      lholdsL_of_holdsL w U r₀ h0 hs0 hp r cs ht.2 hbin.2 h.2⟩
end

/-! ### Rows with a disabled selector: only Poseidon lookups remain -/

mutual
/-- On a disabled row, only the active Poseidon lookups of a program have to be served.
For /repo/src/constraint_builder.rs:89-130. -/
def PosHolds (w : Witness F) (U : ℕ) (r : ℤ) (acc : F) : Cmd F → Prop
  | .poseidon _ l rr d h => PoseidonRow w U acc (l.eval w r) (rr.eval w r) (d.eval w r) (h.eval w r)
  | .cond c body => PosHoldsL w U r (acc * c.eval w r) body
  | _ => True
/-- `PosHolds` for call sequences, /repo/src/constraint_builder.rs:89-130. -/
def PosHoldsL (w : Witness F) (U : ℕ) (r : ℤ) (acc : F) : List (Cmd F) → Prop
  | [] => True
  | c :: cs => PosHolds w U r acc c ∧ PosHoldsL w U r acc cs
end

mutual
theorem lholds_disabled (w : Witness F) (U : ℕ) (r₀ : ℤ) (h0 : InU U r₀)
    (hs0 : w.fix .selector r₀ = 0) (r : ℤ) (acc : F) (c : Cmd F)
    (ht : TableZero w r₀ c) : LHolds w U r 0 acc c ↔ PosHolds w U r acc c := by
  match c with
  | .assertZero .. => simp [LHolds, PosHolds]
  | .lookup n ps =>
    simp only [LHolds, PosHolds, zero_mul, mul_zero, iff_true]
    simp only [TableZero] at ht
    exact ⟨r₀, h0, fun p hp => (ht p hp).symm, hs0.symm⟩
  | .poseidon .. => simp [LHolds, PosHolds]
  | .cond c body =>
    simp only [TableZero] at ht
    simp only [LHolds, PosHolds]
    exact lholdsL_disabled w U r₀ h0 hs0 r _ body ht
theorem lholdsL_disabled (w : Witness F) (U : ℕ) (r₀ : ℤ) (h0 : InU U r₀)
    (hs0 : w.fix .selector r₀ = 0) (r : ℤ) (acc : F) (cs : List (Cmd F))
    (ht : TableZeroL w r₀ cs) : LHoldsL w U r 0 acc cs ↔ PosHoldsL w U r acc cs := by
  match cs with
  | [] => simp [LHoldsL, PosHoldsL]
  | c :: cs =>
    simp only [TableZeroL] at ht
    simp only [LHoldsL, PosHoldsL]
    rw [lholds_disabled w U r₀ h0 hs0 r acc c ht.1, lholdsL_disabled w U r₀ h0 hs0 r acc cs ht.2]
end

/-- Completeness direction: if on every enabled row the structured semantics holds with 0/1
conditions, on every disabled row the Poseidon lookups hold, and the tables have a zero row, then
the built constraint system is satisfied. -/
theorem sat_of_holds (prog : List (Cmd F)) (cs : ConstraintSystem F) (hcs : circuit prog = some cs)
    (w : Witness F) (U : ℕ) (r₀ : ℤ) (h0 : InU U r₀) (hs0 : w.fix .selector r₀ = 0)
    (hp : PosZeroRow w U) (ht : TableZeroL w r₀ prog)
    (hsel : ∀ r, InU U r → w.fix .selector r = 0 ∨ w.fix .selector r = 1)
    (hon : ∀ r, InU U r → w.fix .selector r = 1 → BinaryL w r prog ∧ HoldsL w U r prog)
    (hoff : ∀ r, InU U r → w.fix .selector r = 0 → PosHoldsL w U r 1 prog) :
    cs.Sat w U := by
  obtain ⟨cs', h1, h2⟩ := sat_iff prog
  rw [hcs] at h1
  cases h1
  refine (h2 w U).2 fun r hr => ?_
  rcases hsel r hr with hs | hs
  · rw [hs, lholdsL_disabled w U r₀ h0 hs0 r 1 prog ht]
    exact hoff r hr hs
  · rw [hs]
    exact lholdsL_of_holdsL w U r₀ h0 hs0 hp r prog ht (hon r hr hs).1 (hon r hr hs).2

end Cmd
end Mpt
