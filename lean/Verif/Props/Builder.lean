import Verif.Gadgets.LookupSound
import Verif.Gadgets.UpdateRows
import Verif.Lagrange

set_option autoImplicit false
set_option linter.unusedSectionVars false

/-!
# Properties C01-C08 and C40: the constraint builder and the basic gadgets
-/

namespace Mpt.Props
open Mpt Spec MptUpdate
variable {F : Type} [Field F]

/-! ## Specification vocabulary -/

/-- A constraint or lookup (not itself a `condition` block). -/
def IsAtom : Cmd F → Prop
  | .cond .. => False
  | _ => True

/-- The call `a` is made by the call sequence `prog`, inside the `condition` closures whose
conditions are `conds` (outermost first). -/
inductive Occurs : List (Cmd F) → List (Query F) → Cmd F → Prop
  | here {prog : List (Cmd F)} {a : Cmd F} (hm : a ∈ prog) (ha : IsAtom a) : Occurs prog [] a
  | under {prog body : List (Cmd F)} {c : Query F} {conds : List (Query F)} {a : Cmd F}
      (hm : Cmd.cond c body ∈ prog) (hb : Occurs body conds a) : Occurs prog (c :: conds) a

/-- Product of the values of the conditions on row `r`. -/
def condProd (w : Witness F) (r : ℤ) (conds : List (Query F)) : F :=
  (conds.map (fun c => c.eval w r)).prod

/-- On row `r`, the tuple `input`, scaled by `k`, is found with selector value `k` on a usable row
of the table. -/
def Served (w : Witness F) (U : ℕ) (r : ℤ) (k : F) (ps : List (Query F × Query F)) : Prop :=
  ∃ r', InU U r' ∧ (∀ p ∈ ps, p.1.eval w r * k = p.2.eval w r') ∧ k = w.fix .selector r'

theorem condProd_ne_zero (w : Witness F) (r : ℤ) (conds : List (Query F)) :
    condProd w r conds ≠ 0 ↔ ∀ c ∈ conds, c.eval w r ≠ 0 := by
  simp only [condProd, ne_eq, List.prod_eq_zero_iff, List.mem_map, not_exists, not_and]

theorem occurs_nil (conds : List (Query F)) (a : Cmd F) : ¬ Occurs [] conds a := by
  intro h; cases h <;> simp_all

theorem occurs_cons (c : Cmd F) (cs : List (Cmd F)) (conds : List (Query F)) (a : Cmd F) :
    Occurs (c :: cs) conds a ↔ Occurs [c] conds a ∨ Occurs cs conds a := by
  constructor
  · intro h
    cases h with
    | here hm ha =>
      rcases List.mem_cons.1 hm with rfl | h
      · exact .inl (.here (by simp) ha)
      · exact .inr (.here h ha)
    | under hm hb =>
      rcases List.mem_cons.1 hm with rfl | h
      · exact .inl (.under (by simp) hb)
      · exact .inr (.under h hb)
  · rintro (h | h)
    · cases h with
      | here hm ha => exact .here (by simp at hm; simp [hm]) ha
      | under hm hb => exact .under (by simp at hm; simp [hm]) hb
    · cases h with
      | here hm ha => exact .here (by simp [hm]) ha
      | under hm hb => exact .under (by simp [hm]) hb

mutual
theorem lholds_occurs (w : Witness F) (U : ℕ) (r : ℤ) (s acc : F) (c : Cmd F) :
    Cmd.LHolds w U r s acc c ↔
      ∀ conds a, Occurs [c] conds a → Cmd.LHolds w U r s (acc * condProd w r conds) a := by
  match c with
  | .cond q body =>
    simp only [Cmd.LHolds]
    rw [lholdsL_occurs w U r s (acc * q.eval w r) body]
    constructor
    · intro h conds a ho
      cases ho with
      | here hm ha => simp at hm; subst hm; simp [IsAtom] at ha
      | under hm hb =>
        simp at hm
        obtain ⟨rfl, rfl⟩ := hm
        have := h _ _ hb
        simpa [condProd, mul_assoc] using this
    · intro h conds a ho
      have := h (q :: conds) a (.under (by simp) ho)
      simpa [condProd, mul_assoc] using this
  | .assertZero n q =>
    constructor
    · intro h conds a ho
      cases ho with
      | here hm ha => simp at hm; subst hm; simpa [condProd] using h
      | under hm hb => simp at hm
    · intro h
      simpa [condProd] using h [] _ (.here (by simp) (by simp [IsAtom]))
  | .lookup n ps =>
    constructor
    · intro h conds a ho
      cases ho with
      | here hm ha => simp at hm; subst hm; simpa [condProd] using h
      | under hm hb => simp at hm
    · intro h
      simpa [condProd] using h [] _ (.here (by simp) (by simp [IsAtom]))
  | .poseidon n a b d e =>
    constructor
    · intro h conds a ho
      cases ho with
      | here hm ha => simp at hm; subst hm; simpa [condProd] using h
      | under hm hb => simp at hm
    · intro h
      simpa [condProd] using h [] _ (.here (by simp) (by simp [IsAtom]))
theorem lholdsL_occurs (w : Witness F) (U : ℕ) (r : ℤ) (s acc : F) (cs : List (Cmd F)) :
    Cmd.LHoldsL w U r s acc cs ↔
      ∀ conds a, Occurs cs conds a → Cmd.LHolds w U r s (acc * condProd w r conds) a := by
  match cs with
  | [] => simp [Cmd.LHoldsL, occurs_nil]
  | c :: cs =>
    simp only [Cmd.LHoldsL]
    rw [lholds_occurs w U r s acc c, lholdsL_occurs w U r s acc cs]
    constructor
    · rintro ⟨h1, h2⟩ conds a ho
      rcases (occurs_cons ..).1 ho with h | h
      · exact h1 _ _ h
      · exact h2 _ _ h
    · intro h
      exact ⟨fun conds a ho => h _ _ ((occurs_cons ..).2 (.inl ho)),
        fun conds a ho => h _ _ ((occurs_cons ..).2 (.inr ho))⟩
end

theorem occurs_isAtom {prog : List (Cmd F)} {conds : List (Query F)} {a : Cmd F}
    (h : Occurs prog conds a) : IsAtom a := by
  induction h with
  | here _ ha => exact ha
  | under _ _ ih => exact ih

/-! ## C01 -/

/-- **C01.** For every program of builder calls, `build` succeeds, and the circuit it builds accepts
a witness exactly when (1) every asserted expression vanishes on every usable row on which the
selector and all its enclosing conditions are non-zero, (2) every lookup is served, (3) every
Poseidon lookup is served. The clauses are independent of each other and of the order of calls. -/
theorem c01_conditional_constraints (prog : List (Cmd F)) :
    ∃ cs, Cmd.circuit prog = some cs ∧ ∀ (w : Witness F) (U : ℕ), cs.Sat w U ↔
      (∀ conds n q, Occurs prog conds (.assertZero n q) → ∀ r, InU U r →
        w.fix .selector r ≠ 0 → (∀ c ∈ conds, c.eval w r ≠ 0) → q.eval w r = 0) ∧
      (∀ conds n ps, Occurs prog conds (.lookup n ps) → ∀ r, InU U r →
        Served w U r (w.fix .selector r * condProd w r conds) ps) ∧
      (∀ conds n a b d h, Occurs prog conds (.poseidon n a b d h) → ∀ r, InU U r →
        Cmd.PoseidonRow w U (condProd w r conds) (a.eval w r) (b.eval w r) (d.eval w r)
          (h.eval w r)) := by
  obtain ⟨cs, h1, h2⟩ := Cmd.sat_iff prog
  refine ⟨cs, h1, fun w U => ?_⟩
  rw [h2 w U]
  simp only [lholdsL_occurs, one_mul]
  constructor
  · intro h
    refine ⟨fun conds n q ho r hr hs hc => ?_, fun conds n ps ho r hr => ?_,
      fun conds n a b d e ho r hr => ?_⟩
    · have := h r hr _ _ ho
      simp only [Cmd.LHolds, mul_eq_zero] at this
      rcases this with (h0 | h0) | h0
      · exact absurd h0 hs
      · exact absurd h0 ((condProd_ne_zero ..).2 hc)
      · exact h0
    · have := h r hr _ _ ho
      simpa [Cmd.LHolds, Served] using this
    · have := h r hr _ _ ho
      simpa [Cmd.LHolds] using this
  · rintro ⟨h1, h2, h3⟩ r hr conds a ho
    match a, ho with
    | .assertZero n q, ho =>
      simp only [Cmd.LHolds, mul_eq_zero]
      by_cases hs : w.fix .selector r = 0
      · exact .inl (.inl hs)
      by_cases hc : condProd w r conds = 0
      · exact .inl (.inr hc)
      · exact .inr (h1 _ _ _ ho r hr hs ((condProd_ne_zero ..).1 hc))
    | .lookup n ps, ho =>
      have := h2 _ _ _ ho r hr
      simpa [Cmd.LHolds, Served] using this
    | .poseidon n a b d e, ho =>
      have := h3 _ _ _ _ _ _ ho r hr
      simpa [Cmd.LHolds] using this
    | .cond c body, ho => exact absurd (occurs_isAtom ho) (by simp [IsAtom])

/-- Non-vacuity of C01: an assertion nested in two conditions occurs in this program. -/
example : Occurs (F := Fr)
    [.assertZero "a" AdvCol.brIndex.cur,
     .cond FixCol.brIsFirst.cur [.cond AdvCol.brByte.cur [.assertZero "b" AdvCol.brValue.cur]]]
    [FixCol.brIsFirst.cur, AdvCol.brByte.cur] (.assertZero "b" AdvCol.brValue.cur) :=
  .under (body := [.cond AdvCol.brByte.cur [.assertZero "b" AdvCol.brValue.cur]])
    (List.mem_cons_of_mem _ (List.mem_cons_self ..))
    (.under (body := [.assertZero "b" AdvCol.brValue.cur]) (List.mem_cons_self ..)
      (.here (List.mem_cons_self ..) trivial))

/-! ## C02 -/

/-- **C02, active rows.** In an accepted witness whose selector column is 0/1, a lookup is found on
a usable *enabled* table row whenever the selector and all enclosing conditions are non-zero. -/
theorem c02_active_lookup (prog : List (Cmd F)) (cs : ConstraintSystem F)
    (hcs : Cmd.circuit prog = some cs) (w : Witness F) (U : ℕ) (hsat : cs.Sat w U)
    (hbin : ∀ r, InU U r → w.fix .selector r = 0 ∨ w.fix .selector r = 1)
    (conds : List (Query F)) (n : String) (ps : List (Query F × Query F))
    (ho : Occurs prog conds (.lookup n ps)) (r : ℤ) (hr : InU U r) (hs : w.fix .selector r ≠ 0)
    (hc : ∀ c ∈ conds, c.eval w r ≠ 0) :
    ∃ r', InU U r' ∧ w.fix .selector r' = 1 ∧ ∀ p ∈ ps, p.1.eval w r = p.2.eval w r' := by
  obtain ⟨cs', h1, h2⟩ := c01_conditional_constraints prog
  rw [hcs] at h1; cases h1
  obtain ⟨r', hr', h3, h4⟩ := ((h2 w U).1 hsat).2.1 _ _ _ ho r hr
  have hk : w.fix .selector r * condProd w r conds ≠ 0 :=
    mul_ne_zero hs ((condProd_ne_zero ..).2 hc)
  have h5 : w.fix .selector r' = 1 := by
    rcases hbin r' hr' with h0 | h0
    · exact absurd (h4.trans h0) hk
    · exact h0
  refine ⟨r', hr', h5, fun p hp => ?_⟩
  have := h3 p hp
  rwa [h4, h5, mul_one] at this

/-- **C02, inactive rows.** Where the selector or a condition is zero, the lookup requires nothing of
the looked-up tuple: it is served iff the table has a disabled usable row holding zeros. -/
theorem c02_inactive_lookup (w : Witness F) (U : ℕ) (r : ℤ) (conds : List (Query F))
    (ps : List (Query F × Query F))
    (h0 : w.fix .selector r = 0 ∨ ∃ c ∈ conds, c.eval w r = 0) :
    Served w U r (w.fix .selector r * condProd w r conds) ps ↔
      ∃ r', InU U r' ∧ w.fix .selector r' = 0 ∧ ∀ p ∈ ps, p.2.eval w r' = 0 := by
  have hk : w.fix .selector r * condProd w r conds = 0 := by
    rcases h0 with h | ⟨c, hc, h⟩
    · simp [h]
    · rw [mul_eq_zero]; right
      by_contra hne
      exact (condProd_ne_zero ..).1 hne c hc h
  rw [hk]
  simp only [Served, mul_zero]
  constructor
  · rintro ⟨r', a, b, c⟩; exact ⟨r', a, c.symm, fun p hp => (b p hp).symm⟩
  · rintro ⟨r', a, b, c⟩; exact ⟨r', a, fun p hp => (c p hp).symm, b.symm⟩

/-! ## C03 -/

/-- **C03.** In an accepted witness, a Poseidon lookup whose enclosing conditions are all non-zero
forces `hash = H(left, right; domain)`, if the external table is sound; the selector plays no part.
-/
theorem c03_active_poseidon (H : HashFn) (prog : List (Cmd Fr)) (cs : ConstraintSystem Fr)
    (hcs : Cmd.circuit prog = some cs) (w : Witness Fr) (U : ℕ) (hsat : cs.Sat w U)
    (hbin : ∀ r, InU U r → w.fix .posEnable r = 0 ∨ w.fix .posEnable r = 1)
    (hpos : PosSound H w U)
    (conds : List (Query Fr)) (n : String) (a b d h : Query Fr)
    (ho : Occurs prog conds (.poseidon n a b d h)) (r : ℤ) (hr : InU U r)
    (hc : ∀ c ∈ conds, c.eval w r ≠ 0) :
    h.eval w r = H (a.eval w r) (b.eval w r) (d.eval w r) ∧
    ∃ r', InU U r' ∧ w.fix .posEnable r' = 1 ∧ w.adv .posHead r' = 1 ∧ w.adv .posControl r' = 0 ∧
      w.adv .posLeft r' = a.eval w r ∧ w.adv .posRight r' = b.eval w r ∧
      w.adv .posDomain r' = d.eval w r ∧ w.adv .posHash r' = h.eval w r := by
  obtain ⟨cs', h1, h2⟩ := c01_conditional_constraints prog
  rw [hcs] at h1; cases h1
  have hrow := ((h2 w U).1 hsat).2.2 _ _ _ _ _ _ ho r hr
  have hk := (condProd_ne_zero w r conds).2 hc
  obtain ⟨r', hr', h3, h4, h5, h6, h7, h8, h9⟩ := hrow
  have hone : condProd w r conds = 1 := by
    rcases hbin r' hr' with h0 | h0
    · exact absurd (h3.trans h0) hk
    · exact h3.trans h0
  rw [hone] at h3 h4 h5 h6 h8 h9
  simp only [mul_one] at h4 h5 h6 h8
  refine ⟨?_, r', hr', h3.symm, h9.symm, h7.symm, h5.symm, h6.symm, h8.symm, h4.symm⟩
  rw [h4, h5, h6, h8]
  exact hpos r' hr' h3.symm h7.symm h9.symm

/-- **C03, inactive.** With a zero condition the Poseidon lookup only asks for an all-zero row. -/
theorem c03_inactive_poseidon (w : Witness F) (U : ℕ) (r : ℤ) (conds : List (Query F))
    (a b d h : F) (h0 : ∃ c ∈ conds, c.eval w r = 0) :
    Cmd.PoseidonRow w U (condProd w r conds) a b d h ↔
      ∃ r', InU U r' ∧ w.fix .posEnable r' = 0 ∧ w.adv .posHash r' = 0 ∧ w.adv .posLeft r' = 0 ∧
        w.adv .posRight r' = 0 ∧ w.adv .posControl r' = 0 ∧ w.adv .posDomain r' = 0 ∧
        w.adv .posHead r' = 0 := by
  have hk : condProd w r conds = 0 := by
    obtain ⟨c, hc, h⟩ := h0
    by_contra hne
    exact (condProd_ne_zero ..).1 hne c hc h
  rw [hk]
  simp only [Cmd.PoseidonRow, mul_zero]
  constructor
  · rintro ⟨r', a, b, c, d, e, f, g, h⟩
    exact ⟨r', a, b.symm, c.symm, d.symm, e.symm, f.symm, g.symm, h.symm⟩
  · rintro ⟨r', a, b, c, d, e, f, g, h⟩
    exact ⟨r', a, b.symm, c.symm, d.symm, e.symm, f.symm, g.symm, h.symm⟩

/-! ## C04 -/

/-- Every assertion of a program holds on an enabled row of an accepted witness. -/
theorem assert_of_sat (prog : List (Cmd F)) (cs : ConstraintSystem F)
    (hcs : Cmd.circuit prog = some cs) (w : Witness F) (U : ℕ) (hsat : cs.Sat w U)
    (n : String) (q : Query F) (hm : Cmd.assertZero n q ∈ prog) (r : ℤ) (hr : InU U r)
    (hs : w.fix .selector r ≠ 0) : q.eval w r = 0 := by
  obtain ⟨cs', h1, h2⟩ := c01_conditional_constraints prog
  rw [hcs] at h1; cases h1
  exact ((h2 w U).1 hsat).1 [] n q (.here hm trivial) r hr hs (by simp)

/-- **C04, columns.** A binary column of any circuit holds 0 or 1 on every enabled row of an accepted
witness. -/
theorem c04_binary_column (prog : List (Cmd F)) (cs : ConstraintSystem F)
    (hcs : Cmd.circuit prog = some cs) (w : Witness F) (U : ℕ) (hsat : cs.Sat w U)
    (c : AdvCol) (hc : ∀ x ∈ (binaryColumn c : List (Cmd F)), x ∈ prog) (r : ℤ) (hr : InU U r)
    (hs : w.fix .selector r ≠ 0) : w.adv c r = 0 ∨ w.adv c r = 1 := by
  have h := assert_of_sat prog cs hcs w U hsat _ _ (hc _ (List.mem_singleton.2 rfl)) r hr hs
  rw [← binaryColumn_holds (F := F) c w U r]
  simpa [binaryColumn, Cmd.assert] using h

/-- A Boolean as a field element. -/
def boolF (b : Bool) : F := if b then 1 else 0

/-- **C04, algebra.** On queries whose values are Booleans, the `BinaryQuery` operations are the
Boolean operations and `select` is if-then-else. -/
theorem c04_boolean_algebra (w : Witness F) (r : ℤ) (p q t e : Query F) (x y : Bool)
    (hp : p.eval w r = boolF x) (hq : q.eval w r = boolF y) :
    (Query.band p q).eval w r = boolF (x && y) ∧
    (Query.bor p q).eval w r = boolF (x || y) ∧
    (Query.bnot p).eval w r = boolF (!x) ∧
    (Query.select p t e).eval w r = if x then t.eval w r else e.eval w r := by
  simp only [Query.eval_band, Query.eval_bor, Query.eval_bnot, Query.eval_select, hp, hq]
  cases x <;> cases y <;> simp [boolF]

/-! ## C05 -/

/-- **C05.** The query made from a field constant evaluates to that constant everywhere. -/
theorem c05_field_constant (x : Fr) (w : Witness Fr) (r : ℤ) : (Query.fromFr x).eval w r = x :=
  Query.eval_fromFr x w r

/-! ## C06 -/

/-- **C06, soundness.** In any accepted witness of any circuit containing an IsZero gadget, on every
enabled row its output is 1 if the value is 0, and 0 otherwise. -/
theorem c06_is_zero (prog : List (Cmd F)) (cs : ConstraintSystem F)
    (hcs : Cmd.circuit prog = some cs) (w : Witness F) (U : ℕ) (hsat : cs.Sat w U)
    (g : IsZeroGadget) (hg : ∀ x ∈ (g.configure : List (Cmd F)), x ∈ prog) (r : ℤ) (hr : InU U r)
    (hs : w.fix .selector r ≠ 0) :
    (w.adv g.value r = 0 → g.current.eval w r = 1) ∧
    (w.adv g.value r ≠ 0 → g.current.eval w r = 0) := by
  classical
  have h1 := assert_of_sat prog cs hcs w U hsat _ _ (hg _ (List.mem_cons_self ..)) r hr hs
  have h2 := assert_of_sat prog cs hcs w U hsat _ _
    (hg _ (List.mem_cons_of_mem _ (List.mem_cons_self ..))) r hr hs
  have h3 : w.adv g.inverseOrZero r = (w.adv g.value r)⁻¹ := by
    rw [← IsZeroGadget.configure_holds g w U r]
    simpa [IsZeroGadget.configure] using And.intro h1 h2
  rw [IsZeroGadget.eval_current g w r h3]
  constructor <;> intro h <;> simp [h]

/-- **C06, completeness.** If on each row the inverse column is what `assign` writes for the value,
the gadget's circuit accepts, whatever the values and the other columns are. -/
theorem c06_is_zero_assign (g : IsZeroGadget) (w : Witness F) (U : ℕ)
    (ha : ∀ r, w.adv g.inverseOrZero r = IsZeroGadget.assignInverse (w.adv g.value r)) :
    ∃ cs, Cmd.circuit (g.configure : List (Cmd F)) = some cs ∧ cs.Sat w U := by
  obtain ⟨cs, h1, h2⟩ := Cmd.sat_iff (g.configure : List (Cmd F))
  refine ⟨cs, h1, (h2 w U).2 fun r hr => ?_⟩
  have := (IsZeroGadget.configure_holds g w U r).2 (ha r)
  simp only [IsZeroGadget.configure, Cmd.holdsL_cons, Cmd.holds_assertZero] at this
  simp [IsZeroGadget.configure, Cmd.LHoldsL, Cmd.LHolds] at this ⊢
  tauto

/-! ## C07 -/

section onehot
variable {T : Type} [DecidableEq T] [EnumIter T]

/-- **C07, soundness.** On an enabled row of an accepted witness of any circuit containing a one-hot
gadget with fewer variants than the field has elements, exactly one variant is represented:
`current()` is its index in declaration order and the match queries are membership tests; the queries
for the previous and the next row read the same variant from the neighbouring rows. -/
theorem c07_one_hot (prog : List (Cmd Fr)) (cs : ConstraintSystem Fr)
    (hcs : Cmd.circuit prog = some cs) (w : Witness Fr) (U : ℕ) (hsat : cs.Sat w U)
    (o : OneHot T) (ho : ∀ x ∈ (o.configure : List (Cmd Fr)), x ∈ prog)
    (hT : (EnumIter.iter : List T).length < frModulus) (r : ℤ) (hr : InU U r)
    (hs : w.fix .selector r ≠ 0) :
    ∃! t : T, (o.index 0).eval w r = (((EnumIter.iter : List T).idxOf t : ℕ) : Fr) ∧
      (o.index (-1)).eval w (r + 1) = (((EnumIter.iter : List T).idxOf t : ℕ) : Fr) ∧
      ∀ vs : List T, vs.Nodup → (o.curMatches vs).eval w r = boolF (decide (t ∈ vs)) ∧
        (o.prevMatches vs).eval w (r + 1) = boolF (decide (t ∈ vs)) ∧
        (o.nextMatches vs).eval w (r - 1) = boolF (decide (t ∈ vs)) := by
  have hall : Cmd.HoldsL w U r (o.configure : List (Cmd Fr)) := by
    rw [Cmd.holdsL_iff]
    intro c hc
    have hp := ho c hc
    simp only [OneHot.configure, List.mem_append, List.mem_flatMap, List.mem_singleton,
      binaryColumn] at hc
    rcases hc with ⟨v, hv, rfl⟩ | rfl <;>
    · have := assert_of_sat prog cs hcs w U hsat _ _ hp r hr hs
      simpa [Cmd.assert] using this
  have hlen : (OneHot.nonfirstVariants : List T).length < frModulus := by
    refine lt_of_le_of_lt ?_ hT
    simp [OneHot.nonfirstVariants]
  obtain ⟨t, ht⟩ := OneHot.exists_repr o w r
    (fun n hn h0 => natCast_inj_of_lt (by omega) (Nat.pos_of_ne_zero frModulus_prime.ne_zero)
      (by simpa using h0))
    (fun n hn h0 => natCast_inj_of_lt (by omega) frModulus_prime.one_lt (by simpa using h0))
    ((OneHot.configure_holds o w U r).1 hall)
  have ht' : o.Repr w (r + 0) t := by simpa using ht
  have hp : o.Repr w (r + 1 + -1) t := by rwa [add_neg_cancel_right]
  have hn : o.Repr w (r - 1 + 1) t := by rwa [sub_add_cancel]
  refine ⟨t, ⟨OneHot.eval_index o w r 0 t ht', OneHot.eval_index o w (r + 1) (-1) t hp,
    fun vs hvs => ⟨?_, ?_, ?_⟩⟩, ?_⟩
  · rw [OneHot.curMatches, OneHot.eval_matches o w r 0 t vs hvs ht', boolF]
    simp
  · rw [OneHot.prevMatches, OneHot.eval_matches o w (r + 1) (-1) t vs hvs hp, boolF]
    simp
  · rw [OneHot.nextMatches, OneHot.eval_matches o w (r - 1) 1 t vs hvs hn, boolF]
    simp
  · rintro t' ⟨_, -, h2⟩
    have e1 := (h2 [t'] (by simp)).1
    rw [OneHot.curMatches, OneHot.eval_matches o w r 0 t [t'] (by simp) ht'] at e1
    by_contra hne
    simp [boolF, Ne.symm hne] at e1

/-- **C07, completeness.** Assigning any variant on a row (of an otherwise unassigned gadget) is
accepted by the gadget's circuit and read back: the index query gives the variant's index. A row
that is never assigned represents the first variant. -/
theorem c07_one_hot_assign (o : OneHot T) (w : Witness Fr) (U : ℕ) (val : ℤ → Option T)
    (ha : ∀ r v, v ∈ (OneHot.nonfirstVariants : List T) → w.adv (o.column v) r =
      match val r with | some t => OneHot.assignCell t v | none => 0) :
    (∃ cs, Cmd.circuit (o.configure : List (Cmd Fr)) = some cs ∧ cs.Sat w U) ∧
    ∀ r, (o.index 0).eval w r =
      (((EnumIter.iter : List T).idxOf ((val r).getD EnumIter.first) : ℕ) : Fr) := by
  have hrep : ∀ r, o.Repr w r ((val r).getD EnumIter.first) := by
    intro r v hv
    rw [ha r v hv]
    cases hv2 : val r with
    | none =>
      have : v ≠ EnumIter.first := (OneHot.mem_tail_iff v).1 hv
      simp [this]
    | some t => simp [OneHot.assignCell, hv]
  constructor
  · obtain ⟨cs, h1, h2⟩ := Cmd.sat_iff (o.configure : List (Cmd Fr))
    refine ⟨cs, h1, (h2 w U).2 fun r hr => ?_⟩
    have hh := OneHot.holds_of_repr o w U r _ (hrep r)
    rw [lholdsL_occurs]
    intro conds a hoc
    have hall : ∀ x ∈ (o.configure : List (Cmd Fr)), ∃ n q, x = .assertZero n q := by
      intro c hc
      simp only [OneHot.configure, List.mem_append, List.mem_flatMap, List.mem_singleton,
        binaryColumn] at hc
      rcases hc with ⟨v, hv, rfl⟩ | rfl <;> exact ⟨_, _, rfl⟩
    cases hoc with
    | here hm hat =>
      obtain ⟨n, q, rfl⟩ := hall _ hm
      have := (Cmd.holdsL_iff w U r _).1 hh _ hm
      rw [Cmd.holds_assertZero] at this
      simp [Cmd.LHolds, this]
    | under hm hb =>
      obtain ⟨n, q, h⟩ := hall _ hm
      cases h
  · intro r
    exact OneHot.eval_index o w r 0 _ (by simpa using hrep r)
end onehot

/-- The enums of the circuit are small enough for C07. -/
example : (EnumIter.iter : List MPTProofType).length < frModulus ∧
    (EnumIter.iter : List SegmentType).length < frModulus ∧
    (EnumIter.iter : List PathType).length < frModulus := by
  have : (16 : ℕ) < frModulus := by unfold frModulus; norm_num
  refine ⟨lt_of_le_of_lt ?_ this, lt_of_le_of_lt ?_ this, lt_of_le_of_lt ?_ this⟩ <;> decide

/-! ## C08 -/

/-- **C08.** With the fixed assignment of an `n`-row circuit (`n` at least what the gadget requires),
a triple is on an enabled row of the byte/bit table iff it is (byte, index, that bit of the byte). -/
theorem c08_byte_bit (n : ℕ) (w : Witness Fr) (hf : FixedOK n w) (hn : ByteBit.nRowsRequired ≤ n)
    (x y z : Fr) :
    (∃ r, w.fix .selector r = 1 ∧
      ByteBit.lookup.map (fun q => q.eval w r) = [x, y, z]) ↔
    ∃ b i : ℕ, b < 256 ∧ i < 8 ∧ x = b ∧ y = i ∧ z = boolF (b.testBit i) := by
  simp only [ByteBit.lookup, List.map_cons, List.map_nil, FixCol.eval_cur, List.cons.injEq,
    and_true]
  constructor
  · rintro ⟨r, _, h1, h2, h3⟩
    obtain ⟨b, i, hb, hi, e1, e2, e3⟩ := bb_row hf r
    exact ⟨b, i, hb, hi, h1.symm.trans e1, h2.symm.trans e2, h3.symm.trans (by rw [e3, boolF])⟩
  · rintro ⟨b, i, hb, hi, rfl, rfl, rfl⟩
    obtain ⟨r, hr, e1, e2, e3⟩ := bb_complete hf hn b i hb hi
    exact ⟨r, (sel_eq_one_iff hf r).2 hr, e1, e2, by rw [e3, boolF]⟩

/-- **C08, range checks.** The single-column lookups accept exactly `0..255` and `0..7`. -/
theorem c08_range_checks (n : ℕ) (w : Witness Fr) (hf : FixedOK n w)
    (hn : ByteBit.nRowsRequired ≤ n) (x : Fr) :
    ((∃ r, w.fix .selector r = 1 ∧ ByteBit.rangeCheck256.eval w r = x) ↔ x.val < 256) ∧
    ((∃ r, w.fix .selector r = 1 ∧ ByteBit.rangeCheck8.eval w r = x) ↔ x.val < 8) := by
  have hbig : (256 : ℕ) < frModulus := lt_trans (by norm_num) frModulus_big
  constructor
  · constructor
    · rintro ⟨r, _, h⟩
      obtain ⟨b, i, hb, hi, e1, _⟩ := bb_row hf r
      simp only [ByteBit.rangeCheck256, FixCol.eval_cur] at h
      rw [← h, e1, ZMod.val_natCast, Nat.mod_eq_of_lt (by omega)]
      exact hb
    · intro h
      obtain ⟨r, hr, e1, _⟩ := bb_complete hf hn x.val 0 h (by norm_num)
      exact ⟨r, (sel_eq_one_iff hf r).2 hr, by
        simp only [ByteBit.rangeCheck256, FixCol.eval_cur, e1]; exact ZMod.natCast_zmod_val x⟩
  · constructor
    · rintro ⟨r, _, h⟩
      obtain ⟨b, i, hb, hi, _, e1, _⟩ := bb_row hf r
      simp only [ByteBit.rangeCheck8, FixCol.eval_cur] at h
      rw [← h, e1, ZMod.val_natCast, Nat.mod_eq_of_lt (by omega)]
      exact hi
    · intro h
      obtain ⟨r, hr, _, e1, _⟩ := bb_complete hf hn 0 x.val (by norm_num) h
      exact ⟨r, (sel_eq_one_iff hf r).2 hr, by
        simp only [ByteBit.rangeCheck8, FixCol.eval_cur, e1]; exact ZMod.natCast_zmod_val x⟩

/-- `FixedOK` is satisfiable for every `n`. -/
example (n : ℕ) : FixedOK n ⟨fun _ _ => 0, fixedCell n, 0⟩ := fun _ _ _ => rfl

/-! ## C40 -/

/-- **C40.** For at least two points with distinct x coordinates, `lagrange_polynomial` does not
panic and returns a query that takes the value of the i-th y query wherever its argument takes the
value of the i-th x coordinate; otherwise it panics. -/
theorem c40_lagrange (arg : Query Fr) (points : List (Fr × Query Fr)) :
    (2 ≤ points.length → (points.map (·.1)).Nodup →
      ∃ q, lagrangePolynomial arg points = some q ∧ ∀ (w : Witness Fr) (r : ℤ), ∀ p ∈ points,
        arg.eval w r = p.1 → q.eval w r = p.2.eval w r) ∧
    (points.length < 2 ∨ ¬ (points.map (·.1)).Nodup → lagrangePolynomial arg points = none) :=
  ⟨lagrangePolynomial_spec arg points, lagrangePolynomial_panics arg points⟩

end Mpt.Props
