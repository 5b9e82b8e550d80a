import Verif.Gadgets.IsZero

set_option autoImplicit false

/-!
# Model of /repo/src/gadgets/one_hot.rs
-/

set_option linter.unusedSectionVars false
set_option linter.unusedVariables false

namespace Mpt

/-- strum's `IntoEnumIterator`: the variants of an enum in declaration order. -/
class EnumIter (T : Type) [DecidableEq T] where
  iter : List T
  nodup : iter.Nodup
  complete : ∀ t, t ∈ iter
  first : T
  iter_eq : iter = first :: iter.tail

instance : EnumIter MPTProofType where
  iter := MPTProofType.iter
  nodup := by decide
  complete := by intro t; cases t <;> decide
  first := .NonceChanged
  iter_eq := rfl

instance : EnumIter SegmentType where
  iter := SegmentType.iter
  nodup := by decide
  complete := by intro t; cases t <;> decide
  first := .Start
  iter_eq := rfl

instance : EnumIter PathType where
  iter := PathType.iter
  nodup := by decide
  complete := by intro t; cases t <;> decide
  first := .Start
  iter_eq := rfl

/-- `OneHot<T>`, one_hot.rs:9-12: the map from the non-first variants to binary columns. -/
structure OneHot (T : Type) where
  column : T → AdvCol

namespace OneHot
variable {T : Type} [DecidableEq T] [EnumIter T] {F : Type} [Field F]

/-- `nonfirst_variants`, one_hot.rs:94-98. -/
def nonfirstVariants : List T := (EnumIter.iter : List T).tail

/-- `self.columns.get(&v)`: present exactly for the non-first variants, one_hot.rs:19-22. -/
def get? (o : OneHot T) (v : T) : Option AdvCol :=
  if v ∈ (nonfirstVariants : List T) then some (o.column v) else none

/-- `sum`, one_hot.rs:86-92. -/
def sum (o : OneHot T) (rot : ℤ) : Query F :=
  (nonfirstVariants : List T).foldl (fun a v => a + (o.column v).rot rot) 0

/-- `matches`, one_hot.rs:53-65. -/
def «matches» (o : OneHot T) (values : List T) (rot : ℤ) : Query F :=
  (values.map (fun v => match o.get? v with
    | none => Query.bnot (o.sum rot)
    | some c => c.rot rot)).foldl (· + ·) 0

/-- `previous_matches`, one_hot.rs:41-43. -/
def prevMatches (o : OneHot T) (values : List T) : Query F := o.matches values (-1)
/-- `current_matches`, one_hot.rs:45-47. -/
def curMatches (o : OneHot T) (values : List T) : Query F := o.matches values 0
/-- `next_matches`, one_hot.rs:49-51. -/
def nextMatches (o : OneHot T) (values : List T) : Query F := o.matches values 1

/-- `current`/`previous` (`rot = 0`/`-1`), one_hot.rs:67-84. -/
def index (o : OneHot T) (rot : ℤ) : Query F :=
  (EnumIter.iter : List T).zipIdx.foldl (fun acc p => acc + Query.ofNat p.2 *
    (match o.get? p.1 with
      | none => Query.bnot (o.sum rot)
      | some c => c.rot rot)) 0

/-- `OneHot::configure`, one_hot.rs:15-29. -/
def configure (o : OneHot T) : List (Cmd F) :=
  (nonfirstVariants : List T).flatMap (fun v => binaryColumn (o.column v)) ++
  [.assert "sum of binary columns in OneHot is 0 or 1"
    (Query.bor (o.sum 0) (Query.bnot (o.sum 0)))]

/-- `OneHot::assign`, one_hot.rs:31-40, on a previously unassigned (all-zero) row: the content of
the column of variant `v` after assigning `value`. -/
def assignCell (value v : T) : F :=
  if v ∈ (nonfirstVariants : List T) ∧ v = value then 1 else 0

/-- The column of variant `t` (as `matches` sees it) holds 1 exactly for the represented variant.
For /repo/src/gadgets/one_hot.rs:54-65. -/
def Repr (o : OneHot T) (w : Witness F) (r : ℤ) (t : T) : Prop :=
  ∀ v ∈ (nonfirstVariants : List T), w.adv (o.column v) r = if v = t then 1 else 0

/-- Decoding of a row: the first non-first variant whose column is 1, else the first variant.
For /repo/src/gadgets/one_hot.rs:54-65. -/
def decode [DecidableEq F] (o : OneHot T) (w : Witness F) (r : ℤ) : T :=
  ((nonfirstVariants : List T).find? (fun v => w.adv (o.column v) r = 1)).getD EnumIter.first

theorem nodup_tail : (nonfirstVariants : List T).Nodup := by
  have h : (EnumIter.iter : List T).Nodup := EnumIter.nodup
  rw [EnumIter.iter_eq] at h
  exact (List.nodup_cons.1 h).2

theorem first_not_mem : (EnumIter.first : T) ∉ (nonfirstVariants : List T) := by
  have h : (EnumIter.iter : List T).Nodup := EnumIter.nodup
  rw [EnumIter.iter_eq] at h
  exact (List.nodup_cons.1 h).1

theorem mem_tail_iff (t : T) : t ∈ (nonfirstVariants : List T) ↔ t ≠ EnumIter.first := by
  constructor
  · rintro h rfl
    exact first_not_mem h
  · intro h
    have : t ∈ (EnumIter.iter : List T) := EnumIter.complete t
    rw [EnumIter.iter_eq, List.mem_cons] at this
    exact this.resolve_left h

theorem eval_foldl_add {α : Type} (l : List α) (f : α → Query F) (q : Query F) (w : Witness F)
    (r : ℤ) :
    (l.foldl (fun a v => a + f v) q).eval w r = q.eval w r + (l.map (fun v => (f v).eval w r)).sum := by
  induction l generalizing q with
  | nil => simp
  | cons a l ih => simp [ih, add_assoc]

theorem eval_sum (o : OneHot T) (w : Witness F) (r rot : ℤ) :
    (o.sum rot : Query F).eval w r =
      ((nonfirstVariants : List T).map (fun v => w.adv (o.column v) (r + rot))).sum := by
  simp only [sum, eval_foldl_add, Query.eval_zero, zero_add, AdvCol.eval_rot]

theorem sum_indicator (l : List T) (hl : l.Nodup) (t : T) :
    (l.map (fun v => if v = t then (1 : F) else 0)).sum = if t ∈ l then 1 else 0 := by
  induction l with
  | nil => simp
  | cons a l ih =>
    rw [List.nodup_cons] at hl
    simp only [List.map_cons, List.sum_cons, ih hl.2, List.mem_cons]
    by_cases h : a = t
    · subst h; simp [hl.1]
    · simp [h, Ne.symm h]

theorem eval_sum_of_repr (o : OneHot T) (w : Witness F) (r rot : ℤ) (t : T)
    (h : o.Repr w (r + rot) t) :
    (o.sum rot : Query F).eval w r = if t = EnumIter.first then 0 else 1 := by
  rw [eval_sum]
  have : ((nonfirstVariants : List T).map (fun v => w.adv (o.column v) (r + rot))) =
      ((nonfirstVariants : List T).map (fun v => if v = t then (1 : F) else 0)) := by
    apply List.map_congr_left
    intro v hv
    exact h v hv
  rw [this, sum_indicator _ nodup_tail]
  simp only [mem_tail_iff]
  by_cases ht : t = EnumIter.first <;> simp [ht]

/-- The query for a single listed value. -/
theorem eval_term_of_repr (o : OneHot T) (w : Witness F) (r rot : ℤ) (t v : T)
    (h : o.Repr w (r + rot) t) :
    (match o.get? v with
      | none => Query.bnot (o.sum rot)
      | some c => c.rot rot : Query F).eval w r = if v = t then 1 else 0 := by
  unfold get?
  by_cases hv : v ∈ (nonfirstVariants : List T)
  · simp only [hv, if_true, AdvCol.eval_rot]
    exact h v hv
  · simp only [hv, if_false, Query.eval_bnot, eval_sum_of_repr o w r rot t h]
    have hv' : v = EnumIter.first := by
      by_contra hne
      exact hv ((mem_tail_iff v).2 hne)
    subst hv'
    by_cases ht : t = EnumIter.first
    · simp [ht]
    · simp [ht, Ne.symm ht]

/-- `matches` on a row representing `t` counts the occurrences of `t` among the listed values. -/
theorem eval_matches (o : OneHot T) (w : Witness F) (r rot : ℤ) (t : T) (vs : List T)
    (hvs : vs.Nodup) (h : o.Repr w (r + rot) t) :
    (o.matches vs rot : Query F).eval w r = if t ∈ vs then 1 else 0 := by
  unfold «matches»
  rw [show (fun (a b : Query F) => a + b) = (fun a v => a + id v) from rfl, eval_foldl_add]
  simp only [Query.eval_zero, zero_add, List.map_map]
  rw [← sum_indicator vs hvs t]
  congr 1
  apply List.map_congr_left
  intro v _
  exact eval_term_of_repr o w r rot t v h

theorem eval_index (o : OneHot T) (w : Witness F) (r rot : ℤ) (t : T)
    (h : o.Repr w (r + rot) t) :
    (o.index rot : Query F).eval w r = (((EnumIter.iter : List T).idxOf t : ℕ) : F) := by
  unfold index
  rw [eval_foldl_add]
  simp only [Query.eval_zero, zero_add, Query.eval_mul, Query.eval_ofNat]
  have h1 : ((EnumIter.iter : List T).zipIdx.map (fun v => ((v.2 : ℕ) : F) *
      (match o.get? v.1 with
      | none => Query.bnot (o.sum rot)
      | some c => c.rot rot : Query F).eval w r)) =
      ((EnumIter.iter : List T).zipIdx.map (fun v => if v.1 = t then ((v.2 : ℕ) : F) else 0)) := by
    apply List.map_congr_left
    intro v _
    rw [eval_term_of_repr o w r rot t v.1 h]
    split <;> simp
  rw [h1]
  have key : ∀ (l : List T) (n : ℕ), l.Nodup → t ∈ l →
      ((l.zipIdx n).map (fun v => if v.1 = t then ((v.2 : ℕ) : F) else 0)).sum
        = ((n + l.idxOf t : ℕ) : F) := by
    intro l
    induction l with
    | nil => intro n _ h; simp at h
    | cons a l ih =>
      intro n hl hm
      rw [List.nodup_cons] at hl
      simp only [List.zipIdx_cons, List.map_cons, List.sum_cons]
      by_cases ha : a = t
      · subst ha
        have hz : ∀ m, ((l.zipIdx m).map (fun v => if v.1 = a then ((v.2 : ℕ) : F) else 0)).sum = 0 := by
          intro m
          apply List.sum_eq_zero
          intro x hx
          rw [List.mem_map] at hx
          obtain ⟨p, hp, rfl⟩ := hx
          have : p.1 ∈ l := List.fst_mem_of_mem_zipIdx hp
          have : p.1 ≠ a := by rintro rfl; exact hl.1 this
          simp [this]
        simp [hz]
      · rw [ih (n + 1) hl.2 ((List.mem_cons.1 hm).resolve_left (Ne.symm ha))]
        rw [List.idxOf_cons_ne l ha]
        simp only [ha, if_false, zero_add, Nat.succ_eq_add_one]
        push_cast; ring
  have := key EnumIter.iter 0 EnumIter.nodup (EnumIter.complete t)
  simpa using this

theorem repr_unique [DecidableEq F] (o : OneHot T) (w : Witness F) (r : ℤ) (t : T)
    (h : o.Repr w r t) : o.decode w r = t := by
  unfold decode
  by_cases ht : t = EnumIter.first
  · have : (nonfirstVariants : List T).find? (fun v => w.adv (o.column v) r = 1) = none := by
      rw [List.find?_eq_none]
      intro v hv
      have hne : v ≠ t := by rw [ht]; exact (mem_tail_iff v).1 hv
      simp [h v hv, hne]
    rw [this, ht]; rfl
  · have hm := (mem_tail_iff t).2 ht
    rcases hf : (nonfirstVariants : List T).find? (fun v => w.adv (o.column v) r = 1) with _ | v
    · rw [List.find?_eq_none] at hf
      have := hf t hm
      simp [h t hm] at this
    · have h1 := List.find?_some hf
      have h2 := List.mem_of_find?_eq_some hf
      simp only [decide_eq_true_eq] at h1
      rw [h v h2] at h1
      by_cases hvt : v = t
      · simp [hvt]
      · simp [hvt] at h1

/-- `0/1` list with `0/1` sum (in a field where small naturals do not collapse) has at most one
`1`. -/
theorem one_of_sum (l : List T) (hl : l.Nodup) (f : T → F)
    (hchar : ∀ n : ℕ, n ≤ l.length → (n : F) = 0 → n = 0)
    (hchar1 : ∀ n : ℕ, n ≤ l.length → (n : F) = 1 → n = 1)
    (hf : ∀ v ∈ l, f v = 0 ∨ f v = 1) (hs : (l.map f).sum = 0 ∨ (l.map f).sum = 1) :
    (∀ v ∈ l, f v = 0) ∨ ∃ t ∈ l, ∀ v ∈ l, f v = if v = t then 1 else 0 := by
  classical
  have hcount : ∀ (l : List T), (∀ v ∈ l, f v = 0 ∨ f v = 1) →
      (l.map f).sum = ((l.countP (fun v => f v = 1) : ℕ) : F) := by
    intro l hl
    induction l with
    | nil => simp
    | cons a l ih =>
      rw [List.map_cons, List.sum_cons, ih (fun v hv => hl v (List.mem_cons_of_mem _ hv)),
        List.countP_cons]
      rcases hl a (List.mem_cons_self ..) with h | h
      · simp [h]
      · simp [h, add_comm]
  rw [hcount l hf] at hs
  have hle : l.countP (fun v => f v = 1) ≤ l.length := List.countP_le_length
  rcases hs with hs | hs
  · left
    have := hchar _ hle hs
    rw [List.countP_eq_zero] at this
    intro v hv
    rcases hf v hv with h | h
    · exact h
    · exact absurd (by simpa using h) (this v hv)
  · right
    have h1 := hchar1 _ hle hs
    have hpos : 0 < l.countP (fun v => f v = 1) := by omega
    obtain ⟨t, ht, htf⟩ := List.countP_pos_iff.1 hpos
    refine ⟨t, ht, fun v hv => ?_⟩
    by_cases hvt : v = t
    · subst hvt; simpa using htf
    · rw [if_neg hvt]
      rcases hf v hv with h | h
      · exact h
      · exfalso
        have h2 : [v, t].Subperm l := by
          apply List.Nodup.subperm
          · simp [hvt]
          · intro x hx
            simp only [List.mem_cons, List.not_mem_nil, or_false] at hx
            rcases hx with rfl | rfl <;> assumption
        have := h2.countP_le (fun v => decide (f v = 1))
        simp only [decide_eq_true_eq] at htf
        simp [h, htf] at this
        omega

theorem configure_holds (o : OneHot T) (w : Witness F) (U : ℕ) (r : ℤ) :
    Cmd.HoldsL w U r (o.configure) ↔
      (∀ v ∈ (nonfirstVariants : List T), w.adv (o.column v) r = 0 ∨ w.adv (o.column v) r = 1) ∧
      (((nonfirstVariants : List T).map (fun v => w.adv (o.column v) r)).sum = 0 ∨
       ((nonfirstVariants : List T).map (fun v => w.adv (o.column v) r)).sum = 1) := by
  unfold configure
  rw [Cmd.holdsL_append]
  apply and_congr
  · simp only [Cmd.holdsL_iff, List.mem_flatMap]
    constructor
    · intro h v hv
      rw [← binaryColumn_holds (F := F) (o.column v) w U r, Cmd.holdsL_iff]
      intro c hc
      exact h c ⟨v, hv, hc⟩
    · rintro h c ⟨v, hv, hc⟩
      exact (Cmd.holdsL_iff ..).1 ((binaryColumn_holds (F := F) (o.column v) w U r).2 (h v hv)) c hc
  · simp only [Cmd.holdsL_cons, Cmd.holdsL_nil, and_true, Cmd.holds_assert, Query.eval_bor,
      Query.eval_bnot, eval_sum, add_zero]
    rw [sub_eq_iff_eq_add, left_eq_add, sub_sub_cancel, mul_eq_zero, sub_eq_zero, eq_comm,
      or_comm]

/-- A row satisfying the constraints represents a variant. -/
theorem exists_repr (o : OneHot T) (w : Witness F) (r : ℤ)
    (hchar : ∀ n : ℕ, n ≤ (nonfirstVariants : List T).length → (n : F) = 0 → n = 0)
    (hchar1 : ∀ n : ℕ, n ≤ (nonfirstVariants : List T).length → (n : F) = 1 → n = 1)
    (h : (∀ v ∈ (nonfirstVariants : List T), w.adv (o.column v) r = 0 ∨ w.adv (o.column v) r = 1) ∧
      (((nonfirstVariants : List T).map (fun v => w.adv (o.column v) r)).sum = 0 ∨
       ((nonfirstVariants : List T).map (fun v => w.adv (o.column v) r)).sum = 1)) :
    ∃ t, o.Repr w r t := by
  rcases one_of_sum nonfirstVariants nodup_tail (fun v => w.adv (o.column v) r) hchar hchar1
    h.1 h.2 with h0 | ⟨t, ht, h1⟩
  · refine ⟨EnumIter.first, fun v hv => ?_⟩
    rw [if_neg ((mem_tail_iff v).1 hv)]
    exact h0 v hv
  · exact ⟨t, h1⟩

/-- A row representing a variant satisfies the constraints. -/
theorem holds_of_repr (o : OneHot T) (w : Witness F) (U : ℕ) (r : ℤ) (t : T) (h : o.Repr w r t) :
    Cmd.HoldsL w U r o.configure := by
  rw [configure_holds]
  refine ⟨fun v hv => ?_, ?_⟩
  · rw [h v hv]; split <;> simp
  · have := eval_sum_of_repr (F := F) o w r 0 t (by simpa using h)
    rw [eval_sum] at this
    simp only [add_zero] at this
    rw [this]; split <;> simp

end OneHot
end Mpt
