import Verif.Assign.Witness

set_option autoImplicit false

/-!
# Witnesses made of runs

The update columns of an assembled witness are a list of runs (one per update), followed by padding
rows. If every run satisfies its row relations wherever it is placed, the witness is accepted.
-/

namespace Mpt
open Spec MptUpdate

variable {H : HashFn} {w : Witness Fr} {U : ℕ}

/-- The row relations of consecutive rows `l` from row `r` on, `prev` being the row before; after the
last row comes a Start row. -/
def RowsOK (H : HashFn) (w : Witness Fr) (U : ℕ) : ℤ → URow → List URow → Prop
  | _, _, [] => True
  | r, prev, u :: l => RowRel H w U r u.seg (l.headD .blank).seg prev.path u.path
      (l.headD .blank).path prev.proof u.proof ∧ RowsOK H w U (r + 1) u l

/-- The update cells of rows `r, r + 1, …` are `l`. -/
def AtRows (w : Witness Fr) : ℤ → List URow → Prop
  | _, [] => True
  | r, u :: l => AtRow w r u ∧ AtRows w (r + 1) l

/-- A Start row. -/
def URow.isStart (u : URow) : Prop := u.seg = .Start ∧ u.path = .Start

/-- A run: non-empty, begins with a Start row, and satisfies the row relations wherever it is placed,
if a Start row follows. -/
structure RunSat (H : HashFn) (w : Witness Fr) (U : ℕ) (run : List URow) : Prop where
  ne : run ≠ []
  start : (run.headD .blank).isStart
  ok : ∀ (r : ℤ) (prev : URow), AtRow w (r - 1) prev → AtRows w r run → RowsOK H w U r prev run

theorem atRows_append (r : ℤ) (a b : List URow) :
    AtRows w r (a ++ b) ↔ AtRows w r a ∧ AtRows w (r + a.length) b := by
  induction a generalizing r with
  | nil => simp [AtRows]
  | cons u a ih =>
    simp only [List.cons_append, AtRows, ih, and_assoc, List.length_cons]
    have : r + 1 + (a.length : ℤ) = r + ((a.length + 1 : ℕ) : ℤ) := by push_cast; ring
    rw [this]

theorem headD_append {a b : List URow} (h : a ≠ []) : (a ++ b).headD .blank = a.headD .blank := by
  cases a with
  | nil => exact absurd rfl h
  | cons u a => rfl

/-- The row relations only look at the type of the following row. -/
theorem rowsOK_append (r : ℤ) (prev : URow) (a b : List URow) (hb : (b.headD .blank).isStart) :
    RowsOK H w U r prev (a ++ b) ↔
      RowsOK H w U r prev a ∧ RowsOK H w U (r + a.length) (a.getLastD prev) b := by
  induction a generalizing r prev with
  | nil => simp [RowsOK]
  | cons u a ih =>
    simp only [List.cons_append, RowsOK, ih, and_assoc, List.length_cons]
    have e : r + 1 + (a.length : ℤ) = r + ((a.length + 1 : ℕ) : ℤ) := by push_cast; ring
    have e2 : (u :: a).getLastD prev = a.getLastD u := by
      cases a <;> simp [List.getLastD]
    rw [e, e2]
    apply and_congr_left
    intro _
    cases a with
    | nil => simp only [List.nil_append, List.headD_nil, hb.1, hb.2]; rfl
    | cons v a => rfl

theorem rowsOK_flatten (runs : List (List URow)) (hr : ∀ run ∈ runs, RunSat H w U run)
    (r : ℤ) (prev : URow) (hp : AtRow w (r - 1) prev) (ha : AtRows w r runs.flatten) :
    RowsOK H w U r prev runs.flatten := by
  induction runs generalizing r prev with
  | nil => simp [RowsOK]
  | cons run runs ih =>
    rw [List.flatten_cons, atRows_append] at ha
    have h1 := hr run (by simp)
    have hstart : (runs.flatten.headD URow.blank).isStart := by
      cases runs with
      | nil => exact ⟨rfl, rfl⟩
      | cons run2 runs =>
        rw [List.flatten_cons, headD_append (hr run2 (by simp)).ne]
        exact (hr run2 (by simp)).start
    rw [List.flatten_cons, rowsOK_append _ _ _ _ hstart]
    refine ⟨h1.ok r prev hp ha.1, ih (fun x hx => hr x (by simp [hx])) _ _ ?_ ha.2⟩
    have hlast : ∀ (l : List URow) (r : ℤ) (prev : URow), AtRow w (r - 1) prev → AtRows w r l →
        AtRow w (r + l.length - 1) (l.getLastD prev) := by
      intro l
      induction l with
      | nil => intro r prev hp _; simpa using hp
      | cons u l ih =>
        intro r prev _ h
        have e2 : (u :: l).getLastD prev = l.getLastD u := by
          cases l <;> simp [List.getLastD]
        rw [e2]
        have := ih (r + 1) u (by simpa using h.1) h.2
        have e : r + 1 + (l.length : ℤ) - 1 = r + ((l.length + 1 : ℕ) : ℤ) - 1 := by push_cast; ring
        rwa [e] at this
    exact hlast run r prev hp ha.1

theorem rowsOK_get (l : List URow) (r : ℤ) (prev : URow) (h : RowsOK H w U r prev l) (k : ℕ)
    (hk : k < l.length) : RowRel H w U (r + k) (l.getD k .blank).seg (l.getD (k + 1) .blank).seg
      (if k = 0 then prev else l.getD (k - 1) .blank).path (l.getD k .blank).path
      (l.getD (k + 1) .blank).path (if k = 0 then prev else l.getD (k - 1) .blank).proof
      (l.getD k .blank).proof := by
  induction l generalizing r prev k with
  | nil => simp at hk
  | cons u l ih =>
    cases k with
    | zero =>
      have := h.1
      cases l <;> simpa using this
    | succ k =>
      have := ih (r + 1) u h.2 k (by simpa using hk)
      have e : r + 1 + (k : ℤ) = r + ((k + 1 : ℕ) : ℤ) := by push_cast; ring
      rw [e] at this
      cases k <;> simpa using this

/-- The padding row satisfies its relations: it only looks up zeros. -/
theorem padding_sat (h0 : P1 w U 0 0 HashDomain.Pair.toFr (zeroPairHash H))
    (hb : InBytes w U 0 15) (hb3 : InBytes w U 0 3) (hf : InFrRlc w U 0 0) :
    RunSat H w U [.padding H] := by
  refine ⟨by simp, ⟨rfl, rfl⟩, ?_⟩
  intro r prev hp ha
  refine ⟨?_, trivial⟩
  have hat := ha.1
  refine ⟨by simp [URow.padding], ?_, ?_, ?_, ?_, ?_, ?_, ?_⟩
  · intro _
    simp only [StartRel, hat.iv, hat.sp, hat.key, hat.oldHash, hat.newHash, URow.padding, zero_mul]
    exact ⟨h0, hb, hb3, hf, hf⟩
  · refine ⟨fun h => absurd rfl h, fun h => absurd rfl h, ?_, ?_⟩
    · rintro (h | h) <;> simp [URow.padding] at h
    · intro _ _; rw [hat.depth]; rfl
  · show PathType.Start ∈ forwardTransitions PathType.Start
    decide
  · simp [URow.padding, PathRel]
  · exact ⟨.Pair, by simp [URow.padding, domains], by rw [hat.domain]; rfl⟩
  · simp [URow.padding, URow.blank, transitions]
  · simp only [URow.padding, ProofRel, EmptyAccountRel, hat.oldValue, hat.newValue, hat.oldHash,
      hat.newHash, true_and, Nonexist, hat.iz, hat.key, hat.otherKey, sub_self]
    simp

/-- Runs that satisfy their relations, followed by padding, satisfy the row relation on every row. -/
theorem rowRel_of_runs {H : HashFn} {w : Witness Fr} {U : ℕ} {rows : List URow}
    (hw : ∀ r, AtRow w r (rowAt rows r)) (runs : List (List URow)) (m : ℕ)
    (hrows : rows = runs.flatten ++ List.replicate m (.padding H))
    (hpad : RunSat H w U [.padding H]) (hruns : ∀ run ∈ runs, RunSat H w U run) (k : ℕ)
    (hk : k < rows.length) :
    RowRel H w U ((k : ℤ) + 1)
      (rowAt rows ((k : ℤ) + 1)).seg (rowAt rows ((k : ℤ) + 1 + 1)).seg
      (rowAt rows ((k : ℤ) + 1 - 1)).path (rowAt rows ((k : ℤ) + 1)).path
      (rowAt rows ((k : ℤ) + 1 + 1)).path (rowAt rows ((k : ℤ) + 1 - 1)).proof
      (rowAt rows ((k : ℤ) + 1)).proof := by
  have hfl : rows = (runs ++ List.replicate m [URow.padding H]).flatten := by
    rw [hrows, List.flatten_append]
    congr 1
    clear hrows
    induction m with
    | zero => rfl
    | succ m ih => rw [List.replicate_succ, List.replicate_succ, List.flatten_cons, ← ih]; rfl
  have hat : AtRows w 1 rows := by
    have key : ∀ (pre l : List URow), rows = pre ++ l → AtRows w (1 + pre.length) l := by
      intro pre l
      induction l generalizing pre with
      | nil => intro _; trivial
      | cons u l ih =>
        intro e
        refine ⟨?_, ?_⟩
        · have := hw (1 + pre.length)
          have e2 : rowAt rows (1 + (pre.length : ℤ)) = u := by
            rw [add_comm, rowAt_succ, e]
            simp
          rwa [e2] at this
        · have := ih (pre ++ [u]) (by rw [e]; simp)
          have e3 : (1 : ℤ) + ((pre ++ [u]).length : ℤ) = 1 + pre.length + 1 := by
            rw [List.length_append]; push_cast; simp; ring
          rwa [e3] at this
    simpa using key [] rows rfl
  have h0 : AtRow w (1 - 1) .blank := by
    have := hw 0
    simpa [rowAt] using this
  have hall : ∀ run ∈ runs ++ List.replicate m [URow.padding H], RunSat H w U run := by
    intro run hr
    rcases List.mem_append.1 hr with h | h
    · exact hruns run h
    · rw [(List.mem_replicate.1 h).2]; exact hpad
  have hok : RowsOK H w U 1 .blank rows := by
    rw [hfl]
    exact rowsOK_flatten _ hall 1 .blank h0 (hfl ▸ hat)
  have := rowsOK_get rows 1 .blank hok k hk
  have e1 : (1 : ℤ) + (k : ℤ) = (k : ℤ) + 1 := by ring
  have e2 : ((k : ℤ) + 1 + 1) = ((k + 1 : ℕ) : ℤ) + 1 := by push_cast; ring
  rw [e1] at this
  rw [e2, rowAt_succ, rowAt_succ]
  have e3 : rowAt rows ((k : ℤ) + 1 - 1) =
      if k = 0 then URow.blank else rows.getD (k - 1) .blank := by
    cases k with
    | zero => simp [rowAt]
    | succ k =>
      have : (((k + 1 : ℕ) : ℤ) + 1 - 1) = (k : ℤ) + 1 := by push_cast; ring
      rw [this, rowAt_succ]
      simp
  rw [e3]
  exact this

/-- The last of `n - 1` rows that end in padding is padding. -/
theorem rowAt_last {H : HashFn} {rows : List URow} {n : ℕ} (hn : 2 ≤ n) (runs : List (List URow))
    (m : ℕ) (hm : 0 < m) (hrows : rows = runs.flatten ++ List.replicate m (.padding H))
    (hlen : rows.length = n - 1) : rowAt rows ((n : ℤ) - 1) = .padding H := by
  have : (n : ℤ) - 1 = ((n - 2 : ℕ) : ℤ) + 1 := by omega
  rw [this, rowAt_succ]
  have e : n - 2 = runs.flatten.length + (m - 1) := by
    rw [hrows, List.length_append, List.length_replicate] at hlen
    omega
  rw [hrows, e, List.getD_append_right _ _ _ _ (by omega), Nat.add_sub_cancel_left]
  simp [List.getD, hm]

/-- **Witnesses made of runs are accepted.** -/
theorem Assembly.accepted_of_runs {a : Assembly} {U : ℕ} (hf : a.TablesFit U)
    (runs : List (List URow)) (m : ℕ) (hm : 0 < m)
    (hrows : a.rows = runs.flatten ++ List.replicate m (.padding a.H))
    (hlen : a.rows.length = a.n - 1)
    (hpad : RunSat a.H a.witness U [.padding a.H])
    (hruns : ∀ run ∈ runs, RunSat a.H a.witness U run) : Accepted a.H a.n U a.witness := by
  have hn := hf.size
  unfold ByteBit.nRowsRequired at hn
  exact a.accepted hf hlen (rowAt_last (by omega) runs m hm hrows hlen)
    (rowRel_of_runs a.atRow runs m hrows hpad hruns)

end Mpt
