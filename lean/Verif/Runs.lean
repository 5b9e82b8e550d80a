import Verif.TrieSegment

set_option autoImplicit false

/-!
# Runs: the rows of one update

A run is a Start row and the rows up to the next Start row. Properties C17 and C18.
-/

namespace Mpt
open Spec MptUpdate

variable {H : HashFn} {n U : ℕ} {w : Witness Fr} {s e r : ℤ}

/-- The tuple exposed by row `r` to other circuits, `MptCircuitConfig::lookup_exprs` evaluated on
row `r`: selector, address, storage key RLC, proof type, new root RLC, old root RLC, new value,
old value. /repo/src/mpt.rs:254-264. -/
def exposed (w : Witness Fr) (r : ℤ) : List Fr := lookupExprs.map (·.eval w r)

theorem Accepted.eval_segStart (h : Accepted H n U w) (hr : Enabled n r) :
    (seg [.Start]).eval w r = if segAt w r = .Start then (1 : Fr) else 0 := by
  have : (seg [.Start]).eval w r = if segAt w r ∈ [SegmentType.Start] then (1 : Fr) else 0 :=
    OneHot.eval_matches _ _ _ _ _ _ (by decide) (by simpa using h.segRepr hr)
  simpa using this

theorem Accepted.eval_proofIndex (h : Accepted H n U w) (hr : Enabled n r) :
    (proofType.index 0 : Query Fr).eval w r = ((proofAt w r).toNat : Fr) := by
  rw [OneHot.eval_index _ _ _ _ (proofAt w r) (by simpa using h.proofRepr hr)]
  generalize proofAt w r = t
  cases t <;> rfl

/-- What an enabled row exposes. -/
theorem Accepted.exposed_eq (h : Accepted H n U w) (hr : Enabled n r) :
    exposed w r = if segAt w r = .Start then
      [1, w.adv (.iv 0) r * ((2 ^ 32 : ℕ) : Fr) + w.adv (.iv 1) r, w.adv .storageKeyRlc r,
        ((proofAt w r).toNat : Fr), w.adv (.sp 1) r, w.adv (.sp 0) r, w.adv .newValue r,
        w.adv .oldValue r]
      else [1, 0, 0, 0, 0, 0, 0, 0] := by
  have hs : w.fix .selector r = 1 := (sel_eq_one_iff h.fixed r).2 hr
  simp only [exposed, lookupExprs, MptUpdate.lookup, List.map_cons, List.map_nil, Query.eval_mul,
    Query.eval_add, Query.eval_const, AdvCol.eval_cur, FixCol.eval_cur, hs, h.eval_segStart hr,
    h.eval_proofIndex hr]
  split <;> simp

theorem not_enabled_selector (h : Accepted H n U w) (hr : ¬ Enabled n r) : w.fix .selector r = 0 :=
  (sel_binary h.fixed r).resolve_right (fun h2 => hr ((sel_eq_one_iff h.fixed r).1 h2))

theorem Accepted.final_row (h : Accepted H n U w) (hn : 2 ≤ n) :
    segAt w (n - 1) = .Start ∧ proofAt w (n - 1) = .AccountDoesNotExist ∧
      exposed w (n - 1) = [1, 0, 0, (5 : Fr), 0, 0, 0, 0] := by
  have hr : Enabled n ((n : ℤ) - 1) := ⟨by omega, by omega⟩
  have h1 := h.final _ hr
  have hf : w.fix .isFinalRow ((n : ℤ) - 1) = 1 := by
    rw [h.fixed _ (by decide)]; simp [fixedCell]
  simp only [finalRow, Cmd.holdsL_cons, Cmd.holdsL_nil, and_true, Cmd.holds_cond, FixCol.eval_cur,
    hf, paddingRow, MptUpdate.lookup, List.zipWith_cons_cons, List.zipWith_nil_left,
    Cmd.holds_assertEqual, Query.eval_mul, Query.eval_add, Query.eval_const, AdvCol.eval_cur,
    h.eval_segStart hr, h.eval_proofIndex hr, ne_eq, one_ne_zero, not_false_eq_true, true_imp_iff,
    Query.eval_zero, Query.eval_ofNat] at h1
  obtain ⟨h1, h2, h3, h4, h5, h6, h7⟩ := h1
  have hst : segAt w (n - 1) = .Start := by
    by_contra hne
    rw [if_neg hne, mul_zero] at h3
    exact natCast_ne_of_lt (a := MPTProofType.AccountDoesNotExist.toNat) (b := 0) (by decide)
      (by decide) (by decide) (by simpa using h3)
  rw [if_pos hst] at h1 h2 h3 h4 h5 h6 h7
  simp only [mul_one] at h1 h2 h3 h4 h5 h6 h7
  have ht : proofAt w (n - 1) = .AccountDoesNotExist := by
    by_contra hne
    refine natCast_ne_of_lt ?_ ?_ ?_ h3
    · decide
    · generalize proofAt w (n - 1) = t; cases t <;> decide
    · revert hne; generalize proofAt w (n - 1) = t; cases t <;> decide
  refine ⟨hst, ht, ?_⟩
  rw [h.exposed_eq hr, if_pos hst, ht, ← h1, ← h2, ← h4, ← h5, ← h6, ← h7]
  rfl

/-- One update: the Start row `s`, and the next Start row `e`. For /repo/src/gadgets/mpt_update.rs:108-346. -/
structure Run (H : HashFn) (n U : ℕ) (w : Witness Fr) (s e : ℤ) : Prop where
  acc : Accepted H n U w
  pos : 1 ≤ s
  lt : s < e
  le : e < n
  start : segAt w s = .Start
  stop : segAt w e = .Start
  inner : ∀ r, s < r → r < e → segAt w r ≠ .Start

/-- Every Start row but the last enabled row begins a run. -/
theorem Accepted.exists_run (h : Accepted H n U w) (hs : Enabled n s) (hlt : s + 1 < n)
    (hst : segAt w s = .Start) : ∃ e, Run H n U w s e := by
  classical
  have hfin := (h.final_row (by have := hs.1; omega)).1
  have hex : ∃ k : ℕ, segAt w (s + 1 + k) = .Start := by
    refine ⟨(n - 1 - (s + 1)).toNat, ?_⟩
    have : s + 1 + ((n - 1 - (s + 1)).toNat : ℤ) = n - 1 := by omega
    rw [this]; exact hfin
  have hle : Nat.find hex ≤ (n - 1 - (s + 1)).toNat := by
    apply Nat.find_min' hex
    have : s + 1 + ((n - 1 - (s + 1)).toNat : ℤ) = n - 1 := by omega
    rw [this]; exact hfin
  refine ⟨s + 1 + Nat.find hex, h, hs.1, by omega, by omega, hst, Nat.find_spec hex, ?_⟩
  intro r h1 h2 h3
  have : (r - (s + 1)).toNat < Nat.find hex := by omega
  apply Nat.find_min hex this
  rwa [show s + 1 + ((r - (s + 1)).toNat : ℤ) = r by omega]

namespace Run

theorem row (R : Run H n U w s e) (h1 : s ≤ r) (h2 : r < e) : Row H w U r := by
  have p1 := R.pos
  have p2 := R.le
  refine R.acc.row ⟨by omega, by omega⟩ ?_ ⟨by omega, by omega⟩
  rcases eq_or_lt_of_le h1 with h | h
  · left; rw [← h]; exact R.start
  · right; exact ⟨by omega, by omega⟩

theorem size (R : Run H n U w s e) : e - s < 2 ^ 64 := by
  have h1 := R.le
  have h2 := R.pos
  have h3 := R.acc.rows
  have h4 := R.acc.size
  have h5 : (n : ℤ) ≤ 2 ^ 64 := by exact_mod_cast le_trans h3 h4
  omega

/-- Proof type, values and storage key are those of the Start row on all rows of the run. -/
theorem keep (R : Run H n U w s e) : ∀ j : ℕ, s + j < e →
    proofAt w (s + j) = proofAt w s ∧ w.adv .storageKeyRlc (s + j) = w.adv .storageKeyRlc s ∧
    w.adv .oldValue (s + j) = w.adv .oldValue s ∧ w.adv .newValue (s + j) = w.adv .newValue s := by
  intro j
  induction j with
  | zero => intro _; simp
  | succ j ih =>
    intro hj
    have e1 : s + ((j + 1 : ℕ) : ℤ) = s + j + 1 := by push_cast; ring
    rw [e1] at hj ⊢
    have hr := (R.row (r := s + j + 1) (by omega) hj).common.keep
      (R.inner _ (by omega) hj)
    rw [add_sub_cancel_right] at hr
    obtain ⟨i1, i2, i3, i4⟩ := ih (by omega)
    exact ⟨hr.1.trans i1, hr.2.1.trans i2, hr.2.2.1.trans i3, hr.2.2.2.trans i4⟩

theorem keep' (R : Run H n U w s e) (h1 : s ≤ r) (h2 : r < e) :
    proofAt w r = proofAt w s ∧ w.adv .storageKeyRlc r = w.adv .storageKeyRlc s ∧
    w.adv .oldValue r = w.adv .oldValue s ∧ w.adv .newValue r = w.adv .newValue s := by
  have := R.keep (r - s).toNat (by omega)
  rwa [show s + ((r - s).toNat : ℤ) = r by omega] at this

theorem path_start_iff (R : Run H n U w s e) (h1 : s ≤ r) (h2 : r ≤ e) :
    pathAt w r = .Start ↔ segAt w r = .Start := by
  have p1 := R.pos
  have p2 := R.le
  exact (R.acc.startIff ⟨by omega, by omega⟩).symm

theorem path_ne_start (R : Run H n U w s e) (h1 : s < r) (h2 : r < e) : pathAt w r ≠ .Start :=
  fun h => R.inner r h1 h2 ((R.path_start_iff (by omega) (by omega)).1 h)

/-- Segment transition of a row of the run. -/
theorem next (R : Run H n U w s e) (h1 : s ≤ r) (h2 : r < e) :
    ∃ l, transitions (proofAt w s) (segAt w r) = some l ∧ segAt w (r + 1) ∈ l := by
  have := (R.row h1 h2).segNext
  rwa [(R.keep' h1 h2).1] at this

/-- A maximal block of rows of segment type `σ` after row `b`. -/
theorem block (R : Run H n U w s e) (σ : SegmentType) (hσ : σ ≠ .Start) (b : ℤ) (_h1 : s ≤ b)
    (h2 : b < e) : ∃ m : ℕ, b + m < e ∧ (∀ j < m, segAt w (b + (j : ℕ) + 1) = σ) ∧
      segAt w (b + m + 1) ≠ σ := by
  classical
  have hex : ∃ k : ℕ, segAt w (b + k + 1) ≠ σ := by
    refine ⟨(e - b - 1).toNat, ?_⟩
    rw [show b + ((e - b - 1).toNat : ℤ) + 1 = e by omega, R.stop]
    exact hσ.symm
  refine ⟨Nat.find hex, ?_, fun j hj => ?_, Nat.find_spec hex⟩
  · have : Nat.find hex ≤ (e - b - 1).toNat := by
      apply Nat.find_min' hex
      rw [show b + ((e - b - 1).toNat : ℤ) + 1 = e by omega, R.stop]
      exact hσ.symm
    omega
  · have := Nat.find_min hex hj
    push Not at this
    exact this

theorem start_next_iff (R : Run H n U w s e) (h1 : s ≤ r) (h2 : r < e) :
    segAt w (r + 1) = .Start ↔ r + 1 = e := by
  constructor
  · intro h
    by_contra hne
    exact R.inner (r + 1) (by omega) (by omega) h
  · intro h; rw [h]; exact R.stop

theorem trieSeg (R : Run H n U w s e) (T : TablesOK w U) (b : ℤ) (m : ℕ) (h1 : s ≤ b)
    (h2 : b + m < e)
    (hseg : (∀ j < m, segAt w (b + (j : ℕ) + 1) = .AccountTrie) ∨
      ∀ j < m, segAt w (b + (j : ℕ) + 1) = .StorageTrie)
    (hb : segAt w b ≠ .AccountTrie ∧ segAt w b ≠ .StorageTrie) : TrieSeg H w U b m where
  tab := T
  pos := R.acc.pos
  rows := fun j hj => R.row (by omega) (by omega)
  on := fun j hj => by
    have p1 := R.pos
    have p2 := R.le
    exact (sel_eq_one_iff R.acc.fixed _).2 ⟨by omega, by omega⟩
  trie := fun j hj => hseg.imp (fun h => h j hj) (fun h => h j hj)
  depth0 := (R.row h1 (by omega)).common.notTrie hb.1 hb.2

end Run
end Mpt
