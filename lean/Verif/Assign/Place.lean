import Verif.Props.Layout
import Verif.Assign.Layout

set_option autoImplicit false

/-!
# Model of the placement of updates, serial and parallel

/repo/src/gadgets/mpt_update.rs:356-376 and 615-664, /repo/src/mpt.rs:112-160.
-/

namespace Mpt
open Spec MptUpdate Types

/-- Writing `rows` from row `off` on. (Rows are overwritten as a whole. The code writes cells; this
makes a difference only if blocks overlap, and they never do: `c34_disjoint`.)
/repo/src/gadgets/mpt_update.rs:357-378. -/
def writeRows (g : ℤ → URow) (off : ℕ) (rows : List URow) : ℤ → URow := fun r =>
  if (off : ℤ) ≤ r ∧ r < off + rows.length then rows.getD (r - off).toNat .blank else g r

/-- The loop of `MptUpdateConfig::assign`, /repo/src/gadgets/mpt_update.rs:364-368: offset and rows of
each block. -/
def updateBlocks (H : HashFn) (ρ : Fr) : ℕ → List Proof → Option (List (ℕ × List URow))
  | _, [] => some []
  | off, p :: ps => do
    let rows ← assignSingleProof H ρ p
    let rest ← updateBlocks H ρ (off + p.nRows) ps
    pure ((off, rows) :: rest)

/-- `proofs.iter().map(n_rows).sum()`. /repo/src/gadgets/mpt_update.rs:665-668. -/
def totalRows (ps : List Proof) : ℕ := (ps.map Proof.nRows).sum

/-- `MptUpdateConfig::n_rows_required`, /repo/src/gadgets/mpt_update.rs:661-664. -/
def updateRowsRequired (ps : List Proof) : ℕ := totalRows ps + 1

/-- Serial branch of `MptCircuitConfig::assign`, /repo/src/mpt.rs:142-160: the updates, the assertion,
the padding rows. -/
def serialUpdates (H : HashFn) (ρ : Fr) (n : ℕ) (ps : List Proof) : Option (ℤ → URow) := do
  let blocks ← updateBlocks H ρ 1 ps
  if 2 + totalRows ps ≤ n then
    let g := blocks.foldl (fun g b => writeRows g b.1 b.2) (fun _ => URow.blank)
    pure (writeRows g (1 + totalRows ps) (List.replicate (n - (1 + totalRows ps)) (.padding H)))
  else none

/-- The regions of `assign_par`, /repo/src/gadgets/mpt_update.rs:620-658: the first one starts with an
empty row. The shape announced in the first pass has as many rows as are written in the second one
(`c34_rows`). -/
def parUpdateRegions (H : HashFn) (ρ : Fr) (ps : List Proof) : Option (List (Region URow)) := do
  let l ← ps.mapM (assignSingleProof H ρ)
  pure (l.zipIdx.map fun x => (if x.2 = 0 then [none] else []) ++ x.1.map some)

/-- Parallel branch of `MptCircuitConfig::assign`, /repo/src/mpt.rs:123-141. `none`: the subtraction
`n_rows - (1 + n_assigned_rows)` underflows. -/
def parUpdates (H : HashFn) (ρ : Fr) (n : ℕ) (ps : List Proof) : Option (List (Region URow)) := do
  let regions ← parUpdateRegions H ρ ps
  if totalRows ps = 0 then
    pure (regions ++ [none :: List.replicate (n - 1) (some (.padding H))])
  else if 1 + totalRows ps ≤ n then
    pure (regions ++ [List.replicate (n - (1 + totalRows ps)) (some (.padding H))])
  else none

/-! ## Properties of blocks -/

/-- Proofs built by the crate from traces. /repo/src/types.rs:406-490. -/
def Parsed (H : HashFn) (p : Proof) : Prop := ∃ t tr, proofFrom H t tr = some p

theorem Parsed.rows_length {H : HashFn} {p : Proof} (h : Parsed H p) {ρ : Fr} {l : List URow}
    (hl : assignSingleProof H ρ p = some l) : l.length = p.nRows := by
  obtain ⟨t, tr, ht⟩ := h
  simp only [assignSingleProof, Option.map_eq_some_iff] at hl
  obtain ⟨b, hb, rfl⟩ := hl
  rw [overlay_length, bodyURows_length H ρ p (proofFrom_lengths H t tr p ht) b hb, max_self]

theorem updateBlocks_eq (H : HashFn) (ρ : Fr) (ps : List Proof) (hp : ∀ p ∈ ps, Parsed H p) (off : ℕ)
    (blocks : List (ℕ × List URow)) (h : updateBlocks H ρ off ps = some blocks) :
    ps.mapM (assignSingleProof H ρ) = some (blocks.map (·.2)) ∧
    (blocks.map (fun b => b.2.length)) = ps.map Proof.nRows ∧
    ∀ k (hk : k < blocks.length), blocks[k].1 = off + ((ps.take k).map Proof.nRows).sum := by
  induction ps generalizing off blocks with
  | nil => simp [updateBlocks] at h; subst h; simp
  | cons p ps ih =>
    simp only [updateBlocks, Option.bind_eq_bind, Option.bind_eq_some_iff] at h
    obtain ⟨rows, h1, rest, h2, h3⟩ := h
    cases h3
    obtain ⟨i1, i2, i3⟩ := ih (fun q hq => hp q (by simp [hq])) _ _ h2
    refine ⟨?_, ?_, ?_⟩
    · rw [List.mapM_cons, h1, i1]; rfl
    · simp [i2, (hp p (by simp)).rows_length h1]
    · intro k hk
      cases k with
      | zero => simp
      | succ k =>
        simp only [List.getElem_cons_succ, List.take_succ_cons, List.map_cons, List.sum_cons]
        rw [i3 k (by simpa using hk)]
        omega

/-- Consecutive blocks written from `off` on amount to writing their concatenation. -/
theorem writeRows_append (g : ℤ → URow) (off : ℕ) (a b : List URow) :
    writeRows (writeRows g off a) (off + a.length) b = writeRows g off (a ++ b) := by
  funext r
  simp only [writeRows, List.length_append]
  push_cast
  by_cases h1 : (off : ℤ) + a.length ≤ r ∧ r < off + a.length + b.length
  · rw [if_pos h1, if_pos (by omega), List.getD_append_right _ _ _ _ (by omega)]
    congr 1
    omega
  · rw [if_neg h1]
    by_cases h2 : (off : ℤ) ≤ r ∧ r < off + a.length
    · rw [if_pos h2, if_pos (by omega), List.getD_append _ _ _ _ (by omega)]
    · rw [if_neg h2, if_neg (by omega)]

theorem writeBlocks_eq (H : HashFn) (ρ : Fr) (ps : List Proof) (hp : ∀ p ∈ ps, Parsed H p) (off : ℕ)
    (blocks : List (ℕ × List URow)) (h : updateBlocks H ρ off ps = some blocks) (pre : List URow)
    (g : ℤ → URow) (hoff : off = 1 + pre.length) :
    blocks.foldl (fun g b => writeRows g b.1 b.2) (writeRows g 1 pre) =
      writeRows g 1 (pre ++ (blocks.map (·.2)).flatten) := by
  induction ps generalizing off blocks pre with
  | nil => simp [updateBlocks] at h; subst h; simp
  | cons p ps ih =>
    simp only [updateBlocks, Option.bind_eq_bind, Option.bind_eq_some_iff] at h
    obtain ⟨rows, h1, rest, h2, h3⟩ := h
    cases h3
    subst hoff
    have hl := (hp p (by simp)).rows_length h1
    rw [List.foldl_cons]
    dsimp only
    rw [writeRows_append, ih (fun q hq => hp q (by simp [hq])) _ _ h2 (pre ++ rows) (by
      rw [List.length_append, hl]; omega)]
    simp

theorem writeRows_nil (g : ℤ → URow) (off : ℕ) : writeRows g off [] = g := by
  funext r
  simp only [writeRows, List.length_nil]
  rw [if_neg (by push_cast; omega)]

theorem writeRows_one (rows : List URow) : writeRows (fun _ => .blank) 1 rows = rowAt rows := by
  funext r
  simp only [writeRows, rowAt]
  push_cast
  split
  · rename_i h; rw [if_pos h.1]
  · split
    · rw [List.getD_eq_default]
      omega
    · rfl

/-- The serial assignment is the concatenation of the rows of the updates, from row 1, followed by the
padding rows up to row `n - 1`. -/
theorem serialUpdates_eq (H : HashFn) (ρ : Fr) (n : ℕ) (ps : List Proof) (hp : ∀ p ∈ ps, Parsed H p)
    (g : ℤ → URow) (h : serialUpdates H ρ n ps = some g) :
    2 + totalRows ps ≤ n ∧ ∃ runs, ps.mapM (assignSingleProof H ρ) = some runs ∧
      runs.flatten.length = totalRows ps ∧
      g = rowAt (runs.flatten ++ List.replicate (n - (1 + totalRows ps)) (.padding H)) := by
  simp only [serialUpdates, Option.bind_eq_bind, Option.bind_eq_some_iff] at h
  obtain ⟨blocks, hb, h⟩ := h
  split at h
  swap
  · cases h
  rename_i hn
  obtain ⟨h1, h2, _⟩ := updateBlocks_eq H ρ ps hp 1 blocks hb
  have hlen : (blocks.map (·.2)).flatten.length = totalRows ps := by
    rw [List.length_flatten, List.map_map, totalRows, ← h2]
    rfl
  refine ⟨hn, _, h1, hlen, ?_⟩
  have h3 := writeBlocks_eq H ρ ps hp 1 blocks hb [] (fun _ => URow.blank) rfl
  rw [writeRows_nil, List.nil_append] at h3
  have h4 := Option.some.inj h
  rw [← h4, h3, ← hlen, writeRows_append, writeRows_one]

end Mpt

namespace Mpt.Props
open Mpt Spec MptUpdate Types

variable {H : HashFn} {ρ : Fr}

/-- **C34.** For every proof built from a trace, the assignment of the proof writes to exactly the
`n_rows()` rows from its offset on: the rows carrying base cells and the rows carrying path, leaf and
storage cells are the same ones. -/
theorem c34_rows {t : MPTProofType} {tr : SMTTrace} {p : Proof} (h : proofFrom H t tr = some p)
    {body rows : List URow} (hb : bodyURows H ρ p = some body)
    (hr : assignSingleProof H ρ p = some rows) :
    body.length = p.nRows ∧ rows.length = p.nRows :=
  ⟨bodyURows_length H ρ p (proofFrom_lengths H t tr p h) body hb,
    Parsed.rows_length ⟨t, tr, h⟩ hr⟩

/-- **C34.** The blocks of consecutive proofs do not overlap: the block of proof `k` starts where the
block of proof `k - 1` ends, and the last one ends at `n_rows_required`. -/
theorem c34_disjoint (ps : List Proof) (hp : ∀ p ∈ ps, ∃ t tr, proofFrom H t tr = some p)
    (blocks : List (ℕ × List URow)) (h : updateBlocks H ρ 1 ps = some blocks) :
    blocks.length = ps.length ∧
    (∀ k (hk : k + 1 < blocks.length),
      (blocks[k + 1]).1 = (blocks[k]'(by omega)).1 + (blocks[k]'(by omega)).2.length) ∧
    (∀ (h0 : 0 < blocks.length), blocks[0].1 = 1) ∧
    1 + (blocks.map (fun b => b.2.length)).sum = updateRowsRequired ps := by
  obtain ⟨-, h2, h3⟩ := updateBlocks_eq H ρ ps hp 1 blocks h
  have hl : blocks.length = ps.length := by simpa using congrArg List.length h2
  refine ⟨hl, ?_, ?_, ?_⟩
  · intro k hk
    rw [h3 (k + 1) hk, h3 k (by omega)]
    have h4 : blocks[k].2.length = (ps[k]'(by omega)).nRows := by
      have := congrArg (fun l => l[k]?) h2
      simp only [List.getElem?_map] at this
      rw [List.getElem?_eq_getElem (by omega), List.getElem?_eq_getElem (by omega)] at this
      simpa using this
    rw [h4, List.take_succ_eq_append_getElem (by omega), List.map_append, List.sum_append]
    simp only [List.map_cons, List.map_nil, List.sum_cons, List.sum_nil]
    omega
  · intro h0
    rw [h3 0 h0]; simp
  · rw [h2, updateRowsRequired, totalRows, add_comm]

/-- **C15, updates.** For every list of proofs accepted by the serial branch, the parallel branch does
not panic and leaves exactly the same cells, padding included. -/
theorem c15_updates (n : ℕ) (ps : List Proof) (hp : ∀ p ∈ ps, ∃ t tr, proofFrom H t tr = some p)
    (g : ℤ → URow) (h : serialUpdates H ρ n ps = some g) :
    ∃ regions, parUpdates H ρ n ps = some regions ∧
      ∀ (c : AdvCol) (r : ℤ), stackedCell regions (fun u => u.cell c) r = (g r).cell c := by
  obtain ⟨hn, runs, h1, h2, rfl⟩ := serialUpdates_eq H ρ n ps hp g h
  have key : ∀ (regions : List (Region URow)),
      regions.flatten = none :: (runs.flatten ++
        List.replicate (n - (1 + totalRows ps)) (URow.padding H)).map some →
      ∀ (c : AdvCol) (r : ℤ), stackedCell regions (fun u => u.cell c) r =
        (rowAt (runs.flatten ++ List.replicate (n - (1 + totalRows ps)) (.padding H)) r).cell c := by
    intro regions he c r
    rw [stackedCell_eq regions _ he]
    simp only [tableCell, rowAt]
    split
    · rw [List.getD_eq_getElem?_getD]
      rcases (runs.flatten ++ List.replicate (n - (1 + totalRows ps)) (URow.padding H))[(r - 1).toNat]?
        with _ | u
      · simp [URow.cell_blank]
      · simp
    · rw [URow.cell_blank]
  simp only [parUpdates, parUpdateRegions, Option.bind_eq_bind, h1, Option.bind_some, Option.pure_def]
  have hruns : ∀ r ∈ runs, r.length ≠ 0 := by
    intro r hr
    have : ∀ (qs : List Proof) (rs : List (List URow)), (∀ p ∈ qs, Parsed H p) →
        qs.mapM (assignSingleProof H ρ) = some rs → ∀ r ∈ rs, r.length ≠ 0 := by
      intro qs
      induction qs with
      | nil => intro rs _ h; simp at h; subst h; simp
      | cons q qs ih =>
        intro rs hq h
        rw [List.mapM_cons] at h
        simp only [Option.bind_eq_bind, Option.bind_eq_some_iff] at h
        obtain ⟨a, h1, b, h2, h3⟩ := h
        cases h3
        intro r hr
        rcases List.mem_cons.1 hr with rfl | hr
        · rw [(hq q (by simp)).rows_length h1]
          unfold Proof.nRows
          split <;> omega
        · exact ih b (fun x hx => hq x (by simp [hx])) h2 r hr
    exact this ps runs hp h1 r hr
  by_cases h0 : totalRows ps = 0
  · have hnil : runs = [] := by
      cases runs with
      | nil => rfl
      | cons a l =>
        rw [h0, List.flatten_cons, List.length_append] at h2
        exact absurd (by omega) (hruns a (by simp))
    subst hnil
    refine ⟨_, by rw [if_pos h0], key _ ?_⟩
    simp [h0, List.map_replicate]
  · have hne : runs ≠ [] := by
      rintro rfl
      simp at h2
      exact h0 h2.symm
    refine ⟨_, by rw [if_neg h0, if_pos (by omega)], key _ ?_⟩
    rw [List.flatten_append]
    have := Canonical.zipIdx_flatten (fun l : List URow => l) runs hne
    rw [this]
    simp [List.map_replicate]

end Mpt.Props
