import Verif.Assign.KeyBit

set_option autoImplicit false

/-!
# Parallel assignment: chunks and stacked regions

`assign_par` splits its input with `slice.chunks(chunk_size)`, fills one region per chunk and hands
the regions to `layouter.assign_regions`. The regions of one call share the column that their first
("shape") pass touches, so the layouter stacks them in order, each region taking as many rows as its
shape pass announced (halo2's layouter; trusted). Within a region, a row that nothing is written to
stays unassigned (all zero).
-/

namespace Mpt
open Spec

/-- `l.chunks(k)`; `none` = the panic for `k = 0`. Structural on a fuel argument that `chunks`
instantiates with the length.
Used at /repo/src/gadgets/key_bit.rs:131-134, /repo/src/gadgets/canonical_representation.rs:236-241. -/
def chunksAux {α : Type} (k : ℕ) : ℕ → List α → List (List α)
  | 0, _ => []
  | _ + 1, [] => []
  | f + 1, l => l.take k :: chunksAux k f (l.drop k)

/-- `slice::chunks`, used at /repo/src/gadgets/key_bit.rs:131-134, /repo/src/gadgets/canonical_representation.rs:236-241. -/
def chunks {α : Type} (k : ℕ) (l : List α) : Option (List (List α)) :=
  if k = 0 then none else some (chunksAux k l.length l)

/-- `(len + num_threads - 1) / num_threads`, key_bit.rs:132, canonical_representation.rs:238,
mpt_update.rs:373 (`num_threads ≥ 1`). -/
def chunkSize (len threads : ℕ) : ℕ := (len + threads - 1) / threads

theorem chunksAux_flatten {α : Type} (k : ℕ) (hk : 0 < k) (f : ℕ) (l : List α) (hf : l.length ≤ f) :
    (chunksAux k f l).flatten = l := by
  induction f generalizing l with
  | zero =>
    have : l = [] := List.length_eq_zero_iff.1 (by omega)
    simp [chunksAux, this]
  | succ f ih =>
    cases l with
    | nil => simp [chunksAux]
    | cons a l =>
      rw [chunksAux, List.flatten_cons, ih]
      · exact List.take_append_drop _ _
      · simp only [List.length_drop, List.length_cons] at *; omega
      · simp

theorem chunksAux_length {α : Type} (k : ℕ) (hk : 0 < k) (f : ℕ) (l : List α) (t : ℕ)
    (h : l.length ≤ k * t) : (chunksAux k f l).length ≤ t := by
  induction f generalizing l t with
  | zero => simp [chunksAux]
  | succ f ih =>
    cases l with
    | nil => simp [chunksAux]
    | cons a l =>
      cases t with
      | zero => simp at h
      | succ t =>
        have := ih ((a :: l).drop k) t (by
          rw [List.length_drop]; rw [Nat.mul_succ] at h; omega)
        rw [chunksAux, List.length_cons]
        · omega
        · simp

theorem chunksAux_ne_nil {α : Type} (k : ℕ) (hk : 0 < k) (f : ℕ) (l : List α) :
    ∀ c ∈ chunksAux k f l, c ≠ [] := by
  induction f generalizing l with
  | zero => simp [chunksAux]
  | succ f ih =>
    cases l with
    | nil => simp [chunksAux]
    | cons a l =>
      rw [chunksAux]
      · intro c hc
        rcases List.mem_cons.1 hc with rfl | hc
        · intro h
          have := congrArg List.length h
          simp only [List.length_take, List.length_cons, List.length_nil] at this
          omega
        · exact ih _ c hc
      · simp

/-- The chunk size is positive as soon as there is something to assign. -/
theorem chunkSize_pos {len threads : ℕ} (hl : 0 < len) (ht : 0 < threads) :
    0 < chunkSize len threads :=
  Nat.div_pos (by omega) ht

/-- `chunks` never makes more chunks than there are threads, so zipping with the `is_first_pass`
flags (one per thread) drops none. -/
theorem chunkSize_le {len threads : ℕ} (ht : 0 < threads) :
    len ≤ chunkSize len threads * threads := by
  have h := Nat.div_add_mod (len + threads - 1) threads
  have h2 := Nat.mod_lt (len + threads - 1) ht
  unfold chunkSize
  rw [Nat.mul_comm]
  omega

/-- Zipping the chunks with the per-thread flags loses nothing: `chunks.zip(is_first_pass)` keeps the
first `threads` chunks. -/
theorem chunks_zip {α : Type} (l : List α) (threads : ℕ) (ht : 0 < threads)
    (hl : 0 < l.length) : ∃ cs, chunks (chunkSize l.length threads) l = some cs ∧
      cs.take threads = cs ∧ cs.flatten = l ∧ (∀ c ∈ cs, c ≠ []) ∧ cs ≠ [] := by
  have hk := chunkSize_pos hl ht
  refine ⟨chunksAux (chunkSize l.length threads) l.length l, ?_, ?_, ?_, ?_, ?_⟩
  · rw [chunks, if_neg (by omega)]
  · exact List.take_of_length_le (chunksAux_length _ hk _ _ _ (chunkSize_le ht))
  · exact chunksAux_flatten _ hk _ _ (le_refl _)
  · exact chunksAux_ne_nil _ hk _ _
  · intro h
    have := chunksAux_flatten _ hk l.length l (le_refl _)
    rw [h] at this
    simp only [List.flatten_nil] at this
    subst this
    simp at hl

/-- Rows of stacked regions; `none` is a row of the region that nothing is written to.
Regions of /repo/src/gadgets/key_bit.rs:126-161, /repo/src/gadgets/canonical_representation.rs:217-306. -/
abbrev Region (R : Type) := List (Option R)

/-- Cell of a column after stacking regions from row 0.
Layouter semantics for the `assign_regions` calls at /repo/src/gadgets/key_bit.rs:126-161, /repo/src/gadgets/canonical_representation.rs:217-306. -/
def stackedCell {R : Type} (regions : List (Region R)) (f : R → Fr) (r : ℤ) : Fr :=
  if 0 ≤ r then ((regions.flatten)[r.toNat]?.join).elim 0 f else 0

/-- If the stacked regions are one blank row followed by `rows`, the cells are those of writing
`rows` from offset 1. -/
theorem stackedCell_eq {R : Type} (regions : List (Region R)) (rows : List R)
    (h : regions.flatten = none :: rows.map some) (f : R → Fr) (r : ℤ) :
    stackedCell regions f r = tableCell rows f r := by
  unfold stackedCell tableCell
  rw [h]
  by_cases h1 : 1 ≤ r
  · obtain ⟨k, rfl⟩ : ∃ k : ℕ, r = (k : ℤ) + 1 := ⟨(r - 1).toNat, by omega⟩
    have e1 : ((k : ℤ) + 1).toNat = k + 1 := by omega
    have e2 : ((k : ℤ) + 1 - 1).toNat = k := by omega
    rw [if_pos (by omega), if_pos h1, e1, e2, List.getElem?_cons_succ, List.getElem?_map]
    cases rows[k]? <;> rfl
  · rw [if_neg h1]
    by_cases h0 : r = 0
    · subst h0; simp
    · rw [if_neg (by omega)]

namespace Canonical

/-- `assign_par`, canonical_representation.rs:218-325: one region per chunk of the padded value list;
region 0 starts writing at offset 1 (its shape has `32 * len + 1` rows), the others at offset 0
(`32 * len` rows). `none`: `chunks(0)` panics if `n_rows < 32`. -/
def parRegions (ρ : Fr) (values : List Fr) (n threads : ℕ) : Option (List (Region Row)) := do
  let cs ← chunks (chunkSize (n / 32) threads) (paddedValues values n)
  some ((cs.take threads).zipIdx.map (fun p =>
    (if p.2 = 0 then [none] else []) ++ (p.1.flatMap (groupRows ρ)).map some))

theorem zipIdx_flatten {α R : Type} (g : List α → List R) (cs : List (List α)) (hne : cs ≠ []) :
    (cs.zipIdx.map (fun p => (if p.2 = 0 then [none] else []) ++ (g p.1).map some)).flatten =
      none :: ((cs.map g).flatten).map some := by
  cases cs with
  | nil => exact absurd rfl hne
  | cons c cs =>
    have key : ∀ (cs : List (List α)) (k : ℕ), 0 < k →
        ((cs.zipIdx k).map (fun p => (if p.2 = 0 then [none] else []) ++ (g p.1).map some)).flatten =
          ((cs.map g).flatten).map (some : R → Option R) := by
      intro cs
      induction cs with
      | nil => simp
      | cons c cs ih =>
        intro k hk
        rw [List.zipIdx_cons, List.map_cons, List.flatten_cons, ih _ (by omega)]
        simp [Nat.pos_iff_ne_zero.1 hk]
    rw [List.zipIdx_cons, List.map_cons, List.flatten_cons, key _ _ (by omega)]
    simp

/-- The parallel assignment writes exactly the rows of the serial one. -/
theorem par_eq_serial (ρ : Fr) (values : List Fr) (n threads : ℕ) (ht : 0 < threads)
    (hn : 32 ≤ n) (hv : values.length ≤ n / 32) :
    ∃ regions, parRegions ρ values n threads = some regions ∧
      ∀ (f : Row → Fr) (r : ℤ), stackedCell regions f r = tableCell (rows ρ values n) f r := by
  have hlen : (paddedValues values n).length = n / 32 := by
    rw [paddedValues, List.length_take, List.length_append, List.length_replicate]; omega
  obtain ⟨cs, h1, h2, h3, _, h5⟩ := chunks_zip (paddedValues values n) threads ht
    (by rw [hlen]; omega)
  rw [hlen] at h1
  refine ⟨_, by rw [parRegions, h1]; rfl, ?_⟩
  intro f r
  apply stackedCell_eq
  rw [h2, zipIdx_flatten _ _ h5]
  congr 2
  rw [rows, assignRows_eq ρ values n hv, Option.getD_some, ← h3]
  rw [List.flatMap_def, List.map_flatten, List.flatten_flatten]
  congr 1
  simp [List.flatMap_def, Function.comp_def]

end Canonical

namespace KeyBit

/-- `assign_par`, key_bit.rs:128-159: one region per chunk, written from offset 0; the shape of
region 0 announces one row more (key_bit.rs:144-147), which stays empty. `none` = a panic
(`chunks(0)` for an empty list, or a wrong request). -/
def parRegions (reqs : List Req) (threads : ℕ) : Option (List (Region Row)) := do
  let cs ← chunks (chunkSize reqs.length threads) reqs
  (cs.take threads).zipIdx.mapM (fun p => do
    let rows ← assignRows p.1
    some (rows.map some ++ (if p.2 = 0 then [none] else [])))

/-- The request list as laid out by `assign_par` from row 0: the first chunk, a blank row, the rest;
a blank row is the row of the request `(0, 0, false)`. /repo/src/gadgets/key_bit.rs:126-161. -/
def parReqs (reqs : List Req) (threads : ℕ) : List Req :=
  reqs.take (chunkSize reqs.length threads) ++ (0, 0, false) :: reqs.drop (chunkSize reqs.length threads)

theorem mapM_regions (cs : List (List Req)) (hc : ∀ c ∈ cs, ∀ q ∈ c, Correct q) (k : ℕ) :
    (cs.zipIdx k).mapM (fun p : List Req × ℕ => (do
      let rows ← assignRows p.1
      some (rows.map some ++ (if p.2 = 0 then [none] else [])) : Option (Region Row))) =
    some ((cs.zipIdx k).map (fun p => (p.1.map rowSpec).map some ++ (if p.2 = 0 then [none] else []))) := by
  apply mapM_eq_some_map
  rintro ⟨c, i⟩ hp
  have hm : c ∈ cs := (List.mem_zipIdx hp).2.2 ▸ List.getElem_mem _
  rw [(assignRows_eq c).1 (hc c hm)]
  rfl

theorem zipIdx_flatten_tail (cs : List (List Req)) (k : ℕ) (hk : 0 < k) :
    ((cs.zipIdx k).map (fun p => (p.1.map rowSpec).map some ++
      (if p.2 = 0 then [none] else []))).flatten = (cs.flatten.map rowSpec).map some := by
  induction cs generalizing k with
  | nil => simp
  | cons c cs ih =>
    rw [List.zipIdx_cons, List.map_cons, List.flatten_cons, ih _ (by omega)]
    simp [Nat.pos_iff_ne_zero.1 hk]

/-- Cells after the parallel assignment of correct requests: those of writing `parReqs` from row 0. -/
theorem par_cells (reqs : List Req) (threads : ℕ) (ht : 0 < threads) (hne : reqs ≠ [])
    (hc : ∀ q ∈ reqs, Correct q) :
    ∃ regions, parRegions reqs threads = some regions ∧
      ∀ (f : Row → Fr), f (rowSpec (0, 0, false)) = 0 → ∀ (r : ℤ), stackedCell regions f r =
        tableCell ((parReqs reqs threads).map rowSpec) f (r + 1) := by
  have hl : 0 < reqs.length := List.length_pos_iff.2 hne
  have hk := chunkSize_pos hl ht
  obtain ⟨cs, h1, h2, h3, h4, h5⟩ := chunks_zip reqs threads ht hl
  have hcs : ∀ c ∈ cs, ∀ q ∈ c, Correct q := fun c hcm q hq =>
    hc q (h3 ▸ List.mem_flatten.2 ⟨c, hcm, hq⟩)
  have hpar : parRegions reqs threads = some (cs.zipIdx.map (fun p =>
      (p.1.map rowSpec).map some ++ (if p.2 = 0 then [none] else []))) := by
    rw [parRegions, h1]
    simp only [Option.bind_eq_bind, Option.bind_some, h2]
    exact mapM_regions cs hcs 0
  refine ⟨_, hpar, ?_⟩
  intro f hf r
  -- the first chunk
  have hfirst : ∃ rest, cs = reqs.take (chunkSize reqs.length threads) :: rest ∧
      rest.flatten = reqs.drop (chunkSize reqs.length threads) := by
    rw [chunks, if_neg (by omega)] at h1
    have h1 := Option.some.inj h1
    cases hr : reqs with
    | nil => exact absurd hr hne
    | cons a l =>
      rw [hr] at h1 hk
      rw [List.length_cons, chunksAux] at h1
      · refine ⟨_, h1.symm, ?_⟩
        apply chunksAux_flatten _ hk
        simp only [List.length_drop, List.length_cons] at *; omega
      · simp
  obtain ⟨rest, rfl, hrest⟩ := hfirst
  have hflat : (((reqs.take (chunkSize reqs.length threads) :: rest).zipIdx).map
      (fun p => (p.1.map rowSpec).map some ++ (if p.2 = 0 then [none] else []))).flatten =
      ((reqs.take (chunkSize reqs.length threads)).map rowSpec).map some ++
        none :: ((reqs.drop (chunkSize reqs.length threads)).map rowSpec).map some := by
    rw [List.zipIdx_cons, List.map_cons, List.flatten_cons, zipIdx_flatten_tail _ _ (by omega), hrest]
    simp
  unfold stackedCell tableCell
  rw [hflat]
  by_cases h0 : 0 ≤ r
  · have e : (r + 1 - 1).toNat = r.toNat := by omega
    rw [if_pos h0, if_pos (by omega), e]
    simp only [parReqs]
    generalize reqs.take (chunkSize reqs.length threads) = A
    generalize reqs.drop (chunkSize reqs.length threads) = B
    generalize r.toNat = k
    rw [List.map_append, List.map_cons]
    by_cases hk1 : k < A.length
    · rw [List.getElem?_append_left (by simpa using hk1), List.getElem?_append_left (by simpa using hk1)]
      simp only [List.getElem?_map]
      cases A[k]? <;> rfl
    · rw [List.getElem?_append_right (by simpa using hk1), List.getElem?_append_right (by simpa using hk1)]
      simp only [List.length_map]
      rcases Nat.eq_zero_or_pos (k - A.length) with h | h
      · rw [h]; simp [hf]
      · obtain ⟨m, hm⟩ : ∃ m, k - A.length = m + 1 := ⟨k - A.length - 1, by omega⟩
        rw [hm]
        simp only [List.getElem?_cons_succ, List.getElem?_map]
        cases B[m]? <;> rfl
  · rw [if_neg h0, if_neg (by omega)]

theorem parReqs_correct (reqs : List Req) (threads : ℕ) (hc : ∀ q ∈ reqs, Correct q) :
    ∀ q ∈ parReqs reqs threads, Correct q := by
  intro q hq
  simp only [parReqs, List.mem_append, List.mem_cons] at hq
  rcases hq with h | rfl | h
  · exact hc q (List.mem_of_mem_take h)
  · simp [Correct]
  · exact hc q (List.mem_of_mem_drop h)

variable {n : ℕ} {w : Witness Fr}

/-- With `assign_par`, every request is exposed on an enabled row, provided the first request is
`(0, 0, false)` (it falls on the disabled row 0 but is repeated by the blank row). -/
theorem served_parReqs (reqs : List Req) (threads : ℕ) (ht : 0 < threads)
    (ha : Assigned w 0 (parReqs reqs threads))
    (hn : nRowsRequired reqs.length ≤ n) (hne : reqs.head? = some (0, 0, false)) (q : Req)
    (hq : q ∈ reqs) :
    ∃ r, Enabled n r ∧ w.adv .kbValue r = q.1 ∧ w.adv .kbIndex r = (q.2.1 : Fr) ∧
      w.adv .kbBit r = bitFr q.2.2 := by
  obtain ⟨l, rfl⟩ : ∃ l, reqs = (0, 0, false) :: l := by
    cases reqs with
    | nil => simp at hne
    | cons a l => simp at hne; exact ⟨l, by rw [hne]⟩
  have hk := chunkSize_pos (len := (((0, 0, false) : Req) :: l).length) (by simp) ht
  have hlen : (parReqs ((0, 0, false) :: l) threads).length = l.length + 2 := by
    simp only [parReqs, List.length_append, List.length_take, List.length_cons, List.length_drop]
    omega
  -- positions ≥ 1 of the layout are enabled
  have key : ∀ j (hj : j < (parReqs ((0, 0, false) :: l) threads).length), 0 < j →
      ∃ r, Enabled n r ∧ w.adv .kbValue r = ((parReqs ((0, 0, false) :: l) threads)[j]).1 ∧
        w.adv .kbIndex r = (((parReqs ((0, 0, false) :: l) threads)[j]).2.1 : Fr) ∧
        w.adv .kbBit r = bitFr ((parReqs ((0, 0, false) :: l) threads)[j]).2.2 := by
    intro j hj h0
    obtain ⟨c1, c2, c3, -⟩ := cells_eq 0 (parReqs ((0, 0, false) :: l) threads) (j : ℤ) ha
    have hr : reqAt 0 (parReqs ((0, 0, false) :: l) threads) (j : ℤ) =
        (parReqs ((0, 0, false) :: l) threads)[j] := by
      unfold reqAt
      have : ((j : ℤ) - 0).toNat = j := by omega
      rw [if_pos (by omega), this, List.getElem?_eq_getElem hj]; rfl
    rw [hr] at c1 c2 c3
    unfold nRowsRequired at hn
    rw [List.length_cons] at hn
    exact ⟨j, ⟨by omega, by rw [hlen] at hj; omega⟩, c1, c2, c3⟩
  have hmem : ∃ j, ∃ hj : j < (parReqs ((0, 0, false) :: l) threads).length, 0 < j ∧
      (parReqs ((0, 0, false) :: l) threads)[j] = q := by
    obtain ⟨k', hk'⟩ : ∃ k', chunkSize (((0, 0, false) : Req) :: l).length threads = k' + 1 :=
      ⟨_ - 1, (Nat.succ_pred_eq_of_pos hk).symm⟩
    have e : parReqs ((0, 0, false) :: l) threads =
        (0, 0, false) :: (l.take k' ++ (0, 0, false) :: l.drop k') := by
      simp only [parReqs, hk', List.take_succ_cons, List.drop_succ_cons, List.cons_append]
    have hq' : q ∈ l.take k' ++ (0, 0, false) :: l.drop k' := by
      rcases List.mem_cons.1 hq with rfl | h
      · simp
      · rw [← List.take_append_drop k' l] at h
        simp only [List.mem_append, List.mem_cons] at h ⊢
        tauto
    obtain ⟨j, hj, he⟩ := List.getElem_of_mem hq'
    refine ⟨j + 1, by rw [e, List.length_cons]; omega, by omega, ?_⟩
    simp only [e, List.getElem_cons_succ]
    exact he
  obtain ⟨j, hj, h0, rfl⟩ := hmem
  exact key j hj h0

end KeyBit
end Mpt

namespace Mpt
open Spec
namespace KeyBit
variable {n U : ℕ} {w : Witness Fr}

/-- The key-bit columns of `w` are those written by `assign` (key_bit.rs:89-126). -/
def SerialAssigned (w : Witness Fr) (reqs : List Req) : Prop :=
  ∃ rows, assignRows reqs = some rows ∧
    ∀ p ∈ [(AdvCol.kbValue, Row.value), (.kbIndex, Row.index), (.kbBit, Row.bit),
      (.kbDiv8, Row.div8), (.kbMod8, Row.mod8), (.kbByte, Row.byte)], ∀ r,
      w.adv p.1 r = tableCell rows p.2 r

/-- The key-bit columns of `w` are those written by `assign_par` (key_bit.rs:128-159). -/
def ParAssigned (w : Witness Fr) (reqs : List Req) (threads : ℕ) : Prop :=
  ∃ regions, parRegions reqs threads = some regions ∧
    ∀ p ∈ [(AdvCol.kbValue, Row.value), (.kbIndex, Row.index), (.kbBit, Row.bit),
      (.kbDiv8, Row.div8), (.kbMod8, Row.mod8), (.kbByte, Row.byte)], ∀ r,
      w.adv p.1 r = stackedCell regions p.2 r

theorem correct_of_assigned {reqs : List Req} {rows : List Row} (h : assignRows reqs = some rows) :
    (∀ q ∈ reqs, Correct q) ∧ rows = reqs.map rowSpec := by
  have hc : ∀ q ∈ reqs, Correct q := by
    by_contra hne
    push Not at hne
    rw [(assignRows_eq reqs).2 hne] at h
    exact absurd h (by simp)
  rw [(assignRows_eq reqs).1 hc] at h
  exact ⟨hc, (Option.some.inj h).symm⟩

theorem SerialAssigned.assigned {reqs : List Req} (h : SerialAssigned w reqs) :
    (∀ q ∈ reqs, Correct q) ∧ Assigned w 1 reqs := by
  obtain ⟨rows, h1, h2⟩ := h
  obtain ⟨hc, rfl⟩ := correct_of_assigned h1
  refine ⟨hc, ?_⟩
  intro c hcm r
  have e : r + 1 - 1 = r := by ring
  simp only [List.mem_cons, List.not_mem_nil, or_false] at hcm
  rcases hcm with rfl | rfl | rfl | rfl | rfl | rfl <;>
    simp only [cellFrom, e]
  · exact h2 (_, _) (by simp) r
  · exact h2 (AdvCol.kbIndex, _) (by simp) r
  · exact h2 (AdvCol.kbBit, _) (by simp) r
  · exact h2 (AdvCol.kbDiv8, _) (by simp) r
  · exact h2 (AdvCol.kbMod8, _) (by simp) r
  · exact h2 (AdvCol.kbByte, _) (by simp) r

/-- If one of the requests is wrong, one of the chunks panics. -/
theorem par_correct (reqs : List Req) (threads : ℕ) (ht : 0 < threads) (hne : reqs ≠ [])
    {regions : List (Region Row)} (h : parRegions reqs threads = some regions) :
    ∀ q ∈ reqs, Correct q := by
  by_contra hc
  push Not at hc
  obtain ⟨q, hq, hw⟩ := hc
  obtain ⟨cs, h1, h2, h3, -, -⟩ := chunks_zip reqs threads ht (List.length_pos_iff.2 hne)
  rw [← h3] at hq
  obtain ⟨c, hcm, hqc⟩ := List.mem_flatten.1 hq
  obtain ⟨i, hi, rfl⟩ := List.getElem_of_mem hcm
  rw [parRegions, h1] at h
  simp only [Option.bind_eq_bind, Option.bind_some, h2] at h
  have := mapM_eq_none cs.zipIdx (fun p : List Req × ℕ => (do
      let rows ← assignRows p.1
      some (rows.map some ++ (if p.2 = 0 then [none] else [])) : Option (Region Row))) (cs[i], i)
    (by rw [List.mem_zipIdx_iff_getElem?]; exact List.getElem?_eq_getElem hi)
    (by rw [(assignRows_eq cs[i]).2 ⟨q, hqc, hw⟩]; rfl)
  simp only [Option.bind_eq_bind] at this
  rw [this] at h
  exact absurd h (by simp)

theorem ParAssigned.assigned {reqs : List Req} {threads : ℕ} (ht : 0 < threads) (hne : reqs ≠ [])
    (h : ParAssigned w reqs threads) :
    (∀ q ∈ reqs, Correct q) ∧ Assigned w 0 (parReqs reqs threads) := by
  obtain ⟨regions, h1, h2⟩ := h
  have hc := par_correct reqs threads ht hne h1
  refine ⟨hc, ?_⟩
  obtain ⟨regions', h1', h3⟩ := par_cells reqs threads ht hne hc
  rw [h1] at h1'
  obtain rfl := Option.some.inj h1'
  intro c hcm r
  have e : r + 1 - 0 = r + 1 := by ring
  simp only [List.mem_cons, List.not_mem_nil, or_false] at hcm
  rcases hcm with rfl | rfl | rfl | rfl | rfl | rfl <;> simp only [cellFrom, e] <;>
    rw [← h3 _ (by rw [rowSpec_zero])]
  · exact h2 (_, _) (by simp) r
  · exact h2 (AdvCol.kbIndex, _) (by simp) r
  · exact h2 (AdvCol.kbBit, _) (by simp) r
  · exact h2 (AdvCol.kbDiv8, _) (by simp) r
  · exact h2 (AdvCol.kbMod8, _) (by simp) r
  · exact h2 (AdvCol.kbByte, _) (by simp) r

end KeyBit
namespace Canonical
variable {n U : ℕ} {w : Witness Fr}

/-- The advice columns of the canonical-representation gadget with what is written to them.
/repo/src/gadgets/canonical_representation.rs:263-300. -/
def adviceCols : List (AdvCol × (Row → Fr)) :=
  [(AdvCol.crByte, Row.byte), (.crValue, Row.value), (.crRlc, Row.rlc),
   (.crDifference, Row.difference),
   (.crDiffInv, fun x => IsZeroGadget.assignInverse x.difference),
   (.crZeroSoFar, fun x => bcell x.zeroSoFar)]
/-- The fixed columns of the canonical-representation gadget with what is written to them.
/repo/src/gadgets/canonical_representation.rs:263-300. -/
def fixedCols : List (FixCol × (Row → Fr)) :=
  [(FixCol.crIndex, Row.index), (.crIndexIsZero, fun x => bcell x.indexIsZero),
   (.crIndexIs31, fun x => bcell x.indexIs31), (.crModulusByte, Row.modulusByte)]

/-- The columns of `w` are those written by `assign` (canonical_representation.rs:135-215). -/
def SerialAssigned (w : Witness Fr) (values : List Fr) (n : ℕ) : Prop :=
  ∃ rows, assignRows w.chal values n = some rows ∧
    (∀ p ∈ adviceCols, ∀ r, w.adv p.1 r = tableCell rows p.2 r) ∧
    (∀ p ∈ fixedCols, ∀ r, w.fix p.1 r = tableCell rows p.2 r)

/-- The columns of `w` are those written by `assign_par` (canonical_representation.rs:218-325). -/
def ParAssigned (w : Witness Fr) (values : List Fr) (n threads : ℕ) : Prop :=
  ∃ regions, parRegions w.chal values n threads = some regions ∧
    (∀ p ∈ adviceCols, ∀ r, w.adv p.1 r = stackedCell regions p.2 r) ∧
    (∀ p ∈ fixedCols, ∀ r, w.fix p.1 r = stackedCell regions p.2 r)

theorem parAssigned_iff (values : List Fr) (n threads : ℕ) (ht : 0 < threads) (hn : 32 ≤ n)
    (hv : values.length ≤ n / 32) : ParAssigned w values n threads ↔ SerialAssigned w values n := by
  obtain ⟨regions, h1, h2⟩ := par_eq_serial w.chal values n threads ht hn hv
  have h3 : assignRows w.chal values n = some (rows w.chal values n) := by
    rw [rows, assignRows_eq _ _ _ hv]; rfl
  unfold ParAssigned SerialAssigned
  rw [h1, h3]
  simp only [Option.some.injEq, exists_eq_left', h2]

theorem SerialAssigned.assigned {values : List Fr} (h : SerialAssigned w values n) :
    values.length ≤ n / 32 ∧ Assigned w values n ∧
      ∀ c ∈ [FixCol.crIndex, .crIndexIsZero, .crIndexIs31, .crModulusByte], ∀ r,
        w.fix c r = fixedCell n c r := by
  obtain ⟨rs, h1, h2, h3⟩ := h
  have hv : values.length ≤ n / 32 := by
    unfold assignRows at h1
    split at h1
    · assumption
    · exact absurd h1 (by simp)
  obtain rfl : rs = rows w.chal values n := by rw [rows, h1]; rfl
  refine ⟨hv, ?_, ?_⟩
  · intro c hc r
    simp only [List.mem_cons, List.not_mem_nil, or_false] at hc
    rcases hc with rfl | rfl | rfl | rfl | rfl | rfl <;> simp only [cell]
    · exact h2 (_, _) (by simp [adviceCols]) r
    · exact h2 (AdvCol.crValue, _) (by simp [adviceCols]) r
    · exact h2 (AdvCol.crRlc, _) (by simp [adviceCols]) r
    · exact h2 (AdvCol.crDifference, _) (by simp [adviceCols]) r
    · exact h2 (AdvCol.crDiffInv, fun x => IsZeroGadget.assignInverse x.difference)
        (by simp [adviceCols]) r
    · exact h2 (AdvCol.crZeroSoFar, fun x => bcell x.zeroSoFar) (by simp [adviceCols]) r
  · intro c hc r
    rw [← fixCell_eq w.chal values n hv c hc]
    simp only [List.mem_cons, List.not_mem_nil, or_false] at hc
    rcases hc with rfl | rfl | rfl | rfl <;> simp only [fixCell]
    · exact h3 (_, _) (by simp [fixedCols]) r
    · exact h3 (FixCol.crIndexIsZero, fun x => bcell x.indexIsZero) (by simp [fixedCols]) r
    · exact h3 (FixCol.crIndexIs31, fun x => bcell x.indexIs31) (by simp [fixedCols]) r
    · exact h3 (FixCol.crModulusByte, _) (by simp [fixedCols]) r

end Canonical
end Mpt
