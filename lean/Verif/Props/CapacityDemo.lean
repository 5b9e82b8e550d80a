import Verif.Props.Capacity
import Verif.Props.ParserCheckDemo

set_option autoImplicit false

/-!
# C69: cases of the capacity of a circuit
-/

namespace Mpt.Props
open Mpt Spec Types MptUpdate Requests

/-- `DepthAtMost` by computation. -/
def depthAtMost (D : ℕ) (tr : SMTTrace) : Bool :=
  (tr.accountPath.1.path.length ≤ D : Bool) && (tr.accountPath.2.path.length ≤ D : Bool) &&
  (match tr.statePath.1 with | none => true | some p => (p.path.length ≤ D : Bool)) &&
  (match tr.statePath.2 with | none => true | some p => (p.path.length ≤ D : Bool))

theorem depthAtMost_ok {D : ℕ} {tr : SMTTrace} (h : depthAtMost D tr = true) : DepthAtMost D tr := by
  unfold depthAtMost at h
  simp only [Bool.and_eq_true, decide_eq_true_eq] at h
  obtain ⟨⟨⟨h1, h2⟩, h3⟩, h4⟩ := h
  refine ⟨h1, h2, fun p hp => ?_, fun p hp => ?_⟩
  · rw [hp] at h3; simpa using h3
  · rw [hp] at h4; simpa using h4

/-- No path of the seventeen operations of the demonstration has more than eight levels. -/
def demoShallow : Option Bool :=
  (runOps linHash demoOps .initial).map fun x => x.2.all fun s => depthAtMost 8 (opTrace linHash s.1 s.2.1 s.2.2)

theorem demoShallow_eq : demoShallow = some true := by decide +kernel

/-- The seventeen operations of the demonstration fit into a circuit of 4096 rows: they meet the hypotheses of
`c69_capacity` with 8 levels. -/
theorem c69_demo (ρ : Fr) : ∃ w steps, runOps linHash demoOps .initial = some (w, steps) ∧
    steps.length = 17 ∧
    ∃ ps, TestCircuit.new linHash (jobsOf linHash steps) = some ps ∧
      (∃ w, TestCircuit.synthesize linHash ρ 4000 ps = some w ∧ Accepted linHash 4000 4096 w) ∧
      ∀ threads, 0 < threads →
        ∃ w, TestCircuit.synthesizePar linHash ρ 4000 threads ps = some w ∧ Accepted linHash 4000 4096 w := by
  obtain ⟨w, steps, h1, -, h2⟩ := c67_demo
  have hlen : steps.length = 17 := by
    have := (runOps_steps (World.initial_ok linHash) h1).2.1
    rw [← List.length_map (f := (·.1)), this]; rfl
  refine ⟨w, steps, h1, hlen, ?_⟩
  have hd : ∀ s ∈ steps, depthAtMost 8 (opTrace linHash s.1 s.2.1 s.2.2) = true := by
    have := demoShallow_eq
    unfold demoShallow at this
    rw [h1] at this
    exact List.all_eq_true.1 (Option.some.inj this)
  have hl : (jobsOf linHash steps).length = 17 := by rw [jobsOf, List.length_map, hlen]
  refine c69_capacity _ (fun j hj => ?_) 8 (Or.inl fun j hj => ?_) ρ 4000 4096 (by norm_num) (by rw [hl]; norm_num)
    (by rw [hl]; norm_num) (by norm_num) (by norm_num)
  · obtain ⟨s, hs, rfl⟩ := List.mem_map.1 hj
    exact (h2 s hs).1
  · obtain ⟨s, hs, rfl⟩ := List.mem_map.1 hj
    exact depthAtMost_ok (hd s hs)

/-- `c69_requests_order` relates different batches, and the row count is not symmetric under repetition: two
copies of an update ask for the same hashes but take more rows. -/
example (H : HashFn) : let p := absentProof H (smallAddress 3)
    hashTraces H [p, p] = hashTraces H [p] ∧ totalRows [p, p] = 2 * totalRows [p] ∧ 0 < totalRows [p] := by
  intro p
  exact ⟨(c69_requests_order [p, p] [p] (by simp)).1, by simp [totalRows]; omega, by
    simp only [totalRows, List.map_cons, List.map_nil, List.sum_cons, List.sum_nil, Proof.nRows]; split <;> omega⟩

end Mpt.Props
