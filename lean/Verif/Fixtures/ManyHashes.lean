import Verif.Fixtures.Checks
import Verif.Fixtures.World
import Verif.Assign.Force

set_option autoImplicit false
set_option Elab.async false

/-!
# C58: more than 200 hashes

(`Checks` is imported only so that the two modules, which need much memory, are not built at the same time.)

`PoseidonTable::load` enables 200 rows so that "the fixed columns in the tests will not depend on the number
of poseidon hashes" (/repo/src/gadgets/poseidon.rs:78-82). They do for more than 200 hashes: the operations of
`initial_storage_generator` need more (the first 22 of them are used here).
-/

namespace Mpt.Fixtures
open Mpt Spec Types Requests MptUpdate Props

/-- The jobs for a list of operations. -/
def opJobs (ops : List Op) : Option (List (MPTProofType × SMTTrace)) :=
  (runOps Poseidon.hash ops World.initial).map fun r => jobsOf Poseidon.hash r.2

/-- The jobs number `a`, ..., `a + k - 1` are honest. -/
def honestPart (ops : List Op) (a k : ℕ) : Bool :=
  match opJobs ops with
  | none => false
  | some jobs => ((jobs.drop a).take k).all (fun j => isHonest Poseidon.hash j.1 j.2)

/-- Inserts a number into an increasing list. -/
def ins (x : ℕ) : List ℕ → List ℕ
  | [] => [x]
  | y :: l => bif Nat.blt x y then x :: y :: l else bif Nat.beq x y then y :: l else y :: ins x l

theorem mem_ins {x z : ℕ} {l : List ℕ} (h : z ∈ ins x l) : z = x ∨ z ∈ l := by
  induction l with
  | nil => simpa [ins] using h
  | cons y l ih =>
    unfold ins at h
    cases h1 : Nat.blt x y <;> cases h2 : Nat.beq x y <;> simp only [h1, h2, cond_true, cond_false] at h
    · rcases List.mem_cons.1 h with h | h
      · exact .inr (by simp [h])
      · exact (ih h).imp id (List.mem_cons_of_mem _)
    · exact .inr h
    · exact List.mem_cons.1 h
    · exact List.mem_cons.1 h

theorem ins_sorted {x : ℕ} {l : List ℕ} (h : l.Pairwise (· < ·)) : (ins x l).Pairwise (· < ·) := by
  induction l with
  | nil => simp [ins]
  | cons y l ih =>
    obtain ⟨h1, h2⟩ := List.pairwise_cons.1 h
    unfold ins
    cases g1 : Nat.blt x y
    · cases g2 : Nat.beq x y
      · have : y < x := by
          have a : ¬ x < y := fun c => by rw [show Nat.blt x y = true by rw [Nat.blt_eq]; exact c] at g1; cases g1
          have b : x ≠ y := Nat.ne_of_beq_eq_false g2
          omega
        refine List.pairwise_cons.2 ⟨fun z hz => ?_, ih h2⟩
        rcases mem_ins hz with rfl | hz
        · exact this
        · exact h1 z hz
      · exact h
    · have : x < y := by rwa [Nat.blt_eq] at g1
      refine List.pairwise_cons.2 ⟨fun z hz => ?_, h⟩
      rcases List.mem_cons.1 hz with rfl | hz
      · exact this
      · exact this.trans (h1 z hz)

/-- The hashes in a list of entries, sorted and without repetitions. -/
def hashesOf : List Entry → List ℕ
  | [] => []
  | e :: es => Force.nat e.2.2.val fun n => ins n (hashesOf es)

theorem hashesOf_sorted (es : List Entry) : (hashesOf es).Pairwise (· < ·) := by
  induction es with
  | nil => exact List.Pairwise.nil
  | cons e es ih => rw [hashesOf, Force.nat_eq]; exact ins_sorted ih

theorem mem_hashesOf {es : List Entry} {z : ℕ} (h : z ∈ hashesOf es) : ∃ e ∈ es, e.2.2.val = z := by
  induction es with
  | nil => cases h
  | cons e es ih =>
    rw [hashesOf, Force.nat_eq] at h
    rcases mem_ins h with rfl | h
    · exact ⟨e, by simp, rfl⟩
    · obtain ⟨e', h1, h2⟩ := ih h
      exact ⟨e', by simp [h1], h2⟩

theorem hashesOf_length (es : List Entry) : (hashesOf es).length ≤ es.toFinset.card := by
  rw [← List.toFinset_card_of_nodup ((hashesOf_sorted es).imp fun h => ne_of_lt h)]
  refine le_trans (Finset.card_le_card (t := es.toFinset.image fun e => e.2.2.val) fun z hz => ?_) Finset.card_image_le
  obtain ⟨e, h1, h2⟩ := mem_hashesOf (List.mem_toFinset.1 hz)
  exact Finset.mem_image.2 ⟨e, List.mem_toFinset.2 h1, h2⟩

/-- The jobs need more than 200 distinct hashes. -/
def manyHashes (ops : List Op) : Bool :=
  match opJobs ops with
  | none => false
  | some jobs =>
      match jobs.mapM (fun j => proofFromS Poseidon.hash j.1 j.2) with
      | none => false
      | some ps =>
        match allEntries Poseidon.hash ps with
        | none => false
        | some es => decide (200 < (hashesOf es).length)

/-! The checks are separate theorems to keep the memory that the kernel needs small. -/

theorem storageOps_honest1 : honestPart (storageOps.take 22) 0 8 = true := by decide +kernel
theorem storageOps_honest2 : honestPart (storageOps.take 22) 8 8 = true := by decide +kernel
theorem storageOps_honest3 : honestPart (storageOps.take 22) 16 8 = true := by decide +kernel
theorem storageOps_many : manyHashes (storageOps.take 22) = true := by decide +kernel
theorem storageOps_jobs : (opJobs (storageOps.take 22)).map List.length = some 22 := by decide +kernel

/-- Honest jobs with more than 200 distinct hashes. -/
theorem many_storageOps : ∃ jobs, opJobs (storageOps.take 22) = some jobs ∧
    (∀ j ∈ jobs, isHonest Poseidon.hash j.1 j.2 = true) ∧ manyHashes (storageOps.take 22) = true := by
  obtain ⟨jobs, hj, hl⟩ := Option.map_eq_some_iff.1 storageOps_jobs
  have h1 := storageOps_honest1
  have h2 := storageOps_honest2
  have h3 := storageOps_honest3
  unfold honestPart at h1 h2 h3
  rw [hj] at h1 h2 h3
  simp only [List.all_eq_true] at h1 h2 h3
  refine ⟨jobs, hj, fun j hm => ?_, storageOps_many⟩
  have e1 : jobs.take 8 ++ (jobs.drop 8) = jobs := List.take_append_drop 8 jobs
  have e2 : (jobs.drop 8).take 8 ++ (jobs.drop 16) = jobs.drop 8 := by
    have := List.take_append_drop 8 (jobs.drop 8)
    rwa [List.drop_drop] at this
  have e3 : (jobs.drop 16).take 8 = jobs.drop 16 := List.take_of_length_le (by rw [List.length_drop]; omega)
  rw [← e1, List.mem_append] at hm
  rcases hm with hm | hm
  · exact h1 j (by simpa using hm)
  · rw [← e2, List.mem_append] at hm
    rcases hm with hm | hm
    · exact h2 j hm
    · exact h3 j (by rw [e3]; exact hm)

/-- **C58 fails beyond 200 hashes.** There are honest traces such that, for every large enough number of rows,
the circuit with these updates and the circuit without updates are both synthesized and satisfied, but their
fixed columns -- hence their verifying keys -- differ. -/
theorem c58_false :
    ∃ (jobs : List (MPTProofType × SMTTrace)) (ps : List Proof) (N : ℕ),
      TestCircuit.new Poseidon.hash jobs = some ps ∧ ∀ (ρ : Fr) (n U : ℕ), N ≤ n → n ≤ U → U ≤ 2 ^ 64 →
        ∃ w w', TestCircuit.synthesize Poseidon.hash ρ n ps = some w ∧ Accepted Poseidon.hash n U w ∧
          TestCircuit.synthesize Poseidon.hash ρ n [] = some w' ∧ Accepted Poseidon.hash n U w' ∧ w.fix ≠ w'.fix := by
  obtain ⟨jobs, hjobs, hh, hf⟩ := many_storageOps
  unfold manyHashes at hf
  rw [hjobs] at hf
  simp only [proofFromS_eq] at hf
  obtain ⟨ps, m, es, h1, h2, h3, h4⟩ := c57_test_circuit (H := Poseidon.hash) jobs
    (fun j hj => isHonest_sound (hh j hj))
  obtain ⟨ps0, m0, es0, g1, g2, g3, g4⟩ := c57_test_circuit (H := Poseidon.hash) [] (by simp)
  obtain rfl : ps0 = [] := by
    have : TestCircuit.new Poseidon.hash [] = some [] := rfl
    exact Option.some.inj (g1.symm.trans this)
  have h1' := h1
  unfold TestCircuit.new at h1'
  rw [h1'] at hf
  obtain ⟨all, h5, h6⟩ := Option.map_eq_some_iff.1 h3
  simp only [h5, decide_eq_true_eq] at hf
  have hlen : 200 < es.length := by
    refine lt_of_lt_of_le (lt_of_lt_of_le hf (hashesOf_length all)) ?_
    have e1 : all.toFinset = es.toFinset := by
      ext x; rw [← h6]; simp [mem_sortDedup]
    rw [e1]
    exact List.toFinset_card_le es
  have hlen0 : es0.length ≤ 1 := by
    obtain ⟨all0, h5, h6⟩ := Option.map_eq_some_iff.1 g3
    have h7 : all0 = [((0, 0), HashDomain.Pair.toFr, zeroPairHash Poseidon.hash)] := by
      have : allEntries Poseidon.hash [] = some [((0, 0), HashDomain.Pair.toFr, zeroPairHash Poseidon.hash)] := rfl
      exact Option.some.inj (h5.symm.trans this)
    rw [← h6, h7]
    exact sortDedup_length_le traceCode traceCode_inj _
  refine ⟨jobs, ps, m + m0 + (2 + totalRows ps) + 32 * ((updateKeys Poseidon.hash ps).length + 1) +
    32 * ((updateKeys Poseidon.hash []).length + 1) + es.length + 201, h1, ?_⟩
  intro ρ n U hn hU hU2
  obtain ⟨⟨w, hw, hwa⟩, -⟩ := h4 ρ n U (by omega) (by omega) (by omega) hU hU2 (by omega)
  obtain ⟨⟨w', hw', hwa'⟩, -⟩ := g4 ρ n U (by omega) (by simp [totalRows]; omega) (by omega) hU hU2 (by omega)
  refine ⟨w, w', hw, hwa, hw', hwa', fun e => ?_⟩
  have := (c58_verifying_key_partial hw h3 hw' g3).1.1 e
  omega

end Mpt.Fixtures

