import Verif.Props.PatchedComplete
import Verif.Props.OperationsDemo
import Verif.Props.ChallengeDemo

set_option autoImplicit false

/-!
# A run that meets the hypotheses of C65, and with it those of C63
-/

namespace Mpt.Props
open Mpt Spec Types MptUpdate Requests

/-- The seventeen operations of `demoOps`, from the empty state, meet the hypotheses of C65; the circuit assigned
for them therefore meets those of C63: it is accepted, satisfies the missing constraints, its tables are sound
unless `n % 32 = 0` (C52), and it exposes the operations. -/
example : ∃ w' steps, runOps linHash demoOps .initial = some (w', steps) ∧ steps.length = 17 ∧
    ∃ ps m es, (jobsOf linHash steps).mapM (fun j => proofFrom linHash j.1 j.2) = some ps ∧
      nRowsRequired linHash ps = some m ∧ hashTraces linHash ps = some es ∧
      ∀ (ρ : Fr) (n U : ℕ), m ≤ n → 32 * ((updateKeys linHash ps).length + 1) ≤ n → n ≤ U →
        1 + (traceInputs es).length ≤ U → U ≤ 2 ^ 64 →
        ∃ s, serialAssign linHash ρ n ps = some s ∧
          Accepted linHash n U (s.witness ρ (posTable linHash (traceInputs es))) ∧
          Patched linHash n U (s.witness ρ (posTable linHash (traceInputs es))) ∧
          ∀ st ∈ steps, ∃ r, Enabled n r ∧
            exposed (s.witness ρ (posTable linHash (traceInputs es))) r = opTuple linHash ρ st.1 st.2.1 st.2.2 := by
  obtain ⟨w', steps, h1, h2⟩ := safeRun_run demo_safe
  have h3 := (runOps_steps (World.initial_ok linHash) h1).2.1
  have hadr : ∀ op ∈ demoOps, IsBytes op.address ∧ op.address.length = 20 := by
    unfold IsBytes; decide
  refine ⟨w', steps, h1, by rw [← List.length_map (f := (·.1)), h3]; rfl, ?_⟩
  obtain ⟨ps, m, es, a1, a2, a3, a4⟩ := c65_operations (World.initial_ok linHash) h1 hadr h2
  refine ⟨ps, m, es, a1, a2, a3, fun ρ n U b1 b2 b3 b4 b5 => ?_⟩
  exact (a4 ρ n U _ b1 b2 b3 b5 (posTable_fits _ _ _ b4)).1

/-- A witness whose only claim opens the leaf of the claimed account on a common path satisfies the missing
constraints. -/
theorem nonceDemo_patched (H : HashFn) (ρ : Fr) (a : ℕ) (l : Leaf) (old new : ℕ) (hk : l.k = addrKey H a) :
    Patched H 2049 2049 (nonceDemo H ρ a l old new).witness := by
  refine Assembly.patched_of_runs (a := nonceDemo H ρ a l old new) [nonceRun H ρ a l old new]
    (2048 - [nonceRun H ρ a l old new].flatten.length) (by simp [nonceRun]) rfl ?_ ?_ ?_
  · simp only [nonceDemo, demo, List.length_append, List.length_replicate]; simp [nonceRun]
  · intro run hr
    rw [List.mem_singleton] at hr
    subst hr
    exact ⟨by simp [nonceRun], by simp [nonceRun, startRow, URow.isStart]⟩
  · intro run hr
    rw [List.mem_singleton] at hr
    subst hr
    refine ⟨rowPatched_start rfl (by simp [nonceRun, nonceLeafRow]), ?_, ?_, ?_, ?_, trivial⟩
    · refine rowPatched_leaf (.inl rfl) (fun _ => ⟨hk, fun h => by cases h⟩) (fun h => by cases h)
    · refine rowPatched_leaf (.inr (.inl rfl)) (fun h => by cases h) (fun h => by cases h)
    · refine rowPatched_leaf (.inr (.inr (.inl rfl))) (fun h => by cases h) (fun h => by cases h)
    · refine rowPatched_leaf (.inr (.inr (.inr rfl))) (fun h => by cases h) (fun _ h => by cases h)

theorem soundWitness_patched : Patched linHash 2049 2049 soundWitness :=
  nonceDemo_patched _ _ _ _ _ _ (by decide +kernel)

/-- The hypotheses of `c63_history` are met. -/
example : ∃ (ops : List Op) (W' : World) (steps : List (Op × World × World)),
    runOps linHash ops soundWorld = some (W', steps) ∧ W'.OK linHash ∧
    List.Forall₂ (fun c (s : Op × World × World) => c.Describes linHash 256 s.1 s.2.1 s.2.2) [soundClaim] steps ∧
    (∀ c ∈ [soundClaim].getLast?, c.newRootRlc = rootRlc 256 (W'.trie.hash linHash)) :=
  c63_history (w := soundWitness) soundWitness_accepted.1 soundWitness_accepted.2.1 soundWitness_patched
    (by intro c hc; rw [List.mem_singleton] at hc; subst hc; exact soundWitness_accepted.2.2) soundWorld_ok
    ⟨by rw [soundWorld_root]; rfl, trivial⟩ ⟨soundWorld_safe, by simp [soundClaim], fun _ _ _ => trivial⟩

/-- The hypotheses of C64 are met by the first phase of this witness and a false claim. -/
example : (PatchedChallenges linHash 2049 2049 soundWitness [nonceClaim 6]).ncard ≤
    31 * (3 * 2049 + 5 * [nonceClaim 6].length + 1).choose 2 :=
  c64_history (.of_mod (by norm_num) soundWitness_index)
    (by intro c hc; rw [List.mem_singleton] at hc; subst hc; exact nonceClaim_fits (by norm_num)) soundWorld_ok
    ⟨soundWorld_root.symm, trivial⟩ ⟨soundWorld_safe.free, fun _ _ => trivial⟩
    (fun ⟨W', h, _⟩ => nonceClaim_false (old := 6) (by norm_num) ⟨W', h⟩)

end Mpt.Props
