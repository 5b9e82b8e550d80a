import Verif.Props.PatchedOps
import Verif.Props.Complete

set_option autoImplicit false

/-!
# C65: the missing constraints reject no honest witness

`Patched` lists the conditions on the rows of the update gadget which the circuit does not enforce and without
which false claims are accepted (C63, C64). Here: the witnesses which the code assigns for operations on a
state satisfy all of them, so that enforcing them would not reject honest provers.
-/

namespace Mpt.Props
open Mpt Spec Types MptUpdate Requests

variable {H : HashFn} {U : ℕ}

/-- The witness assigned for honest proofs satisfies the missing constraints, serially and in parallel. -/
theorem ready_patched {ρ : Fr} {n m : ℕ} {ps : List Proof} (hp : ∀ p ∈ ps, Parsed H p)
    (hR : ∀ p ∈ ps, ProofReady H p) (hK : ∀ p ∈ ps, HashedKey H p.storage) (hT : ∀ p ∈ ps, InTypes p)
    (hX : ∀ p ∈ ps, ProofStrict H p)
    (hm : nRowsRequired H ps = some m) (hn : m ≤ n + 1) (hr : 2 + totalRows ps ≤ n)
    (hk : 32 * ((updateKeys H ps).length + 1) ≤ n) (hU : n ≤ U) (hU2 : U ≤ 2 ^ 64) {es : List Entry} (hes : hashTraces H ps = some es)
    {table : Witness Fr} (ht : PosTableFits H table U (traceInputs es))
    {s : SerialCells} (hs : serialAssign H ρ n ps = some s) :
    Patched H n U (s.witness ρ table) ∧ ∀ threads, 0 < threads →
      ∀ s', parAssign H ρ n threads ps = some s' → Patched H n U (s'.witness ρ n table) := by
  obtain ⟨br, bits, strings, runs, h1, h2, h3, h4, h5, h6, h7, h8, h9⟩ := serialWitness_eq hp hs
  obtain ⟨-, -, c1, c2, c3⟩ := c33_tight (ρ := ρ) ps hp n m hm hn hr hk
  set rows := runs.flatten ++ List.replicate (n - (1 + totalRows ps)) (URow.padding H) with hrows
  have hfit : ∀ th : Option ℕ, (∀ t, th = some t → 0 < t) → Assembly.TablesFit ⟨H, ρ, n, rows, strings,
      updateKeys H ps, bits, traceInputs es, table, th⟩ U := by
    intro th hth
    refine ⟨by show ByteBit.nRowsRequired ≤ n; unfold ByteBit.nRowsRequired; omega, hU, hU2,
      (strings_mem h4).2.2.2.2, c2 _ _ _ _ _ h1 h4, h6.2, ?_, h3, ?_, c1 _ h2, ht, ?_⟩
    · show (0 : Fr) ∈ updateKeys H ps
      rw [updateKeys, mem_sortDedup]; simp
    · intro q hq
      exact (c37_key_requests H ps bits h2).2.2.2.1 q hq
    · intro t h
      exact ⟨hth t h, keyBitLookups_head h2⟩
  have hacc : ∀ th : Option ℕ, (∀ t, th = some t → 0 < t) → Patched H n U (Assembly.witness ⟨H, ρ, n, rows,
      strings, updateKeys H ps, bits, traceInputs es, table, th⟩) := by
    intro th hth
    have hf := hfit th hth
    have hsv := fun p hpm => serves_of hf (ps := ps) (es := es) (bits := bits) (br := br) hes rfl h2 rfl rfl h1 h4
        hK hT (p := p) hpm
    refine Assembly.patched_of_runs (a := ⟨H, ρ, n, rows,
      strings, updateKeys H ps, bits, traceInputs es, table, th⟩) runs (n - (1 + totalRows ps)) (by omega) rfl ?_
      (fun run hr => ?_) (fun run hr => ?_)
    · show rows.length = n - 1
      rw [hrows, List.length_append, h8, List.length_replicate]; omega
    · obtain ⟨p, hpm, hpe⟩ := (mem_mapM_of _ _ _ h5).1 run hr
      have := run_sat (hsv p hpm) (hR p hpm) hpe
      exact ⟨this.ne, this.start⟩
    · obtain ⟨p, hpm, hpe⟩ := (mem_mapM_of _ _ _ h5).1 run hr
      exact run_patched (hsv p hpm) (hR p hpm) (hX p hpm) hpe
  refine ⟨?_, fun threads hth s' hs' => ?_⟩
  · rw [h9 table (traceInputs es)]
    exact hacc none (fun t h => by cases h)
  · obtain ⟨s'', bits', g1, g2, g3, g4⟩ := parWitness_eq hth hp hs
    rw [g1] at hs'
    cases hs'
    have hst : s.strings = strings := by
      obtain ⟨br', -, k1, -, -, -, -, -, k7, -⟩ := serialAssign_eq hs
      rw [h1] at k1
      cases k1
      rw [h4] at k7
      exact (Option.some.inj k7).symm
    rw [h2] at g2
    cases g2
    rw [g4 rows table (traceInputs es) (fun table => by rw [hst]; exact h9 table (traceInputs es)), hst]
    exact hacc (some threads) (fun t h => by cases h; exact hth)

/-- **C65.** The missing constraints reject no honest prover. Start from any consistent state and perform any
operations on it. If the hash function does not collide on the states on the way, the circuit assigned for the
traces of the operations, serially or with any number of threads, is accepted, satisfies all the missing
constraints, and exposes every one of the operations. -/
theorem c65_operations {ops : List Op} {w w' : World} {steps : List (Op × World × World)} (hw : w.OK H)
    (hrun : runOps H ops w = some (w', steps))
    (hadr : ∀ op ∈ ops, IsBytes op.address ∧ op.address.length = 20)
    (C : ∀ s ∈ steps, CollisionFree H (s.1.Relevant H s.2.1 s.2.2)) :
    ∃ ps m es, (jobsOf H steps).mapM (fun j => proofFrom H j.1 j.2) = some ps ∧ nRowsRequired H ps = some m ∧
      hashTraces H ps = some es ∧
      ∀ (ρ : Fr) (n U : ℕ) (table : Witness Fr), m ≤ n → 32 * ((updateKeys H ps).length + 1) ≤ n → n ≤ U →
        U ≤ 2 ^ 64 → PosTableFits H table U (traceInputs es) →
        (∃ s, serialAssign H ρ n ps = some s ∧ Accepted H n U (s.witness ρ table) ∧
          Patched H n U (s.witness ρ table) ∧
          ∀ st ∈ steps, ∃ r, Enabled n r ∧ exposed (s.witness ρ table) r = opTuple H ρ st.1 st.2.1 st.2.2) ∧
        ∀ threads, 0 < threads →
          ∃ s, parAssign H ρ n threads ps = some s ∧ Accepted H n U (s.witness ρ n table) ∧
          Patched H n U (s.witness ρ n table) ∧
          ∀ st ∈ steps, ∃ r, Enabled n r ∧ exposed (s.witness ρ n table) r = opTuple H ρ st.1 st.2.1 st.2.2 := by
  obtain ⟨ps, m, es, h1, h2, h3, h4⟩ := c35_operations hw hrun hadr C
  obtain ⟨-, hops, hst⟩ := runOps_steps hw hrun
  have hj : ∀ j ∈ jobsOf H steps, HonestTrace H j.1 j.2 := by
    intro j hj
    obtain ⟨s, hs, rfl⟩ := List.mem_map.1 hj
    exact op_honest (hadr _ (hops ▸ List.mem_map_of_mem hs)) (hst s hs).1 (hst s hs).2 (C s hs)
  obtain ⟨ps', hps', hg⟩ := honest_goods _ hj
  rw [h1] at hps'
  cases hps'
  have hg' : ∀ p ∈ ps, ∃ t tr, GoodProof H t tr p := fun p hp => by
    obtain ⟨j, -, g⟩ := hg p hp; exact ⟨_, _, g⟩
  have hX : ∀ p ∈ ps, ProofStrict H p := fun p hp => by
    obtain ⟨j, hj, e⟩ := (mem_mapM_of _ _ _ h1).1 p hp
    obtain ⟨s, hs, rfl⟩ := List.mem_map.1 hj
    exact op_strict (hst s hs).1 (hst s hs).2 (C s hs) e
  refine ⟨ps, m, es, h1, h2, h3, ?_⟩
  intro ρ n U table a1 a2 a3 a4 a5
  obtain ⟨⟨s, e1, e2, e3⟩, e4⟩ := h4 ρ n U table a1 a2 a3 a4 a5
  have hmn : 1 + updateRowsRequired ps ≤ n := by
    obtain ⟨br, h1, h⟩ := Option.bind_eq_some_iff.1 h2
    obtain ⟨bits, h2, h⟩ := Option.bind_eq_some_iff.1 h
    have := Option.some.inj h
    omega
  have hmn : 2 + totalRows ps ≤ n := by unfold updateRowsRequired at hmn; omega
  obtain ⟨x, y⟩ := ready_patched (fun p hp => by obtain ⟨t, tr, g⟩ := hg' p hp; exact ⟨t, tr, g.parse⟩)
    (fun p hp => by obtain ⟨t, tr, g⟩ := hg' p hp; exact g.ready)
    (fun p hp => by obtain ⟨t, tr, g⟩ := hg' p hp; exact g.hashed)
    (fun p hp => by obtain ⟨t, tr, g⟩ := hg' p hp; exact g.types) hX h2 (by omega) hmn a2 a3 a4 h3 a5 e1
  refine ⟨⟨s, e1, e2, x, e3⟩, fun threads hth => ?_⟩
  obtain ⟨s', z1, z2, z3⟩ := e4 threads hth
  exact ⟨s', z1, z2, y threads hth s' z1, z3⟩

end Mpt.Props
