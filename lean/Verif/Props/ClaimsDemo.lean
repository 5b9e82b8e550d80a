import Verif.Props.RoundTrip
import Verif.Props.Content
import Verif.Props.Circuit

set_option autoImplicit false

/-!
# The hypotheses of C15-C30 are met

`demo_circuit` is one circuit of 4097 rows, assigned by the model of `MptCircuitConfig::assign` for seventeen
operations of all types. Here it is fed to the soundness theorems.
-/

namespace Mpt.Props
open Mpt Spec Types MptUpdate Requests

/-- Claims without values. -/
def Valueless (t : MPTProofType) : Prop := t = .AccountDoesNotExist ∨ t = .StorageDoesNotExist
instance (t : MPTProofType) : Decidable (Valueless t) := by unfold Valueless; infer_instance

/-- Every type of claim but AccountDestructed (which the circuit does not accept, C29) is made in the demo, with a
value that is not 0 if it has values, with an address that is not 0, and with roots before and after that are not
both 0 if it has values. -/
theorem demo_values (t : MPTProofType) (ht : t ≠ .AccountDestructed) :
    ((runOps linHash demoOps .initial).map fun r => r.2.any fun st => decide (st.1.type = t ∧
      (beVal st.1.address : Fr) ≠ 0 ∧
      (Valueless t ∨ (valueCode 256 st.1.type (opValue linHash st.1 st.2.1) ≠ 0 ∨
        valueCode 256 st.1.type (opValue linHash st.1 st.2.2) ≠ 0)))) = some true := by
  cases t <;> first | exact absurd rfl ht | decide +kernel

/-- For every type of claim there is an accepted circuit with sound tables that exposes a claim of this type about an
address that is not 0, and with a value that is not 0 if it has values. These are the hypotheses of C19-C32. -/
theorem demo_claims (t : MPTProofType) (ht : t ≠ .AccountDestructed) :
    ∃ (w : Witness Fr) (address slotRlc oldRootRlc newRootRlc oldValue newValue : Fr),
      Accepted linHash 4097 4097 w ∧ TablesOK w 4097 ∧
      Exposes w 4097 t address slotRlc oldRootRlc newRootRlc oldValue newValue ∧ address ≠ 0 ∧
      (Valueless t ∨ oldValue ≠ 0 ∨ newValue ≠ 0) := by
  obtain ⟨w', steps, w, h1, -, hc, h3, h4, h5⟩ := demo_circuit 256
  have hv := demo_values t ht
  rw [h1] at hv
  simp only [Option.map_some, Option.some.injEq, List.any_eq_true, decide_eq_true_eq] at hv
  obtain ⟨st, hst, rfl, ha, hn⟩ := hv
  have hx := h5 st hst
  unfold OpExposed at hx
  rw [hc] at hx
  exact ⟨w, _, _, _, _, _, _, h3, h4, hx, ha, hn⟩

/-- C17: for every type of claim the demo has a run of this type. -/
example (t : MPTProofType) (ht : t ≠ .AccountDestructed) :
    ∃ (w : Witness Fr) (s e : ℤ), Run linHash 4097 4097 w s e ∧ proofAt w s = t := by
  obtain ⟨w, address, slotRlc, oldRootRlc, newRootRlc, oldValue, newValue, h1, h2, h3, h4, -⟩ := demo_claims t ht
  rcases h3.run h1 h2 with hd | ⟨s, e, a, R, e1, -⟩
  · exact absurd hd.2.1 h4
  · exact ⟨w, s, e, R, e1⟩

/-- C16: the demo has a row on which the word gadget is active, that of the new code hash. -/
example : ∃ (w : Witness Fr) (r : ℤ), Accepted linHash 4097 4097 w ∧ TablesOK w 4097 ∧
    Cmd.HoldsL w 4097 r (wordRlc .newHash (.iv 2) (.iv 3) .newValue (.sp 2) (.sp 3)) := by
  obtain ⟨w, address, slotRlc, oldRootRlc, newRootRlc, oldValue, newValue, h1, h2, h3, h4, h5⟩ :=
    demo_claims .CodeHashExists (by decide)
  rcases h3.run h1 h2 with hd | ⟨s, e, a, R, ht, -, -, -, -, -, e2, e3⟩
  · exact absurd hd.2.1 h4
  obtain ⟨m, k1, k2, k3⟩ := R.acct
  have pr : ∀ r, s ≤ r → r < e → KeccakRel w 4097 r (segAt w r) (segAt w (r + 1)) := by
    intro r h1 h2
    have := R.proof_rel h1 h2
    rwa [ht] at this
  rcases k3 with ⟨k3, _⟩ | ⟨k3, hl⟩
  · have hE : EmptyEnd w 4097 (s + m) (segAt w (s + m + 1)) := by
      have := pr (s + m) (by omega) k1
      rcases R.seg_end m k1 k2 with h | h <;> rw [h] at this <;> exact this
    rcases R.empty_end h2 m k3 k2 hE with h | h
    · rcases h5 with h5 | h5 | h5
      · rcases h5 with h5 | h5 <;> cases h5
      · exact absurd (e2.trans h.old) h5
      · exact absurd (e3.trans h.new) h5
    · rw [ht] at h; simp at h
  · have L := R.leaf4 (a := s + m + 1) (by omega) k3 hl (by rw [ht]; decide)
    have hlt := L.lt
    have q3 := pr (s + m + 1 + 3) (by omega) (by omega)
    rw [L.l3] at q3
    exact ⟨w, _, h1, h2, (wordRlc_iff _ _ _ _ _ _).2 q3.2.2⟩

/-- C25: two values that are not 0. -/
example : ∃ (w : Witness Fr) (address slotRlc oldRootRlc newRootRlc oldValue newValue : Fr),
    Accepted linHash 4097 4097 w ∧ TablesOK w 4097 ∧ oldValue ≠ 0 ∧ newValue ≠ 0 ∧
    Exposes w 4097 .StorageChanged address slotRlc oldRootRlc newRootRlc oldValue newValue := by
  obtain ⟨w', steps, w, h1, -, hc, h3, h4, h5⟩ := demo_circuit 256
  have hv : ((runOps linHash demoOps .initial).map fun r => r.2.any fun st => decide (st.1.type = .StorageChanged ∧
      valueCode 256 st.1.type (opValue linHash st.1 st.2.1) ≠ 0 ∧
        valueCode 256 st.1.type (opValue linHash st.1 st.2.2) ≠ 0)) = some true := by decide +kernel
  rw [h1] at hv
  simp only [Option.map_some, Option.some.injEq, List.any_eq_true, decide_eq_true_eq] at hv
  obtain ⟨st, hst, ht, ho, hn⟩ := hv
  have hx := h5 st hst
  unfold OpExposed at hx
  rw [hc, ht] at hx
  rw [ht] at ho hn
  exact ⟨w, _, _, _, _, _, _, h3, h4, ho, hn, hx⟩

theorem mapM_length {α β : Type} {f : α → Option β} {l : List α} {l' : List β} (h : l.mapM f = some l') :
    l'.length = l.length := by
  induction l generalizing l' with
  | nil => simp only [List.mapM_nil] at h; cases h; rfl
  | cons x l ih =>
    rw [List.mapM_cons] at h
    obtain ⟨a, -, h⟩ := Option.bind_eq_some_iff.1 h
    obtain ⟨b, hb, h⟩ := Option.bind_eq_some_iff.1 h
    cases h
    simp [ih hb]

/-- C15, C33, C36, C37, C51: the proofs of the demo are parsed, their requests are computed, and the serial
assignment succeeds. -/
example (ρ : Fr) : ∃ (ps : List Proof) (s : SerialCells), ps.length = 17 ∧
    (∀ p ∈ ps, ∃ t tr, proofFrom linHash t tr = some p) ∧ (∃ l, hashTraces linHash ps = some l) ∧
    (∃ m, nRowsRequired linHash ps = some m ∧ m ≤ 4097) ∧ serialAssign linHash ρ 4097 ps = some s := by
  obtain ⟨w', steps, h1, h2⟩ := safeRun_run demo_safe
  have h3 := (runOps_steps (World.initial_ok linHash) h1).2.1
  have hadr : ∀ op ∈ demoOps, IsBytes op.address ∧ op.address.length = 20 := by
    unfold IsBytes; decide
  obtain ⟨ps, m, es, a1, a2, a3, a4⟩ := c35_operations (World.initial_ok linHash) h1 hadr h2
  have hs := demoSize_eq
  rw [demoSize, h1] at hs
  simp only [Option.bind_eq_bind, Option.bind_some] at hs
  rw [a1] at hs
  simp only [Option.bind_some] at hs
  rw [a2] at hs
  simp only [Option.bind_some] at hs
  rw [a3] at hs
  simp only [Option.bind_some, Option.pure_def, Option.map_some, Option.some.injEq, decide_eq_true_eq] at hs
  obtain ⟨b1, b2, b3⟩ := hs
  obtain ⟨⟨s, c1, -⟩, -⟩ := a4 ρ 4097 4097 (posTable linHash (traceInputs es)) b1 (by omega) le_rfl (by norm_num)
    (posTable_fits _ _ _ (by omega))
  refine ⟨ps, s, ?_, fun p hp => ?_, ⟨es, a3⟩, ⟨m, a2, b1⟩, c1⟩
  · rw [mapM_length a1, jobsOf, List.length_map, ← List.length_map (f := (·.1)), h3]; rfl
  · obtain ⟨j, -, hj⟩ := (mem_mapM_of _ _ _ a1).1 p hp
    exact ⟨_, _, hj⟩

end Mpt.Props
