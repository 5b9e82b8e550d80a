import Verif.Props.Challenge
import Verif.Props.WorldSoundDemo

set_option autoImplicit false

/-!
# A case that meets the hypotheses of C61 and C62
-/

namespace Mpt.Props
open Mpt Spec Types MptUpdate Requests

/-- A claim about the account of the example: its nonce changes from `old` to 9. -/
def nonceClaim (old : ℕ) : StateClaim where
  type := .NonceChanged
  address := soundAdr
  slot := 0
  oldRoot := soundLeaf.hash linHash 5
  newRoot := soundLeaf.hash linHash 9
  oldValue := old
  newValue := 9

theorem nonceClaim_fits {old : ℕ} (h : old < 2 ^ 64) : (nonceClaim old).Fits :=
  ⟨⟨show IsBytes soundAdr by unfold IsBytes; decide, show soundAdr.length = 20 by decide⟩, by simp [nonceClaim], h, by simp [nonceClaim, ValueFits]⟩

theorem nonceClaim_decided (old : ℕ) : (nonceClaim old).Decided linHash soundWorld :=
  .inr (.inr ⟨soundAcct, soundWorld_account, by simp [nonceClaim]⟩)

/-- The claim that the nonce was anything but 5 is false. -/
theorem nonceClaim_false {old : ℕ} (h : old ≠ 5) : ¬ ∃ W', (nonceClaim old).Step linHash soundWorld W' := by
  rintro ⟨W', op, D⟩
  have h1 := D.apply
  have h2 : op.type = .NonceChanged := D.type
  have h3 : op.address = soundAdr := D.address
  have h4 := D.oldValue
  cases op with
  | absent b t' =>
    simp only [Op.address] at h3
    subst h3
    simp only [Op.apply, Op.address, soundWorld_account] at h1
    cases h1
  | setNonce b x =>
    simp only [Op.address] at h3
    subst h3
    simp only [opValue, Op.address, soundWorld_account, SameValue, nonceClaim] at h4
    rcases h4 with h4 | ⟨h4, -⟩
    · exact h h4
    · cases h4
  | _ => cases h2

theorem soundWitness_index : soundWitness.adv .brIndex 1 = 0 := by
  have h : ∀ (ρ : Fr) runs strings keys reqs pos,
      (demo linHash ρ runs strings keys reqs pos).witness.adv .brIndex 1 = 0 := by
    intro ρ runs strings keys reqs pos
    show tableCell (ByteRep.assignRows ρ (List.replicate 16 0 :: strings)) (·.index) 1 = 0
    simp [tableCell, ByteRep.assignRows, ByteRep.loop, List.replicate]
  exact h _ _ _ _ _ _

/-- The hypotheses of C61 are met by the first phase of an accepted witness and a false claim: after the
commitment to a first phase that does prove the change of the nonce from 5 to 9, nearly no challenge allows
to claim that it was 6. -/
example : {ρ | ∃ w, w.chal = ρ ∧ SameFirstPhase soundWitness w ∧ Accepted linHash 2049 2049 w ∧
      ∃ r, InU 2049 r ∧ exposed w r = (nonceClaim 6).tuple ρ}.ncard ≤ 31 * (3 * 2049 + 6).choose 2 :=
  c61_claim_partial (.of_mod (by norm_num) soundWitness_index) (nonceClaim_fits (by norm_num)) soundWorld_ok
    (by rw [soundWorld_root]; rfl) soundWorld_safe.free (nonceClaim_decided 6) (nonceClaim_false (by norm_num))

/-- The true claim is accepted for the challenge of the example: the set of C62 is not always empty. -/
example : (256 : Fr) ∈ AcceptingChallenges linHash 2049 2049 soundWitness [nonceClaim 5] := by
  refine ⟨soundWitness, rfl, .refl _, soundWitness_accepted.1, ?_⟩
  intro c hc
  rw [List.mem_singleton] at hc
  subst hc
  obtain ⟨r, hr, he⟩ := soundWitness_accepted.2.2
  refine ⟨r, hr, he.trans ?_⟩
  show _ = [_, _, _, _, _, _, _, _]
  have : rlc soundWitness.chal (beBytes 32 (nonceClaim 5).slot) = 0 := rlc_zero_word _
  rw [this]
  rfl

/-- The hypotheses of `c60_complete` are met by the seventeen operations of the demo. -/
example : ∃ w' steps, runOps linHash demoOps .initial = some (w', steps) ∧ steps.length = 17 ∧
    ∃ ps m es, (jobsOf linHash steps).mapM (fun j => proofFrom linHash j.1 j.2) = some ps ∧
      nRowsRequired linHash ps = some m ∧ hashTraces linHash ps = some es ∧
      ∀ (n U : ℕ) (table : Witness Fr), m ≤ n → 32 * ((updateKeys linHash ps).length + 1) ≤ n → n ≤ U →
        U ≤ 2 ^ 64 → PosTableFits linHash table U (traceInputs es) →
        ∃ w₀, ∀ ρ, ∃ s, serialAssign linHash ρ n ps = some s ∧ SameFirstPhase w₀ (s.witness ρ table) ∧
          Accepted linHash n U (s.witness ρ table) ∧
          ∀ st ∈ steps, ∃ r, Enabled n r ∧
            exposed (s.witness ρ table) r = opTuple linHash ρ st.1 st.2.1 st.2.2 := by
  obtain ⟨w', steps, h1, h2⟩ := safeRun_run demo_safe
  have h3 := (runOps_steps (World.initial_ok linHash) h1).2.1
  have hadr : ∀ op ∈ demoOps, IsBytes op.address ∧ op.address.length = 20 := by
    unfold IsBytes; decide
  exact ⟨w', steps, h1, by rw [← List.length_map (f := (·.1)), h3]; rfl,
    c60_complete (World.initial_ok linHash) h1 hadr h2⟩

end Mpt.Props
