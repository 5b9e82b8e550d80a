import Verif.Props.PatchedProving
import Verif.Props.ChallengeDemo

set_option autoImplicit false

/-!
# C74, C75: examples
-/

namespace Mpt.Props
open Mpt Spec Types MptUpdate Requests

/-- The claim of one step of a run. -/
def claimOf (H : HashFn) (s : Op × World × World) : StateClaim where
  type := s.1.type
  address := s.1.address
  slot := s.1.slot
  oldRoot := s.2.1.trie.hash H
  newRoot := s.2.2.trie.hash H
  oldValue := opValue H s.1 s.2.1
  newValue := opValue H s.1 s.2.2

def valueFitsB (t : MPTProofType) (x : ℕ) : Bool :=
  match t with
  | .NonceChanged | .CodeSizeExists => Nat.blt x (2 ^ 64)
  | .PoseidonCodeHashExists => true
  | .BalanceChanged | .CodeHashExists | .StorageChanged => Nat.blt x (2 ^ 256)
  | .AccountDoesNotExist | .StorageDoesNotExist | .AccountDestructed => x == 0

theorem valueFits_of {t : MPTProofType} {x : ℕ} (h : valueFitsB t x = true) : ValueFits t x := by
  cases t <;> simp only [valueFitsB, Nat.blt_eq] at h <;> first | trivial | exact h | exact eq_of_beq h

/-- All values of the run are in range. -/
def fitRun (H : HashFn) : List Op → World → Bool
  | [], _ => true
  | op :: ops, w =>
    match op.apply H w with
    | none => false
    | some w' => valueFitsB op.type (opValue H op w) && valueFitsB op.type (opValue H op w') && fitRun H ops w'

theorem fitRun_run {H : HashFn} {ops : List Op} {w w' : World} {steps : List (Op × World × World)}
    (h : fitRun H ops w = true) (hr : runOps H ops w = some (w', steps)) :
    ∀ s ∈ steps, s.1.apply H s.2.1 = some s.2.2 ∧ ValueFits s.1.type (opValue H s.1 s.2.1) ∧
      ValueFits s.1.type (opValue H s.1 s.2.2) := by
  induction ops generalizing w steps with
  | nil => cases hr; simp
  | cons op ops ih =>
    unfold fitRun at h
    unfold runOps at hr
    split at h
    · cases h
    · rename_i w1 h1
      rw [h1] at hr
      obtain ⟨⟨w2, rest⟩, h2, h3⟩ := Option.map_eq_some_iff.1 hr
      cases h3
      simp only [Bool.and_eq_true] at h
      intro s hs
      rcases List.mem_cons.1 hs with rfl | hs
      · exact ⟨h1, valueFits_of h.1.1, valueFits_of h.1.2⟩
      · exact ih h.2 h2 s hs

theorem demo_fits : fitRun linHash demoOps .initial = true := by decide +kernel

/-- The seventeen operations of the demo and their claims meet the hypotheses of `c74_true` and `c75_true`. -/
theorem demo_run_claims : ∃ (cs : List StateClaim) (w' : World) (steps : List (Op × World × World)), cs.length = 17 ∧
    runOps linHash demoOps .initial = some (w', steps) ∧
    List.Forall₂ (fun c (s : Op × World × World) => c.StepBy linHash s.1 s.2.1 s.2.2) cs steps ∧
    (∀ c ∈ cs, c.Fits ∧ c.SlotUsed) ∧
    ∀ s ∈ steps, CollisionFree linHash (s.1.Relevant linHash s.2.1 s.2.2) := by
  obtain ⟨w', steps, h1, h2⟩ := safeRun_run demo_safe
  have h3 := (runOps_steps (World.initial_ok linHash) h1).2.1
  have h4 := fitRun_run demo_fits h1
  have hadr : ∀ op ∈ demoOps, (IsBytes op.address ∧ op.address.length = 20) ∧ op.slot < 2 ^ 256 := by
    unfold IsBytes; decide
  have hst : List.Forall₂ (fun c (s : Op × World × World) => c.StepBy linHash s.1 s.2.1 s.2.2)
      (steps.map (claimOf linHash)) steps := by
    clear h1 h2 h3 hadr
    induction steps with
    | nil => exact .nil
    | cons s l ih =>
      exact .cons ⟨rfl, rfl, fun _ => rfl, (h4 s (by simp)).1, rfl, rfl, .inl rfl, .inl rfl⟩
        (ih fun x hx => h4 x (by simp [hx]))
  refine ⟨steps.map (claimOf linHash), w', steps, by rw [List.length_map, ← List.length_map (f := (·.1)), h3]; rfl,
    h1, hst, ?_, h2⟩
  intro c hc
  obtain ⟨s, hs, rfl⟩ := List.mem_map.1 hc
  have ha := hadr s.1 (h3 ▸ List.mem_map_of_mem hs)
  refine ⟨⟨ha.1, ha.2, (h4 s hs).2.1, (h4 s hs).2.2⟩, ?_⟩
  by_cases h5 : s.1.type = .StorageChanged
  · exact .inl h5
  by_cases h6 : s.1.type = .StorageDoesNotExist
  · exact .inr (.inl h6)
  · exact .inr (.inr (slot_eq_zero h5 h6))

/-- The hypotheses of `c74_true` and `c75_true` are met by the seventeen operations of the demo. -/
example : ∃ cs : List StateClaim, cs.length = 17 ∧ History linHash .initial cs ∧
    ∃ n₀ : ℕ, ∀ n U k : ℕ, n₀ ≤ n → n < U → U < 2 ^ k → k ≤ 64 → ∀ blinding : AdvCol → ℕ → Fr,
      ∃ t₀ : HaloTable, (∀ c, ∀ r ≥ U, t₀.adv c r = blinding c r) ∧
        ProvableFor linHash n U (2 ^ k) t₀ cs = Set.univ := by
  obtain ⟨cs, w', steps, h1, h2, h3, h4, h5⟩ := demo_run_claims
  exact ⟨cs, h1, history_iff.2 ⟨_, _, _, h2, h3⟩, c74_true (World.initial_ok linHash) h2 h3 h4 h5⟩

example : ∃ cs : List StateClaim, cs.length = 17 ∧ History linHash .initial cs ∧
    ∃ n₀ : ℕ, ∀ n U k : ℕ, n₀ ≤ n → n < U → U < 2 ^ k → k ≤ 64 → ∀ blinding : AdvCol → ℕ → Fr,
      ∃ t₀ : HaloTable, (∀ c, ∀ r ≥ U, t₀.adv c r = blinding c r) ∧
        ProvablePatched linHash n U (2 ^ k) t₀ cs = Set.univ := by
  obtain ⟨cs, w', steps, h1, h2, h3, h4, h5⟩ := demo_run_claims
  exact ⟨cs, h1, history_iff.2 ⟨_, _, _, h2, h3⟩, c75_true (World.initial_ok linHash) h2 h3 h4 h5⟩

/-- The table of the accepted witness of the example of C39, with zeros in the unusable rows. -/
def soundTable : HaloTable where
  adv c r := soundWitness.adv c r
  fix c r := soundWitness.fix c r
  chal := soundWitness.chal

theorem soundTable_free : CollisionFree linHash (Or3 (PosInputs (soundTable.unroll 4096) 2049) (soundWorld.Inputs linHash)) := by
  refine soundWorld_safe.free.mono fun l r d h => h.imp ?_ id
  rintro ⟨r', ⟨h0, h1⟩, h2⟩
  lift r' to ℕ using h0
  refine ⟨r', ⟨by omega, h1⟩, ?_⟩
  have e : (((r' : ℤ) % ((4096 : ℕ) : ℤ)).toNat) = r' := by omega
  simpa only [HaloTable.unroll, e, soundTable] using h2

/-- The hypotheses of `c74_false_partial` are met: after the commitment to a first phase that does prove the
change of the nonce from 5 to 9, nearly no challenge allows to prove that it was 6. -/
example : (ProvableFor linHash 2049 2049 4096 soundTable [nonceClaim 6]).ncard ≤
    31 * (3 * 2049 + 5 * [nonceClaim 6].length + 1).choose 2 := by
  refine c74_false_partial (cs := [nonceClaim 6]) (W := soundWorld) (by norm_num)
    ⟨soundWitness_index, .inl fun r h1 h2 => absurd h2 (by omega)⟩
    (fun c hc => ?_) soundWorld_ok ⟨by rw [soundWorld_root]; rfl, trivial⟩
    ⟨soundTable_free, nonceClaim_decided 6, fun _ _ => trivial⟩ ?_
  · rw [List.mem_singleton] at hc; subst hc; exact nonceClaim_fits (by norm_num)
  · rintro ⟨W', hW', -⟩
    exact nonceClaim_false (by norm_num) ⟨W', hW'⟩

/-- The same for `c75_false`. -/
example : (ProvablePatched linHash 2049 2049 4096 soundTable [nonceClaim 6]).ncard ≤
    31 * (3 * 2049 + 5 * [nonceClaim 6].length + 1).choose 2 := by
  refine c75_false (cs := [nonceClaim 6]) (W := soundWorld) (by norm_num)
    (fun c hc => ?_) soundWorld_ok ⟨by rw [soundWorld_root]; rfl, trivial⟩
    ⟨soundTable_free, fun _ _ => trivial⟩ ?_
  · rw [List.mem_singleton] at hc; subst hc; exact nonceClaim_fits (by norm_num)
  · rintro ⟨W', hW', -⟩
    exact nonceClaim_false (by norm_num) ⟨W', hW'⟩

end Mpt.Props
