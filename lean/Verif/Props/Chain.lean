import Verif.Spec.Chain
import Verif.Props.PatchedProving
import Mathlib.Data.Set.Finite.List

set_option autoImplicit false

/-!
# C76, C77: chains of proofs
-/

namespace Mpt.Spec
open Mpt Props

variable {H : HashFn}

theorem Leads.append {cs ds : List StateClaim} {W W₁ W₂ : World} (h : Leads H W cs W₁) (h' : Leads H W₁ ds W₂) :
    Leads H W (cs ++ ds) W₂ := by
  induction cs generalizing W with
  | nil => cases h; exact h'
  | cons c cs ih => obtain ⟨V, h1, h2⟩ := h; exact ⟨V, h1, ih h2⟩

theorem history_iff_leads {cs : List StateClaim} {W : World} : History H W cs ↔ ∃ W', Leads H W cs W' := by
  induction cs generalizing W with
  | nil => exact ⟨fun _ => ⟨W, rfl⟩, fun _ => trivial⟩
  | cons c cs ih =>
    constructor
    · rintro ⟨V, h1, h2⟩
      obtain ⟨W', h3⟩ := ih.1 h2
      exact ⟨W', V, h1, h3⟩
    · rintro ⟨W', V, h1, h2⟩
      exact ⟨V, h1, ih.2 ⟨W', h2⟩⟩

theorem Leads.ok {cs : List StateClaim} {W W' : World} (h : Leads H W cs W') (hW : W.OK H) : W'.OK H := by
  induction cs generalizing W with
  | nil => cases h; exact hW
  | cons c cs ih =>
    obtain ⟨V, ⟨op, D⟩, h2⟩ := h
    have := runOps_steps (H := H) (ops := [op]) (w := W) (w' := V) (steps := [(op, W, V)]) hW
      (by simp [runOps, D.apply])
    exact ih h2 this.1

theorem Leads.linked {cs ds : List StateClaim} {W W' : World} (h : Leads H W cs W') {r : Fr}
    (hr : r = W.trie.hash H) (hl : Linked r (cs ++ ds)) : Linked r cs ∧ Linked (W'.trie.hash H) ds := by
  induction cs generalizing W r with
  | nil => cases h; exact ⟨trivial, hr ▸ hl⟩
  | cons c cs ih =>
    obtain ⟨V, ⟨op, D⟩, h2⟩ := h
    obtain ⟨h3, h4⟩ := hl
    obtain ⟨h5, h6⟩ := ih h2 D.newRoot h4
    exact ⟨⟨h3, h5⟩, h6⟩

theorem linked_left {cs ds : List StateClaim} {r : Fr} (hl : Linked r (cs ++ ds)) : Linked r cs := by
  induction cs generalizing r with
  | nil => trivial
  | cons c cs ih => exact ⟨hl.1, ih hl.2⟩

end Mpt.Spec

namespace Mpt.Props
open Mpt Spec Types MptUpdate Requests

variable {H : HashFn} {n U N : ℕ}

/-- The lists of a given length that start in a set. -/
theorem ncard_cons_le {α : Type} [Fintype α] (A : Set α) (B : α → Set (List α)) (m b : ℕ)
    (hB : ∀ x, ∀ l ∈ B x, l.length = m) (hb : ∀ x, (B x).ncard ≤ b) :
    {l : List α | ∃ x l', l = x :: l' ∧ x ∈ A ∧ l' ∈ B x}.ncard ≤ A.ncard * b := by
  classical
  have hfin : ∀ x, (B x).Finite := fun x => (List.finite_length_eq α m).subset fun l hl => hB x l hl
  have hA : A.Finite := Set.toFinite A
  have : {l : List α | ∃ x l', l = x :: l' ∧ x ∈ A ∧ l' ∈ B x} ⊆
      ↑(hA.toFinset.biUnion fun x => (hfin x).toFinset.image (List.cons x)) := by
    rintro l ⟨x, l', rfl, h1, h2⟩
    simp only [Finset.coe_biUnion, Set.mem_iUnion, Finset.mem_coe, Set.Finite.mem_toFinset, Finset.mem_image]
    exact ⟨x, h1, l', h2, rfl⟩
  refine (Set.ncard_le_ncard this (Finset.finite_toSet _)).trans ?_
  rw [Set.ncard_coe_finset]
  refine Finset.card_biUnion_le.trans ?_
  rw [Set.ncard_eq_toFinset_card A hA]
  refine (Finset.sum_le_card_nsmul _ _ b fun x _ => ?_).trans (by simp)
  refine Finset.card_image_le.trans ?_
  rw [← Set.ncard_eq_toFinset_card _ (hfin x)]
  exact hb x

theorem ncard_lists (m : ℕ) : {l : List Fr | l.length = m}.ncard = frModulus ^ m := by
  have h := card_vector (α := Fr) m
  rw [ZMod.card] at h
  rw [← h, ← Nat.card_eq_fintype_card]
  rfl

/-- **Chains, in general.** If a false batch of at most `K` claims can be proved for at most `B` challenges, then a
chain of `m` batches with false claims can be proved for at most `m * B * q ^ (m - 1)` of the `q ^ m` lists of
challenges, even if each batch is chosen after the challenges of the batches before it. -/
theorem fools_le {provable : Batch → Set Fr} {safe : World → Batch → Prop} {K B : ℕ}
    (hfalse : ∀ (b : Batch) (W : World), W.OK H → safe W b → b.claims.length ≤ K → (∀ c ∈ b.claims, c.Fits) →
      Linked (W.trie.hash H) b.claims → ¬ History H W b.claims → (provable b).ncard ≤ B)
    (m : ℕ) {W : World} (hW : W.OK H) (σ : Strategy) :
    {ρs | ρs.length = m ∧ σ.Fools H provable safe K W ρs}.ncard ≤ m * B * frModulus ^ (m - 1) := by
  classical
  induction m generalizing W σ with
  | zero =>
    have : {ρs | ρs.length = 0 ∧ σ.Fools H provable safe K W ρs} = ∅ := by
      rw [Set.eq_empty_iff_forall_notMem]
      rintro ρs ⟨h1, h2⟩
      obtain rfl := List.length_eq_zero_iff.1 h1
      exact h2.false trivial
    rw [this]
    simp
  | succ m ih =>
    have hclaims : ∀ ρ ρs, σ.claims (ρ :: ρs) = (σ []).claims ++ (σ.after ρ).claims ρs := fun ρ ρs => by
      simp [Strategy.claims, Strategy.play]
    have hpow : m * frModulus ^ (m - 1) * frModulus = m * frModulus ^ m := by
      cases m with
      | zero => simp
      | succ m => rw [Nat.add_sub_cancel, pow_succ, mul_assoc]
    by_cases hh : ∃ W', Leads H W (σ []).claims W'
    · obtain ⟨W', hW'⟩ := hh
      have hsub : {ρs | ρs.length = m + 1 ∧ σ.Fools H provable safe K W ρs} ⊆
          {l | ∃ ρ l', l = ρ :: l' ∧ ρ ∈ (Set.univ : Set Fr) ∧
            l' ∈ {ρs | ρs.length = m ∧ (σ.after ρ).Fools H provable safe K W' ρs}} := by
        rintro l ⟨h1, h2⟩
        obtain ⟨ρ, l', rfl⟩ := List.exists_cons_of_length_eq_add_one h1
        refine ⟨ρ, l', rfl, trivial, by simpa using h1, ⟨fun b hb => h2.proved b (List.mem_cons_of_mem _ hb),
          fun b hb => h2.short b (List.mem_cons_of_mem _ hb), fun c hc => h2.fits c (by rw [hclaims]; simp [hc]),
          (hW'.linked rfl (hclaims ρ l' ▸ h2.linked)).2, h2.safe.2 W' hW', fun hh => h2.false ?_⟩⟩
        rw [hclaims, history_iff_leads]
        obtain ⟨W₂, h3⟩ := history_iff_leads.1 hh
        exact ⟨W₂, hW'.append h3⟩
      refine (Set.ncard_le_ncard hsub ((List.finite_length_eq Fr (m + 1)).subset ?_)).trans
        ((ncard_cons_le _ _ m (m * B * frModulus ^ (m - 1)) (fun _ _ h => h.1)
          fun ρ => ih (hW'.ok hW) (σ.after ρ)).trans ?_)
      · rintro l ⟨ρ, l', rfl, -, h1, -⟩
        simpa using h1
      · rw [Set.ncard_univ, Nat.card_eq_fintype_card, ZMod.card, Nat.add_sub_cancel]
        calc frModulus * (m * B * frModulus ^ (m - 1)) = B * (m * frModulus ^ (m - 1) * frModulus) := by ring
          _ = m * B * frModulus ^ m := by rw [hpow]; ring
          _ ≤ (m + 1) * B * frModulus ^ m := by gcongr; omega
    · have hB : (provable (σ [])).ncard ≤ B ∨
          {ρs | ρs.length = m + 1 ∧ σ.Fools H provable safe K W ρs} = ∅ := by
        by_cases he : ∃ ρs, ρs.length = m + 1 ∧ σ.Fools H provable safe K W ρs
        · obtain ⟨l, h1, h2⟩ := he
          obtain ⟨ρ, l', rfl⟩ := List.exists_cons_of_length_eq_add_one h1
          exact .inl (hfalse (σ []) W hW h2.safe.1 (h2.short _ (List.mem_cons_self ..))
            (fun c hc => h2.fits c (by rw [hclaims]; simp [hc])) (linked_left (hclaims ρ l' ▸ h2.linked))
            fun h => hh (history_iff_leads.1 h))
        · refine .inr (Set.eq_empty_iff_forall_notMem.2 fun l hl => he ⟨l, hl⟩)
      rcases hB with hB | hB
      · have hsub : {ρs | ρs.length = m + 1 ∧ σ.Fools H provable safe K W ρs} ⊆
            {l | ∃ ρ l', l = ρ :: l' ∧ ρ ∈ provable (σ []) ∧ l' ∈ {l : List Fr | l.length = m}} := by
          rintro l ⟨h1, h2⟩
          obtain ⟨ρ, l', rfl⟩ := List.exists_cons_of_length_eq_add_one h1
          exact ⟨ρ, l', rfl, h2.proved _ (List.mem_cons_self ..), by simpa using h1⟩
        refine (Set.ncard_le_ncard hsub ((List.finite_length_eq Fr (m + 1)).subset ?_)).trans
          ((ncard_cons_le _ _ m (frModulus ^ m) (fun _ _ h => h) fun ρ => (ncard_lists m).le).trans ?_)
        · rintro l ⟨ρ, l', rfl, -, h1⟩
          simpa using h1
        · rw [Nat.add_sub_cancel]
          gcongr
          exact hB.trans (Nat.le_mul_of_pos_left _ (by omega))
      · rw [hB]
        simp

/-- **C77.** In a chain of `m` proofs with at most `K` claims each, a prover who chooses each
batch of claims and commits to its first phase after he has seen all challenges before it can prove claims that are not a
history of the state for at most `m * 31 * (3 U + 5 K + 1 choose 2) * q ^ (m - 1)` of the `q ^ m` lists of challenges:
the errors of the proofs only add up. -/
theorem c77_chain (hn : n % 32 ≠ 0) (m K : ℕ) {W : World} (hW : W.OK H) (σ : Strategy) :
    {ρs | ρs.length = m ∧ σ.Fools H (fun b => ProvablePatched H n U N b.table b.claims)
      (fun W b => FreeStates H (b.table.unroll N) U W b.claims) K W ρs}.ncard ≤
      m * (31 * (3 * U + 5 * K + 1).choose 2) * frModulus ^ (m - 1) := by
  refine fools_le (fun b W hW hs hK hc hl hf => (c75_false (t₀ := b.table) hn hc hW hl hs hf).trans ?_) m hW σ
  gcongr

/-- **C76 (partial: the claims that the circuit decides, in tables with edges in order).** The same for the circuit as
it is. -/
theorem c76_chain_partial (hn : n % 32 ≠ 0) (m K : ℕ) {W : World} (hW : W.OK H) (σ : Strategy) :
    {ρs | ρs.length = m ∧ σ.Fools H (fun b => ProvableFor H n U N b.table b.claims)
      (fun W b => b.table.Edges n ∧ SafeClaims H (b.table.unroll N) U W b.claims) K W ρs}.ncard ≤
      m * (31 * (3 * U + 5 * K + 1).choose 2) * frModulus ^ (m - 1) := by
  refine fools_le (fun b W hW hs hK hc hl hf => (c74_false_partial hn hs.1 hc hW hl hs.2 hf).trans ?_) m hW σ
  gcongr

/-- The bound on the challenges, in numbers: circuits with at most 2^28 usable rows and 2^28 claims. -/
theorem error_small {U K : ℕ} (hU : U ≤ 2 ^ 28) (hK : K ≤ 2 ^ 28) :
    31 * (3 * U + 5 * K + 1).choose 2 * 2 ^ 186 ≤ frModulus := by
  have h1 : (3 * U + 5 * K + 1).choose 2 ≤ (2 ^ 31 + 1).choose 2 :=
    Nat.choose_le_choose 2 (by omega)
  have h2 : (2 ^ 31 + 1).choose 2 = (2 ^ 31 + 1) * 2 ^ 30 := by
    rw [Nat.choose_two_right]; norm_num
  rw [h2] at h1
  calc 31 * (3 * U + 5 * K + 1).choose 2 * 2 ^ 186 ≤ 31 * ((2 ^ 31 + 1) * 2 ^ 30) * 2 ^ 186 := by gcongr
    _ ≤ frModulus := by unfold frModulus; norm_num

theorem fraction_le {m b q c : ℕ} (h : b * c ≤ q) : m * b * q ^ (m - 1) * c ≤ m * q ^ m := by
  cases m with
  | zero => simp
  | succ m =>
    rw [Nat.add_sub_cancel]
    calc (m + 1) * b * q ^ m * c = (m + 1) * ((b * c) * q ^ m) := by ring
      _ ≤ (m + 1) * (q * q ^ m) := by gcongr
      _ = (m + 1) * q ^ (m + 1) := by rw [pow_succ']

/-- **C77, in numbers.** With at most 2^28 usable rows and 2^28 claims per batch, an adaptive prover succeeds with a false
chain of `m` batches for at most the fraction `m / 2^186` of the lists of challenges. -/
theorem c77_fraction (hn : n % 32 ≠ 0) (hU : U ≤ 2 ^ 28) (m : ℕ) {K : ℕ} (hK : K ≤ 2 ^ 28) {W : World} (hW : W.OK H)
    (σ : Strategy) :
    {ρs | ρs.length = m ∧ σ.Fools H (fun b => ProvablePatched H n U N b.table b.claims)
      (fun W b => FreeStates H (b.table.unroll N) U W b.claims) K W ρs}.ncard * 2 ^ 186 ≤
      m * {ρs : List Fr | ρs.length = m}.ncard := by
  rw [ncard_lists]
  exact (Nat.mul_le_mul_right _ (c77_chain hn m K hW σ)).trans (fraction_le (error_small hU hK))

/-- **C76, in numbers** (partial as `c76_chain_partial`). -/
theorem c76_fraction_partial (hn : n % 32 ≠ 0) (hU : U ≤ 2 ^ 28) (m : ℕ) {K : ℕ} (hK : K ≤ 2 ^ 28) {W : World}
    (hW : W.OK H) (σ : Strategy) :
    {ρs | ρs.length = m ∧ σ.Fools H (fun b => ProvableFor H n U N b.table b.claims)
      (fun W b => b.table.Edges n ∧ SafeClaims H (b.table.unroll N) U W b.claims) K W ρs}.ncard * 2 ^ 186 ≤
      m * {ρs : List Fr | ρs.length = m}.ncard := by
  rw [ncard_lists]
  exact (Nat.mul_le_mul_right _ (c76_chain_partial hn m K hW σ)).trans (fraction_le (error_small hU hK))

/-! ## Completeness -/

/-- A run splits where its steps are split. -/
theorem runOps_split {ops : List Op} {W W' : World} {s₁ s₂ : List (Op × World × World)}
    (h : runOps H ops W = some (W', s₁ ++ s₂)) :
    ∃ ops₁ ops₂ W₁, runOps H ops₁ W = some (W₁, s₁) ∧ runOps H ops₂ W₁ = some (W', s₂) := by
  induction s₁ generalizing ops W with
  | nil => exact ⟨[], ops, W, rfl, h⟩
  | cons s s₁ ih =>
    cases ops with
    | nil => cases h
    | cons op ops =>
      unfold runOps at h
      split at h
      · cases h
      · rename_i V h1
        obtain ⟨⟨V', rest⟩, h2, h3⟩ := Option.map_eq_some_iff.1 h
        simp only [List.cons_append, Prod.mk.injEq, List.cons.injEq] at h3
        obtain ⟨rfl, rfl, rfl⟩ := h3
        obtain ⟨o₁, o₂, W₁, h4, h5⟩ := ih h2
        refine ⟨op :: o₁, o₂, W₁, ?_, h5⟩
        rw [runOps, h1]
        simp [h4]

/-- Chains of honest batches can be proved, if single ones can. -/
theorem chain_true {Q : ℕ → ℕ → ℕ → HaloTable → List StateClaim → Prop}
    (htrue : ∀ {W W' : World} {ops : List Op} {steps : List (Op × World × World)} {cs : List StateClaim},
      W.OK H → runOps H ops W = some (W', steps) →
      List.Forall₂ (fun c (s : Op × World × World) => c.StepBy H s.1 s.2.1 s.2.2) cs steps →
      (∀ c ∈ cs, c.Fits ∧ c.SlotUsed) → (∀ s ∈ steps, CollisionFree H (s.1.Relevant H s.2.1 s.2.2)) →
      ∃ n₀ : ℕ, ∀ n U k : ℕ, n₀ ≤ n → n < U → U < 2 ^ k → k ≤ 64 → ∀ blinding : AdvCol → ℕ → Fr,
        ∃ t₀ : HaloTable, (∀ c, ∀ r ≥ U, t₀.adv c r = blinding c r) ∧ Q n U k t₀ cs)
    {W W' : World} {ops : List Op} {steps : List (Op × World × World)} {css : List (List StateClaim)}
    (hW : W.OK H) (hrun : runOps H ops W = some (W', steps))
    (hcs : List.Forall₂ (fun c (s : Op × World × World) => c.StepBy H s.1 s.2.1 s.2.2) css.flatten steps)
    (hfit : ∀ c ∈ css.flatten, c.Fits ∧ c.SlotUsed)
    (C : ∀ s ∈ steps, CollisionFree H (s.1.Relevant H s.2.1 s.2.2)) :
    ∃ n₀ : ℕ, ∀ n U k : ℕ, n₀ ≤ n → n < U → U < 2 ^ k → k ≤ 64 → ∀ blinding : ℕ → AdvCol → ℕ → Fr,
      ∃ bs : List Batch, bs.map (·.claims) = css ∧
        (∀ i b, bs[i]? = some b → ∀ c, ∀ r ≥ U, b.table.adv c r = blinding i c r) ∧
        ∀ b ∈ bs, Q n U k b.table b.claims := by
  induction css generalizing W ops steps with
  | nil => exact ⟨0, fun n U k _ _ _ _ _ => ⟨[], rfl, by simp, by simp⟩⟩
  | cons cs css ih =>
    simp only [List.flatten_cons] at hcs hfit
    have hsplit : ∃ s₁ s₂, steps = s₁ ++ s₂ ∧
        List.Forall₂ (fun c (s : Op × World × World) => c.StepBy H s.1 s.2.1 s.2.2) cs s₁ ∧
        List.Forall₂ (fun c (s : Op × World × World) => c.StepBy H s.1 s.2.1 s.2.2) css.flatten s₂ := by
      have h1 := List.forall₂_take_append _ _ _ hcs.flip
      have h2 := List.forall₂_drop_append _ _ _ hcs.flip
      exact ⟨_, _, (List.take_append_drop _ _).symm, h1.flip, h2.flip⟩
    obtain ⟨s₁, s₂, rfl, f1, f2⟩ := hsplit
    obtain ⟨ops₁, ops₂, W₁, r1, r2⟩ := runOps_split hrun
    obtain ⟨n₁, h1⟩ := htrue hW r1 f1 (fun c hc => hfit c (by simp [hc])) (fun s hs => C s (by simp [hs]))
    obtain ⟨n₂, h2⟩ := ih (runOps_steps hW r1).1 r2 f2 (fun c hc => hfit c (List.mem_append_right _ hc))
      (fun s hs => C s (by simp [hs]))
    refine ⟨max n₁ n₂, fun n U k a1 a2 a3 a4 blinding => ?_⟩
    obtain ⟨t, g1, g2⟩ := h1 n U k (by omega) a2 a3 a4 (blinding 0)
    obtain ⟨bs, k1, k2, k3⟩ := h2 n U k (by omega) a2 a3 a4 (fun i => blinding (i + 1))
    refine ⟨⟨cs, t⟩ :: bs, by simp [k1], ?_, ?_⟩
    · intro i b hb
      cases i with
      | zero =>
        simp only [List.getElem?_cons_zero, Option.some.injEq] at hb
        subst hb
        exact g1
      | succ i => exact k2 i b (by simpa using hb)
    · intro b hb
      rcases List.mem_cons.1 hb with rfl | hb
      · exact g2
      · exact k3 b hb

/-- **C76, completeness.** If a history is cut into batches in any way, then in circuits that are large enough, and
whatever the blinding is, each batch can be proved for every challenge. -/
theorem c76_true {W W' : World} {ops : List Op} {steps : List (Op × World × World)} {css : List (List StateClaim)}
    (hW : W.OK H) (hrun : runOps H ops W = some (W', steps))
    (hcs : List.Forall₂ (fun c (s : Op × World × World) => c.StepBy H s.1 s.2.1 s.2.2) css.flatten steps)
    (hfit : ∀ c ∈ css.flatten, c.Fits ∧ c.SlotUsed)
    (C : ∀ s ∈ steps, CollisionFree H (s.1.Relevant H s.2.1 s.2.2)) :
    ∃ n₀ : ℕ, ∀ n U k : ℕ, n₀ ≤ n → n < U → U < 2 ^ k → k ≤ 64 → ∀ blinding : ℕ → AdvCol → ℕ → Fr,
      ∃ bs : List Batch, bs.map (·.claims) = css ∧
        (∀ i b, bs[i]? = some b → ∀ c, ∀ r ≥ U, b.table.adv c r = blinding i c r) ∧
        ∀ b ∈ bs, ProvableFor H n U (2 ^ k) b.table b.claims = Set.univ :=
  chain_true (Q := fun n U k t cs => ProvableFor H n U (2 ^ k) t cs = Set.univ) c74_true hW hrun hcs hfit C

/-- **C77, completeness** (with the gaps closed). -/
theorem c77_true {W W' : World} {ops : List Op} {steps : List (Op × World × World)}
    {css : List (List StateClaim)} (hW : W.OK H) (hrun : runOps H ops W = some (W', steps))
    (hcs : List.Forall₂ (fun c (s : Op × World × World) => c.StepBy H s.1 s.2.1 s.2.2) css.flatten steps)
    (hfit : ∀ c ∈ css.flatten, c.Fits ∧ c.SlotUsed)
    (C : ∀ s ∈ steps, CollisionFree H (s.1.Relevant H s.2.1 s.2.2)) :
    ∃ n₀ : ℕ, ∀ n U k : ℕ, n₀ ≤ n → n < U → U < 2 ^ k → k ≤ 64 → ∀ blinding : ℕ → AdvCol → ℕ → Fr,
      ∃ bs : List Batch, bs.map (·.claims) = css ∧
        (∀ i b, bs[i]? = some b → ∀ c, ∀ r ≥ U, b.table.adv c r = blinding i c r) ∧
        ∀ b ∈ bs, ProvablePatched H n U (2 ^ k) b.table b.claims = Set.univ :=
  chain_true (Q := fun n U k t cs => ProvablePatched H n U (2 ^ k) t cs = Set.univ) c75_true hW hrun hcs hfit C

end Mpt.Props
