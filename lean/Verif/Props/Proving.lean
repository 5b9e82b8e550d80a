import Verif.Spec.Proving
import Verif.Props.HaloTable
import Verif.Props.Challenge

set_option autoImplicit false

/-!
# C74: proofs decide histories
-/

namespace Mpt.Props
open Mpt Spec Types MptUpdate Requests

variable {H : HashFn} {n U N : ℕ}

/-! ## Soundness -/

theorem model_sameFirst {t₀ t : HaloTable} (hN : 0 < N) (h : t₀.SameFirst t N) :
    SameFirstPhase (t₀.model n N) (t.model n N) := by
  have hlt : ∀ r : ℤ, (r % (N : ℤ)).toNat < N := fun r => by
    have h1 := Int.emod_nonneg r (show (N : ℤ) ≠ 0 by omega)
    have h2 := Int.emod_lt_of_pos r (show (0 : ℤ) < (N : ℤ) by omega)
    omega
  refine ⟨fun c r => ?_, fun c hc r => h.adv c hc _ (hlt r)⟩
  simp only [HaloTable.model, HaloTable.unroll]
  rw [h.fix _ _ (hlt r)]

theorem safeClaims_mono {w w' : Witness Fr} (hp : ∀ l r d, PosInputs w' U l r d → PosInputs w U l r d)
    {cs : List StateClaim} {W : World} (hs : SafeClaims H w U W cs) : SafeClaims H w' U W cs := by
  induction cs generalizing W with
  | nil => trivial
  | cons c cs ih =>
    exact ⟨hs.1.mono fun l r d h => h.imp (hp l r d) id, hs.2.1, fun W' hW' => ih (hs.2.2 W' hW')⟩

/-- What can be looked up in an accepted table can be looked up in its unrolling. -/
theorem shows_model {t : HaloTable} (h3 : HaloAccepted H n U N t) {c : StateClaim} (h4 : t.Shows N U c) :
    ClaimExposed c (t.model n N) U := by
  obtain ⟨r, hr, e⟩ := h4
  refine ⟨r, ⟨by omega, by omega⟩, ?_⟩
  have h5 := h3.rows
  have h6 := h3.blinded
  obtain ⟨hd, -⟩ := dvd_32 h3.size
  rw [← show lookupExprs.map (fun q => q.evalTable t N r) = c.tuple (t.model n N).chal from e]
  refine (List.map_congr_left fun q hq => ?_)
  rw [Query.evalTable_eq]
  refine (Query.eval_congr (a := fun _ => true) (f := fixRot) (w := t.model n N) (w' := t.unroll N)
    (r := (r : ℤ)) (fun _ _ _ => rfl)
    (fun c rot e => wrapped_fixed (r := (r : ℤ)) h3.fixed h5 h6 hd ⟨by omega, by omega⟩ c rot e) rfl q ?_).symm
  have hall : (lookupExprs.all (fun q => q.reads (fun _ => true) fixRot)) = true := by
    run_tac do
      let g ← Lean.Elab.Tactic.getMainGoal
      let some (_, _, b) := (← g.getType).eq? | return
      g.assign (← Lean.Meta.mkEqRefl b)
  exact List.all_eq_true.1 hall q hq

theorem edges_model (hn : n % 32 ≠ 0) (hN : n < N) (h2 : 1 < N) {t : HaloTable} (h : t.Edges n) :
    EdgesOK n (t.model n N) := by
  have e : ∀ r : ℕ, r < N → (((r : ℤ) % (N : ℤ)).toNat) = r := fun r hr => by
    rw [mod_of_lt (by omega) (by omega)]; simp
  refine ⟨hn, ?_, h.last.imp (fun g r h1 h2 => ?_) (fun g r hr => ?_)⟩
  · show t.adv .brIndex ((1 : ℤ) % (N : ℤ)).toNat = 0
    rw [mod_of_lt (by omega) (by omega)]
    exact h.first
  · lift r to ℕ using (by omega)
    show t.adv .crByte ((r : ℤ) % (N : ℤ)).toNat = (((frBytes (t.adv .crValue ((r : ℤ) % (N : ℤ)).toNat)).getD 0 0 : ℕ) : Fr)
    rw [e r (by omega)]
    exact g r (by omega) (by omega)
  · obtain ⟨h1, h2⟩ := hr
    lift r to ℕ using (by omega)
    show (t.adv .depth ((r : ℤ) % (N : ℤ)).toNat).val ≤ 248
    rw [e r (by omega)]
    exact g r (by omega) (by omega)

/-- **C74, soundness (partial: the claims that the circuit decides).** Fix what the prover commits to before
the challenge, in a halo2 table with blinding rows, and claims that are linked by their roots and start with
the root of a consistent state. If the claims are not a history of that state, they can be proved for at most
`31 * (3 U + 5 k + 1 choose 2)` of the challenges. -/
theorem c74_false_partial (hn : n % 32 ≠ 0) {t₀ : HaloTable} (h1 : t₀.Edges n) {cs : List StateClaim}
    (hc : ∀ c ∈ cs, c.Fits) {W : World} (hW : W.OK H) (hl : Linked (W.trie.hash H) cs)
    (hs : SafeClaims H (t₀.unroll N) U W cs) (hfalse : ¬ History H W cs) :
    (ProvableFor H n U N t₀ cs).ncard ≤ 31 * (3 * U + 5 * cs.length + 1).choose 2 := by
  by_cases he : ProvableFor H n U N t₀ cs = ∅
  · rw [he]; simp
  obtain ⟨ρ₀, t₁, -, g1, g2, -⟩ := Set.nonempty_iff_ne_empty.2 he
  have hnU := g2.rows
  have hUN := g2.blinded
  have h32 : 32 ≤ N := by
    obtain ⟨k, rfl, hk, -⟩ := g2.size
    exact Nat.pow_le_pow_right (n := 2) (i := 5) (by norm_num) hk
  have hb := edges_model hn (by omega : n < N) (by omega) h1
  have hs' : SafeClaims H (t₀.model n N) U W cs := by
    refine safeClaims_mono (fun l r d => ?_) hs
    rintro ⟨r', hr', x1, x2⟩
    refine ⟨r', hr', ?_, x2⟩
    rw [← x1]
    simp [HaloTable.model]
  refine le_trans (Set.ncard_le_ncard ?_ (Set.toFinite _))
    (c62_history_partial (n := n) hb hc hW hl hs' hfalse)
  rintro ρ ⟨t, rfl, h2, h3, h4⟩
  refine ⟨t.model n N, rfl, model_sameFirst (by omega) h2, h3.model, fun c hcs => ?_⟩
  exact shows_model h3 (h4 c hcs)

/-! ## Completeness -/

theorem valueCode_same {ρ : Fr} {t : MPTProofType} {x y : ℕ} (h : SameValue t x y) :
    valueCode ρ t x = valueCode ρ t y := by
  rcases h with rfl | ⟨rfl, h⟩
  · rfl
  · exact h

theorem slot_eq_zero {op : Op} (h : op.type ≠ .StorageChanged) (h' : op.type ≠ .StorageDoesNotExist) :
    op.slot = 0 := by
  cases op <;> first | rfl | exact absurd rfl h | exact absurd rfl h'

theorem tuple_of_step {c : StateClaim} {op : Op} {W W' : World} (h : c.StepBy H op W W') (hs : c.SlotUsed)
    (ρ : Fr) : opTuple H ρ op W W' = c.tuple ρ := by
  have hslot : op.slot = c.slot := by
    by_cases h1 : c.type = .StorageChanged
    · exact h.slot (.inl h1)
    by_cases h2 : c.type = .StorageDoesNotExist
    · exact h.slot (.inr h2)
    · rw [slot_eq_zero (by rw [h.type]; exact h1) (by rw [h.type]; exact h2)]
      rcases hs with hs | hs | hs
      · exact absurd hs h1
      · exact absurd hs h2
      · exact hs.symm
  unfold opTuple StateClaim.tuple
  rw [h.address, hslot, h.type, ← h.oldRoot, ← h.newRoot, ← valueCode_same h.newValue,
    ← valueCode_same h.oldValue]

/-- A history is a run of operations. -/
theorem history_iff {W : World} {cs : List StateClaim} : History H W cs ↔
    ∃ ops W' steps, runOps H ops W = some (W', steps) ∧
      List.Forall₂ (fun c (s : Op × World × World) => c.StepBy H s.1 s.2.1 s.2.2) cs steps := by
  induction cs generalizing W with
  | nil => exact ⟨fun _ => ⟨[], W, [], rfl, .nil⟩, fun _ => trivial⟩
  | cons c cs ih =>
    constructor
    · rintro ⟨W1, ⟨op, D⟩, h⟩
      obtain ⟨ops, W', steps, e1, e2⟩ := ih.1 h
      refine ⟨op :: ops, W', (op, W, W1) :: steps, ?_, .cons D e2⟩
      rw [runOps, D.apply]
      simp [e1]
    · rintro ⟨ops, W', steps, e1, e2⟩
      cases ops with
      | nil => cases e1; cases e2
      | cons op ops =>
        unfold runOps at e1
        split at e1
        · cases e1
        · rename_i W1 h1
          obtain ⟨⟨W2, rest⟩, h2, h3⟩ := Option.map_eq_some_iff.1 e1
          cases h3
          cases e2 with
          | cons D e2 => exact ⟨W1, ⟨op, D⟩, ih.2 ⟨ops, _, rest, h2, e2⟩⟩

/-- The addresses of a history, its traces, and which operation each claim describes. -/
theorem jobs_of_steps {W W' : World} {ops : List Op} {steps : List (Op × World × World)} {cs : List StateClaim}
    (hW : W.OK H) (hrun : runOps H ops W = some (W', steps))
    (hcs : List.Forall₂ (fun c (s : Op × World × World) => c.StepBy H s.1 s.2.1 s.2.2) cs steps)
    (hfit : ∀ c ∈ cs, c.Fits) (C : ∀ s ∈ steps, CollisionFree H (s.1.Relevant H s.2.1 s.2.2)) :
    (∀ op ∈ ops, IsBytes op.address ∧ op.address.length = 20) ∧
    (∀ j ∈ jobsOf H steps, HonestTrace H j.1 j.2) ∧
    ∀ c ∈ cs, ∃ s ∈ steps, c.StepBy H s.1 s.2.1 s.2.2 := by
  obtain ⟨-, hops, hst⟩ := runOps_steps hW hrun
  have hall : ∀ s ∈ steps, ∃ c ∈ cs, c.StepBy H s.1 s.2.1 s.2.2 := by
    clear hrun hops hst C hfit
    induction hcs with
    | nil => simp
    | cons D _ ih =>
      intro s hs
      rcases List.mem_cons.1 hs with rfl | hs
      · exact ⟨_, by simp, D⟩
      · obtain ⟨c, h1, h2⟩ := ih s hs
        exact ⟨c, by simp [h1], h2⟩
  have hall' : ∀ c ∈ cs, ∃ s ∈ steps, c.StepBy H s.1 s.2.1 s.2.2 := by
    clear hrun hops hst C hfit hall
    induction hcs with
    | nil => simp
    | cons D _ ih =>
      intro c hs
      rcases List.mem_cons.1 hs with rfl | hs
      · exact ⟨_, by simp, D⟩
      · obtain ⟨c, h1, h2⟩ := ih c hs
        exact ⟨c, by simp [h1], h2⟩
  have hadr : ∀ op ∈ ops, IsBytes op.address ∧ op.address.length = 20 := by
    intro op hop
    rw [← hops] at hop
    obtain ⟨s, hs, rfl⟩ := List.mem_map.1 hop
    obtain ⟨c, hc, D⟩ := hall s hs
    rw [D.address]
    exact (hfit c hc).address
  have hj : ∀ j ∈ jobsOf H steps, HonestTrace H j.1 j.2 := by
    intro j hj
    obtain ⟨s, hs, rfl⟩ := List.mem_map.1 hj
    exact op_honest (hadr _ (hops ▸ List.mem_map_of_mem hs)) (hst s hs).1 (hst s hs).2 (C s hs)
  exact ⟨hadr, hj, hall'⟩

theorem shows_of_step {t : HaloTable} {w : Witness Fr} (htab : t.Holds w N U) (hN : U ≤ N) (hU : n < U) {r : ℤ}
    (hr : Enabled n r) {c : StateClaim} {op : Op} {W W' : World} (D : c.StepBy H op W W') (hs : c.SlotUsed)
    (e : exposed w r = opTuple H w.chal op W W') : t.Shows N U c := by
  obtain ⟨hr1, hr2⟩ := hr
  lift r to ℕ using (by omega)
  refine ⟨r, by omega, ?_⟩
  show _ = c.tuple t.chal
  rw [htab.chal, ← tuple_of_step D hs w.chal, ← e]
  refine List.map_congr_left fun q hq => ?_
  rw [Query.evalTable_eq]
  refine Query.eval_here (holds_agree htab hN) ⟨by omega, by omega⟩ q ?_
  have hall : (lookupExprs.all (fun q => q.reads here fixHere)) = true := by
    run_tac do
      let g ← Lean.Elab.Tactic.getMainGoal
      let some (_, _, b) := (← g.getType).eq? | return
      g.assign (← Lean.Meta.mkEqRefl b)
  exact List.all_eq_true.1 hall q hq

/-- **C74, completeness.** If claims are a history of a consistent state, then in every circuit that is large
enough, for all values of the blinding cells, there is a first phase that can be completed for every challenge
to a table that halo2 accepts and in which all the claims can be looked up. -/
theorem c74_true {W W' : World} {ops : List Op} {steps : List (Op × World × World)} {cs : List StateClaim}
    (hW : W.OK H) (hrun : runOps H ops W = some (W', steps))
    (hcs : List.Forall₂ (fun c (s : Op × World × World) => c.StepBy H s.1 s.2.1 s.2.2) cs steps)
    (hfit : ∀ c ∈ cs, c.Fits ∧ c.SlotUsed)
    (C : ∀ s ∈ steps, CollisionFree H (s.1.Relevant H s.2.1 s.2.2)) :
    ∃ n₀ : ℕ, ∀ n U k : ℕ, n₀ ≤ n → n < U → U < 2 ^ k → k ≤ 64 → ∀ blinding : AdvCol → ℕ → Fr,
      ∃ t₀ : HaloTable, (∀ c, ∀ r ≥ U, t₀.adv c r = blinding c r) ∧
        ProvableFor H n U (2 ^ k) t₀ cs = Set.univ := by
  obtain ⟨hadr, hj, hall'⟩ := jobs_of_steps hW hrun hcs (fun c hc => (hfit c hc).1) C
  obtain ⟨ps, m, es, h1, h2, h3, h4⟩ := c35_operations hW hrun hadr C
  obtain ⟨ps', h1', hg⟩ := honest_goods (jobsOf H steps) hj
  obtain rfl : ps = ps' := Option.some.inj (h1.symm.trans h1')
  have ht : ∀ e ∈ es, H e.1.1 e.1.2 e.2.1 = e.2.2 := fun e he =>
    ((c36_hash_traces_partial H ps es h3).2.2.2 (fun p hp => by
      obtain ⟨j, -, g⟩ := hg p hp; exact g.hashed) e he).symm
  have hP : ∀ p ∈ ps, Parsed H p := fun p hp => by
    obtain ⟨j, -, g⟩ := hg p hp; exact ⟨_, _, g.parse⟩
  refine ⟨max 32 (max m (max (32 * ((updateKeys H ps).length + 1)) (max es.length 200))), ?_⟩
  intro n U k hn hU hN hk64 blinding
  simp only [max_le_iff] at hn
  have hfits := TestCircuit.load_fits ht (U := U) (by unfold TestCircuit.maxPoseidonRows; omega)
  have h64 : 2 ^ k ≤ 2 ^ 64 := Nat.pow_le_pow_right (by norm_num) hk64
  have h5 : 5 ≤ k := by
    by_contra hlt
    have : 2 ^ k ≤ 2 ^ 4 := Nat.pow_le_pow_right (by norm_num) (by omega)
    omega
  have key : ∀ ρ, ∃ s, serialAssign H ρ n ps = some s ∧
      Accepted H n U (s.witness ρ (TestCircuit.tableCells es)) ∧
      Quiet n U (s.witness ρ (TestCircuit.tableCells es)) ∧
      ∀ st ∈ steps, ∃ r, Enabled n r ∧ exposed (s.witness ρ (TestCircuit.tableCells es)) r =
        opTuple H ρ st.1 st.2.1 st.2.2 := by
    intro ρ
    obtain ⟨⟨s, hs, ha, hx⟩, -⟩ := h4 ρ n U _ hn.2.1 hn.2.2.1 hU.le (by omega) hfits
    exact ⟨s, hs, ha, (quiet_of_assign hP hfits.zero hs).1, hx⟩
  let tab (ρ : Fr) (w : Witness Fr) : HaloTable :=
    ⟨fun c r => if r < U then w.adv c r else blinding c r, fun c r => w.fix c r, ρ⟩
  obtain ⟨s0, hs0, -, -, -⟩ := key 0
  refine ⟨tab 0 (s0.witness 0 (TestCircuit.tableCells es)), fun c r hr => if_neg (by omega), ?_⟩
  rw [Set.eq_univ_iff_forall]
  intro ρ
  obtain ⟨s, hs, ha, hq, hx⟩ := key ρ
  obtain ⟨s', hs', hsame⟩ := (c60_first_phase H 0 ρ n ps (TestCircuit.tableCells es)).1 s0 hs0
  rw [hs] at hs'
  obtain rfl := Option.some.inj hs'
  set w := s.witness ρ (TestCircuit.tableCells es) with hw
  have hchal : w.chal = ρ := rfl
  have htab : (tab ρ w).Holds w (2 ^ k) U := ⟨fun c r hr => if_pos hr, fun c r _ => rfl, hchal.symm⟩
  refine ⟨tab ρ w, rfl, ⟨fun c r _ => hsame.fix c r, fun c hc r _ => ?_⟩,
    ha.halo hq hU (le_refl _) hN.le hN ⟨k, rfl, h5, hk64⟩ htab, fun c hc => ?_⟩
  · show (if r < U then _ else _) = (if r < U then _ else _)
    rw [hsame.adv c hc r]
  · obtain ⟨st, hst', D⟩ := hall' c hc
    obtain ⟨r, hr, e⟩ := hx st hst'
    exact shows_of_step htab hN.le hU hr D (hfit c hc).2 e

end Mpt.Props
