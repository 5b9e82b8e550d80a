import Verif.Props.Proving
import Verif.Props.PatchedComplete

set_option autoImplicit false

/-!
# C75: with the gaps closed, proofs decide all histories
-/

namespace Mpt.Props
open Mpt Spec Types MptUpdate Requests

variable {H : HashFn} {n U N : ℕ}

/-- The challenges for which the first phase of `t₀` can be completed to a table that halo2 accepts, that also
satisfies the missing constraints (C63, and the cells at the edges of the tables are in order, B1 and B2), and in which all
the claims can be looked up. -/
def ProvablePatched (H : HashFn) (n U N : ℕ) (t₀ : HaloTable) (cs : List StateClaim) : Set Fr :=
  {ρ | ∃ t : HaloTable, t.chal = ρ ∧ t₀.SameFirst t N ∧ HaloAccepted H n U N t ∧ t.Edges n ∧
    Patched H n U (t.unroll N) ∧ ∀ c ∈ cs, t.Shows N U c}

theorem ProvablePatched.subset {t₀ : HaloTable} {cs : List StateClaim} :
    ProvablePatched H n U N t₀ cs ⊆ ProvableFor H n U N t₀ cs := by
  rintro ρ ⟨t, h1, h2, h3, -, -, h4⟩
  exact ⟨t, h1, h2, h3, h4⟩

theorem freeStates_mono {w w' : Witness Fr} (hp : ∀ l r d, PosInputs w' U l r d → PosInputs w U l r d)
    {cs : List StateClaim} {W : World} (hs : FreeStates H w U W cs) : FreeStates H w' U W cs := by
  induction cs generalizing W with
  | nil => trivial
  | cons c cs ih =>
    exact ⟨hs.1.mono fun l r d h => h.imp (hp l r d) id, fun W' hW' => ih (hs.2 W' hW')⟩

theorem decode_adv {T : Type} [DecidableEq T] [EnumIter T] (o : OneHot T) {w w' : Witness Fr} {r : ℤ}
    (h : ∀ c, w'.adv c r = w.adv c r) : o.decode w' r = o.decode w r := by
  unfold OneHot.decode
  simp only [h]

/-- The missing constraints read the rows of the circuit and the one after them, and the Poseidon table. -/
theorem patched_congr {w w' : Witness Fr} (hU : n < U) (h : ∀ c r, InU U r → w'.adv c r = w.adv c r)
    (hfix : ∀ r, InU U r → w'.fix .posEnable r = w.fix .posEnable r) (hc : w'.chal = w.chal)
    (P : Patched H n U w) : Patched H n U w' := by
  have h0 : ∀ {r : ℤ}, Enabled n r → InU U r := fun {r} hr => ⟨by have := hr.1; omega, by have := hr.2; omega⟩
  have h1 : ∀ {r : ℤ}, Enabled n r → InU U (r + 1) := fun {r} hr => ⟨by have := hr.1; omega, by have := hr.2; omega⟩
  have hseg : ∀ {r : ℤ}, InU U r → segAt w' r = segAt w r := fun {r} hr => decode_adv _ fun c => h c r hr
  have hpath : ∀ {r : ℤ}, InU U r → pathAt w' r = pathAt w r := fun {r} hr => decode_adv _ fun c => h c r hr
  have hproof : ∀ {r : ℤ}, InU U r → proofAt w' r = proofAt w r := fun {r} hr => decode_adv _ fun c => h c r hr
  have htrie : ∀ {r : ℤ}, InU U r → (IsTrieRow w' r ↔ IsTrieRow w r) := fun {r} hr => by
    unfold IsTrieRow; rw [hseg hr]
  have hPR : PR H w' U = PR H w U := by
    have : PosInputs w' U = PosInputs w U := by
      funext l rr d
      unfold PosInputs
      refine propext (exists_congr fun r => and_congr_right fun hr => ?_)
      rw [hfix r hr, h _ r hr, h _ r hr, h _ r hr, h _ r hr, h _ r hr]
    show hashRel H (PosInputs w' U) = _
    rw [this]
  refine ⟨?_, ?_, ?_, ?_, ?_, ?_, ?_, ?_, ?_⟩
  · intro r hr hs
    rw [hseg (h0 hr)] at hs
    rw [h _ r (h0 hr), h _ r (h0 hr)]
    exact P.leafKey r hr hs
  · intro r hr hr1 e1 e2 e3
    rw [hseg (h0 hr)] at e1
    rw [hseg (h0 hr1)] at e2
    rw [hpath (h0 hr1)] at e3
    rw [h _ r (h0 hr)]
    exact P.emptyRoot r hr hr1 e1 e2 e3
  · intro r hr e1 e2 i hi e3
    rw [htrie (h0 hr)] at e1
    rw [hpath (h0 hr)] at e2
    rw [h _ r (h0 hr)] at e3
    have := P.levels r hr e1 e2 i hi e3
    simp only [htrie (h1 hr), h _ r (h0 hr)]
    exact this
  · intro r hr e1 e2
    rw [hseg (h0 hr)] at e1
    rw [hproof (h0 hr)] at e2
    rw [hpath (h0 hr)]
    exact P.storageAccount r hr e1 e2
  · intro r hr e1 e2
    rw [hseg (h0 hr)] at e1
    rw [hpath (h0 hr)] at e2
    rw [h _ r (h0 hr), h _ r (h0 hr), hPR, hc]
    exact P.newWord r hr e1 e2
  · intro r hr e1 e2
    rw [hseg (h0 hr)] at e1
    rw [hpath (h0 hr)] at e2
    rw [h _ r (h0 hr), h _ r (h0 hr), hPR, hc]
    exact P.oldWord r hr e1 e2
  · intro r hr hr1 e1 e2
    rw [hseg (h0 hr)] at e1
    rw [hpath (h0 hr)] at e2
    rw [hseg (h0 hr1)]
    exact P.leafFollows r hr hr1 e1 e2
  · intro r hr e1 e2 e3
    rw [hseg (h0 hr)] at e1
    rw [hpath (h0 hr)] at e2
    rw [hproof (h0 hr)] at e3
    rw [h _ r (h0 hr)]
    exact P.newAccount r hr e1 e2 e3
  · intro r hr e1 e2 e3
    rw [hseg (h0 hr)] at e1
    rw [hpath (h0 hr)] at e2
    rw [hpath (h1 hr)] at e3
    have := P.removal r hr e1 e2 e3
    simp only [hseg (h1 hr), h _ r (h0 hr)]
    exact this

theorem patched_model {t : HaloTable} (P : Patched H n U (t.unroll N)) : Patched H n U (t.model n N) := by
  obtain ⟨h1, h2, h3, h4, h5, h6, h7, h8, h9⟩ := P
  have hPR : PR H (t.model n N) U = PR H (t.unroll N) U := by
    have : PosInputs (t.model n N) U = PosInputs (t.unroll N) U := by
      funext l rr d
      unfold PosInputs
      simp [HaloTable.model]
    show hashRel H (PosInputs (t.model n N) U) = _
    rw [this]
  exact ⟨h1, h2, h3, h4, by rw [hPR]; exact h5, by rw [hPR]; exact h6, h7, h8, h9⟩

/-- **C75, soundness.** Fix what the prover commits to before the challenge, in a halo2 table with blinding
rows, and claims of any kind that are linked by their roots and start with the root of a consistent state. If
the claims are not a history of that state, they can be proved for at most `31 * (3 U + 5 k + 1 choose 2)` of
the challenges, with the missing constraints in place. -/
theorem c75_false (hn : n % 32 ≠ 0) {t₀ : HaloTable} {cs : List StateClaim}
    (hc : ∀ c ∈ cs, c.Fits) {W : World} (hW : W.OK H) (hl : Linked (W.trie.hash H) cs)
    (hs : FreeStates H (t₀.unroll N) U W cs) (hfalse : ¬ History H W cs) :
    (ProvablePatched H n U N t₀ cs).ncard ≤ 31 * (3 * U + 5 * cs.length + 1).choose 2 := by
  by_cases he : ProvablePatched H n U N t₀ cs = ∅
  · rw [he]; simp
  obtain ⟨ρ₀, t₁, -, g1, g2, g3, -⟩ := Set.nonempty_iff_ne_empty.2 he
  have hnU := g2.rows
  have hUN := g2.blinded
  have h32 : 32 ≤ N := by
    obtain ⟨k, rfl, hk, -⟩ := g2.size
    exact Nat.pow_le_pow_right (n := 2) (i := 5) (by norm_num) hk
  have hb := edges_model hn (by omega : n < N) (by omega)
    ⟨(g1.adv .brIndex rfl 1 (by omega)).trans g3.first, g3.last.imp (fun g r h1 h2 => by
      rw [g1.adv .crByte rfl r (by omega), g1.adv .crValue rfl r (by omega)]
      exact g r h1 h2) (fun g r h1 h2 => by rw [g1.adv .depth rfl r (by omega)]; exact g r h1 h2)⟩
  have hs' : FreeStates H (t₀.model n N) U W cs := by
    refine freeStates_mono (fun l r d => ?_) hs
    rintro ⟨r', hr', x1, x2⟩
    refine ⟨r', hr', ?_, x2⟩
    rw [← x1]
    simp [HaloTable.model]
  refine le_trans (Set.ncard_le_ncard ?_ (Set.toFinite _)) (c64_history (n := n) hb hc hW hl hs' hfalse)
  rintro ρ ⟨t, rfl, h2, h3, -, hP, h4⟩
  refine ⟨t.model n N, rfl, model_sameFirst (by omega) h2, h3.model, patched_model hP, fun c hcs => ?_⟩
  exact shows_model h3 (h4 c hcs)

/-- **C75, completeness.** If claims are a history of a consistent state, then in every circuit that is large
enough, and whatever the blinding is, the prover can commit to a first phase with which the claims can be proved
for every challenge, with the missing constraints in place. -/
theorem c75_true {W W' : World} {ops : List Op} {steps : List (Op × World × World)} {cs : List StateClaim}
    (hW : W.OK H) (hrun : runOps H ops W = some (W', steps))
    (hcs : List.Forall₂ (fun c (s : Op × World × World) => c.StepBy H s.1 s.2.1 s.2.2) cs steps)
    (hfit : ∀ c ∈ cs, c.Fits ∧ c.SlotUsed)
    (C : ∀ s ∈ steps, CollisionFree H (s.1.Relevant H s.2.1 s.2.2)) :
    ∃ n₀ : ℕ, ∀ n U k : ℕ, n₀ ≤ n → n < U → U < 2 ^ k → k ≤ 64 → ∀ blinding : AdvCol → ℕ → Fr,
      ∃ t₀ : HaloTable, (∀ c, ∀ r ≥ U, t₀.adv c r = blinding c r) ∧
        ProvablePatched H n U (2 ^ k) t₀ cs = Set.univ := by
  obtain ⟨hadr, hj, hall'⟩ := jobs_of_steps hW hrun hcs (fun c hc => (hfit c hc).1) C
  obtain ⟨ps, m, es, h1, h2, h3, h4⟩ := c65_operations hW hrun hadr C
  obtain ⟨ps', h1', hg⟩ := honest_goods (jobsOf H steps) hj
  obtain rfl : ps = ps' := Option.some.inj (h1.symm.trans h1')
  have ht : ∀ e ∈ es, H e.1.1 e.1.2 e.2.1 = e.2.2 := fun e he =>
    ((c36_hash_traces_partial H ps es h3).2.2.2 (fun p hp => by
      obtain ⟨j, -, g⟩ := hg p hp; exact g.hashed) e he).symm
  have hP : ∀ p ∈ ps, Parsed H p := fun p hp => by
    obtain ⟨j, -, g⟩ := hg p hp; exact ⟨_, _, g.parse⟩
  refine ⟨max 32 (max m (max (32 * ((updateKeys H ps).length + 1)) (max es.length 200))), ?_⟩
  intro n U k hn hU hN hk64 blinding
  simp only [max_le_iff] at hn
  have hfits := TestCircuit.load_fits ht (U := U) (by unfold TestCircuit.maxPoseidonRows; omega)
  have h64 : 2 ^ k ≤ 2 ^ 64 := Nat.pow_le_pow_right (by norm_num) hk64
  have h5 : 5 ≤ k := by
    by_contra hlt
    have : 2 ^ k ≤ 2 ^ 4 := Nat.pow_le_pow_right (by norm_num) (by omega)
    omega
  have key : ∀ ρ, ∃ s, serialAssign H ρ n ps = some s ∧
      Accepted H n U (s.witness ρ (TestCircuit.tableCells es)) ∧
      Patched H n U (s.witness ρ (TestCircuit.tableCells es)) ∧
      (s.witness ρ (TestCircuit.tableCells es)).adv .brIndex 1 = 0 ∧
      TrailingOK n (s.witness ρ (TestCircuit.tableCells es)) ∧
      Quiet n U (s.witness ρ (TestCircuit.tableCells es)) ∧
      ∀ st ∈ steps, ∃ r, Enabled n r ∧ exposed (s.witness ρ (TestCircuit.tableCells es)) r =
        opTuple H ρ st.1 st.2.1 st.2.2 := by
    intro ρ
    obtain ⟨⟨s, hs, ha, hp, hx⟩, -⟩ := h4 ρ n U _ hn.2.1 hn.2.2.1 hU.le (by omega) hfits
    obtain ⟨br, bits, strings, runs, -, -, -, k4, -, k6, -, -, k9⟩ := serialWitness_eq hP hs
    have hk : (updateKeys H ps).length ≤ n / 32 := by have := k6.2; omega
    refine ⟨s, hs, ha, hp, ?_, ?_, (quiet_of_assign hP hfits.zero hs).1, hx⟩
    · rw [k9 (TestCircuit.tableCells es) []]
      exact Assembly.brIndex_one (fun s hs => ((strings_mem k4).2.2.2.2 s hs).2.1)
    · rw [k9 (TestCircuit.tableCells es) []]
      exact Assembly.trailingOK (a := ⟨H, ρ, n, _, strings, updateKeys H ps, bits, [], _, none⟩)
        hk
  let tab (ρ : Fr) (w : Witness Fr) : HaloTable :=
    ⟨fun c r => if r < U then w.adv c r else blinding c r, fun c r => w.fix c r, ρ⟩
  obtain ⟨s0, hs0, -⟩ := key 0
  refine ⟨tab 0 (s0.witness 0 (TestCircuit.tableCells es)), fun c r hr => if_neg (by omega), ?_⟩
  rw [Set.eq_univ_iff_forall]
  intro ρ
  obtain ⟨s, hs, ha, hp, hb, hT, hq, hx⟩ := key ρ
  obtain ⟨s', hs', hsame⟩ := (c60_first_phase H 0 ρ n ps (TestCircuit.tableCells es)).1 s0 hs0
  rw [hs] at hs'
  obtain rfl := Option.some.inj hs'
  set w := s.witness ρ (TestCircuit.tableCells es) with hw
  have hchal : w.chal = ρ := rfl
  have htab : (tab ρ w).Holds w (2 ^ k) U := ⟨fun c r hr => if_pos hr, fun c r _ => rfl, hchal.symm⟩
  have hagree := holds_agree htab hN.le
  refine ⟨tab ρ w, rfl, ⟨fun c r _ => hsame.fix c r, fun c hc r _ => ?_⟩,
    ha.halo hq hU (le_refl _) hN.le hN ⟨k, rfl, h5, hk64⟩ htab,
    ⟨(htab.adv .brIndex 1 (by omega)).trans (by exact_mod_cast hb), .inl fun r h1 h2 => by
      rw [htab.adv .crByte r (by omega), htab.adv .crValue r (by omega)]
      exact hT r (by omega) (by omega)⟩,
    patched_congr hU hagree.adv (fun r hr => hagree.fix _ r hr) hagree.chal hp, fun c hc => ?_⟩
  · show (if r < U then _ else _) = (if r < U then _ else _)
    rw [hsame.adv c hc r]
  · obtain ⟨st, hst', D⟩ := hall' c hc
    obtain ⟨r, hr, e⟩ := hx st hst'
    exact shows_of_step htab hN.le hU hr D (hfit c hc).2 e

end Mpt.Props
