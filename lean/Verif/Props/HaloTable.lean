import Verif.Halo
import Verif.Props.TestCircuit

set_option autoImplicit false

/-!
# C73: the cyclic table with blinding rows
-/

namespace Mpt

/-- The rows around an assembled circuit are blank. -/
theorem Assembly.quiet (a : Assembly) {U : ℕ} (hlen : a.rows.length = a.n - 1)
    (hfirst : ∀ t, a.threads = some t → 0 < t ∧ a.reqs.head? = some (0, 0, false))
    (hz : Cmd.PosZeroRow a.witness U) : Quiet a.n U a.witness := by
  refine ⟨fun r _ hr => ?_, ?_, hz⟩
  · have hblank : rowAt a.rows r = .blank := by
      unfold rowAt
      split
      · rw [List.getD_eq_default]
        unfold Enabled at hr
        omega
      · rfl
    have hat := a.atRow r
    rw [hblank] at hat
    exact ⟨hat.seg, hat.path, hat.proof, hat.iz 2⟩
  · have hc := a.canonicalAssigned
    have hb := a.byteAssigned
    have hkb : a.witness.adv .kbValue 0 = 0 ∧ a.witness.adv .kbIndex 0 = 0 ∧ a.witness.adv .kbBit 0 = 0 := by
      obtain ⟨c1, c2, c3, -⟩ := KeyBit.cells_eq _ _ 0 a.keyBitAssigned
      have e : KeyBit.reqAt a.kbOff a.kbReqs 0 = (0, 0, false) := by
        rcases ht : a.threads with _ | t
        · simp [KeyBit.reqAt, Assembly.kbOff, ht]
        · have e1 : a.kbOff = 0 := by simp [Assembly.kbOff, ht]
          have e2 : a.kbReqs = KeyBit.parReqs a.reqs t := by simp [Assembly.kbReqs, ht]
          obtain ⟨h0, hh⟩ := hfirst t ht
          rw [e1, e2, KeyBit.reqAt, if_pos (le_refl _), KeyBit.parReqs]
          cases hl : a.reqs with
          | nil => rw [hl] at hh; simp at hh
          | cons q l =>
            rw [hl] at hh
            have hk := chunkSize_pos (len := (q :: l).length) (by simp) h0
            obtain ⟨k', hk'⟩ : ∃ k', chunkSize (q :: l).length t = k' + 1 :=
              ⟨_ - 1, (Nat.succ_pred_eq_of_pos hk).symm⟩
            rw [hk']
            simpa using hh
      rw [e] at c1 c2 c3
      rw [KeyBit.rowSpec_zero] at c1 c2 c3
      exact ⟨c1, c2, c3⟩
    refine ⟨?_, ?_, ?_, ?_, ?_, ?_, ?_, ?_, ?_, ?_, ?_, ?_, ?_⟩
    · rw [a.fixedOK _ (by decide)]; simp [fixedCell]
    · rw [a.fixedOK _ (by decide)]; simp [fixedCell]
    · rw [a.fixedOK _ (by decide)]; simp [fixedCell]
    · rw [a.fixedOK _ (by decide)]; simp [fixedCell]
    · rw [a.fixedOK _ (by decide)]; simp [fixedCell]
    · rw [hb _ (by simp)]; simp [ByteRep.cell, tableCell]
    · rw [hb _ (by simp)]; simp [ByteRep.cell, tableCell]
    · rw [hb _ (by simp)]; simp [ByteRep.cell, tableCell]
    · rw [hc _ (by simp)]; simp [Canonical.cell, tableCell]
    · rw [hc _ (by simp)]; simp [Canonical.cell, tableCell]
    · exact hkb.1
    · exact hkb.2.1
    · exact hkb.2.2

end Mpt

namespace Mpt.Props
open Mpt Spec Types MptUpdate Requests

variable {H : HashFn} {n U N : ℕ}

theorem quiet_of_assign {ρ : Fr} {ps : List Proof} (hp : ∀ p ∈ ps, Parsed H p) {table : Witness Fr}
    (hz : Cmd.PosZeroRow table U) {s : SerialCells} (hs : serialAssign H ρ n ps = some s) :
    Quiet n U (s.witness ρ table) ∧ ∀ threads s', 0 < threads → parAssign H ρ n threads ps = some s' →
      Quiet n U (s'.witness ρ n table) := by
  obtain ⟨br, bits, strings, runs, h1, h2, h3, h4, h5, h6, h7, h8, h9⟩ := serialWitness_eq hp hs
  set rows := runs.flatten ++ List.replicate (n - (1 + totalRows ps)) (URow.padding H) with hrows
  have hq : ∀ th : Option ℕ, (∀ t, th = some t → 0 < t) → Quiet n U (Assembly.witness ⟨H, ρ, n, rows,
      strings, updateKeys H ps, bits, [], table, th⟩) := by
    intro th hth
    refine Assembly.quiet ⟨H, ρ, n, rows, strings, updateKeys H ps, bits, [], table, th⟩ ?_
      (fun t h => ⟨hth t h, keyBitLookups_head h2⟩) hz
    show rows.length = n - 1
    rw [hrows, List.length_append, h8, List.length_replicate]; omega
  refine ⟨?_, fun threads s' hth hs' => ?_⟩
  · rw [h9 table []]
    exact hq none (fun t h => by cases h)
  · obtain ⟨s'', bits', g1, g2, g3, g4⟩ := parWitness_eq hth hp hs
    obtain rfl : s' = s'' := Option.some.inj (hs'.symm.trans g1)
    have hst : s.strings = strings := by
      obtain ⟨br', -, k1, -, -, -, -, -, k7, -⟩ := serialAssign_eq hs
      rw [h1] at k1
      cases k1
      rw [h4] at k7
      exact (Option.some.inj k7).symm
    rw [h2] at g2
    cases g2
    rw [g4 rows table [] (fun table => by rw [hst]; exact h9 table []), hst]
    exact hq (some threads) (fun t h => by cases h; exact hth)


/-- **C73, soundness.** Every table that halo2 accepts -- rotations wrap around, the rows behind the usable
ones are arbitrary -- is, on its usable rows, an accepted witness of the model, and exposes the same tuples.
So everything proved about accepted witnesses holds for tables. -/
theorem c73_sound {t : HaloTable} (h : HaloAccepted H n U N t) :
    ∃ w, Accepted H n U w ∧ t.Holds w N U ∧
      ∀ r < U, lookupExprs.map (fun q => q.evalTable t N r) = exposed w r := by
  have h1 := h.rows
  have h2 := h.blinded
  refine ⟨t.model n N, h.model, ⟨fun c r hr => ?_, fun c r hr => ?_, rfl⟩, fun r hr => ?_⟩
  · show _ = t.adv c ((r : ℤ) % (N : ℤ)).toNat
    rw [mod_of_lt (by omega) (by omega), Int.toNat_natCast]
  · by_cases hc : c = .posEnable
    · subst hc
      have e : (t.model n N).fix .posEnable (r : ℤ) = t.fix .posEnable ((r : ℤ) % (N : ℤ)).toNat := by
        simp [HaloTable.model, HaloTable.unroll]
      rw [e, mod_of_lt (by omega) (by omega), Int.toNat_natCast]
    · rw [h.fixed c hc r hr]
      exact (if_neg hc).symm
  · obtain ⟨h32, -⟩ := dvd_32 h.size
    refine List.map_congr_left fun q hq => ?_
    rw [Query.evalTable_eq]
    refine Query.eval_congr (a := fun _ => true) (f := fixRot) (w := t.model n N) (w' := t.unroll N)
      (r := (r : ℤ)) (fun _ _ _ => rfl)
      (fun c rot e => wrapped_fixed (r := (r : ℤ)) h.fixed h1 h2 h32 ⟨by omega, by omega⟩ c rot e) rfl q ?_
    have hall : (lookupExprs.all (fun q => q.reads (fun _ => true) fixRot)) = true := by
      run_tac do
        let g ← Lean.Elab.Tactic.getMainGoal
        let some (_, _, b) := (← g.getType).eq? | return
        g.assign (← Lean.Meta.mkEqRefl b)
    exact List.all_eq_true.1 hall q hq

/-- The circuit of honest traces, with the first `V` rows as assigned and anything in the others. -/
theorem honest_halo (jobs : List (MPTProofType × SMTTrace)) (hj : ∀ j ∈ jobs, HonestTrace H j.1 j.2) :
    ∃ ps m es, TestCircuit.new H jobs = some ps ∧ nRowsRequired H ps = some m ∧ hashTraces H ps = some es ∧
      ∀ (ρ : Fr) (n U V k : ℕ), m ≤ n + 1 → 2 + totalRows ps ≤ n → 32 * ((updateKeys H ps).length + 1) ≤ n →
        n ≤ U → n < V → U ≤ V → V ≤ 2 ^ k → U < 2 ^ k → k ≤ 64 → max es.length 200 < U →
        (∃ w, TestCircuit.synthesize H ρ n ps = some w ∧
          ∀ t : HaloTable, t.Holds w (2 ^ k) V → HaloAccepted H n U (2 ^ k) t) ∧
        ∀ threads, 0 < threads → ∃ w, TestCircuit.synthesizePar H ρ n threads ps = some w ∧
          ∀ t : HaloTable, t.Holds w (2 ^ k) V → HaloAccepted H n U (2 ^ k) t := by
  obtain ⟨ps, m, es, h1, h2, h3, h4⟩ := c35_complete_tight jobs hj
  refine ⟨ps, m, es, h1, h2, h3, ?_⟩
  intro ρ n U V k hm hr hk hU hnV hUV hVN hN hk64 hes
  obtain ⟨ps', h1', hg⟩ := honest_goods jobs hj
  obtain rfl : ps = ps' := Option.some.inj (h1.symm.trans h1')
  have ht : ∀ e ∈ es, H e.1.1 e.1.2 e.2.1 = e.2.2 := fun e he =>
    ((c36_hash_traces_partial H ps es h3).2.2.2 (fun p hp => by
      obtain ⟨j, -, g⟩ := hg p hp; exact g.hashed) e he).symm
  have hP : ∀ p ∈ ps, Parsed H p := fun p hp => by
    obtain ⟨j, -, g⟩ := hg p hp; exact ⟨_, _, g.parse⟩
  have hl := TestCircuit.load_some ht
  have hfit := TestCircuit.load_fits ht hes
  have h64 : 2 ^ k ≤ 2 ^ 64 := Nat.pow_le_pow_right (by norm_num) hk64
  have h5 : 5 ≤ k := by
    by_contra hlt
    have : 2 ^ k ≤ 2 ^ 4 := Nat.pow_le_pow_right (by norm_num) (by omega)
    omega
  obtain ⟨⟨s, hs, ha⟩, hpar⟩ := h4 ρ n U _ hm hr hk hU (by omega) hfit
  obtain ⟨q1, q2⟩ := quiet_of_assign hP hfit.zero hs
  refine ⟨⟨_, TestCircuit.synthesize_some hs h3 hl, fun t htab =>
    ha.halo q1 hnV hUV hVN hN ⟨k, rfl, h5, hk64⟩ htab⟩, ?_⟩
  intro th hth
  obtain ⟨s', hs', ha'⟩ := hpar th hth
  exact ⟨_, TestCircuit.synthesizePar_some hs' h3 hl, fun t htab =>
    ha'.halo (q2 th s' hth hs') hnV hUV hVN hN ⟨k, rfl, h5, hk64⟩ htab⟩

/-- **C73, completeness.** The circuit synthesized for honest traces, with at least one usable row behind the
rows of the circuit, is accepted by halo2 whatever values are put into the rows that are not usable.
`Verif.Fixtures.Checks` and `Verif.Fixtures.World` instantiate this with the traces of the repository's tests,
the actual Poseidon hash, 2049 rows and `k = 14`. -/
theorem c73_complete (jobs : List (MPTProofType × SMTTrace)) (hj : ∀ j ∈ jobs, HonestTrace H j.1 j.2) :
    ∃ ps m es, TestCircuit.new H jobs = some ps ∧ nRowsRequired H ps = some m ∧ hashTraces H ps = some es ∧
      ∀ (ρ : Fr) (n U k : ℕ), m ≤ n + 1 → 2 + totalRows ps ≤ n → 32 * ((updateKeys H ps).length + 1) ≤ n →
        n < U → U < 2 ^ k → k ≤ 64 → max es.length 200 < U →
        (∃ w, TestCircuit.synthesize H ρ n ps = some w ∧
          ∀ t : HaloTable, t.Holds w (2 ^ k) U → HaloAccepted H n U (2 ^ k) t) ∧
        ∀ threads, 0 < threads → ∃ w, TestCircuit.synthesizePar H ρ n threads ps = some w ∧
          ∀ t : HaloTable, t.Holds w (2 ^ k) U → HaloAccepted H n U (2 ^ k) t := by
  obtain ⟨ps, m, es, h1, h2, h3, h4⟩ := honest_halo jobs hj
  exact ⟨ps, m, es, h1, h2, h3, fun ρ n U k a b c d e f g =>
    h4 ρ n U U k a b c d.le d (le_refl _) e.le e f g⟩

/-- If the circuit takes all usable rows, honest circuits are accepted when the first row behind them
happens to be blank (compare `c73_full`). -/
theorem c73_full_blank (jobs : List (MPTProofType × SMTTrace)) (hj : ∀ j ∈ jobs, HonestTrace H j.1 j.2) :
    ∃ ps m es, TestCircuit.new H jobs = some ps ∧ nRowsRequired H ps = some m ∧ hashTraces H ps = some es ∧
      ∀ (ρ : Fr) (U k : ℕ), m ≤ U + 1 → 2 + totalRows ps ≤ U → 32 * ((updateKeys H ps).length + 1) ≤ U →
        U < 2 ^ k → k ≤ 64 → max es.length 200 < U →
        ∃ w, TestCircuit.synthesize H ρ U ps = some w ∧
          ∀ t : HaloTable, t.Holds w (2 ^ k) (U + 1) → HaloAccepted H U U (2 ^ k) t := by
  obtain ⟨ps, m, es, h1, h2, h3, h4⟩ := honest_halo jobs hj
  exact ⟨ps, m, es, h1, h2, h3, fun ρ U k a b c d e f =>
    (h4 ρ U U (U + 1) k a b c (le_refl _) (by omega) (by omega) d d e f).1⟩

/-- **C73 (finding B17).** If the rows of the circuit take all usable rows, a table is accepted only if six
cells of the first row that is not usable, which halo2 fills with random values, add up to 0: the last row of
the circuit also constrains the row behind it. -/
theorem c73_full {t : HaloTable} (hU : 2 ≤ U) (h : HaloAccepted H U U N t) :
    t.adv (.segment .AccountLeaf0) U + t.adv (.segment .AccountLeaf1) U + t.adv (.segment .AccountLeaf2) U +
      t.adv (.segment .AccountLeaf3) U + t.adv (.segment .StorageTrie) U +
      t.adv (.segment .StorageLeaf0) U = 0 := by
  have ha := h.model
  obtain ⟨f1, f2, -⟩ := ha.final_row hU
  have hr : Enabled U ((U : ℤ) - 1) := ⟨by omega, by omega⟩
  have hc := ha.update _ hr
  have hs := ha.segRepr hr
  have hp := ha.proofRepr hr
  rw [f1] at hs
  rw [f2] at hp
  have e1 : (seg [.Start]).eval (t.model U N) ((U : ℤ) - 1) = 1 := by
    have := OneHot.eval_matches segmentType (t.model U N) ((U : ℤ) - 1) 0 .Start [.Start] (by decide)
      (by simpa using hs)
    simpa [seg, OneHot.curMatches] using this
  have e2 : (prf [.AccountDoesNotExist]).eval (t.model U N) ((U : ℤ) - 1) = 1 := by
    have := OneHot.eval_matches proofType (t.model U N) ((U : ℤ) - 1) 0 .AccountDoesNotExist
      [.AccountDoesNotExist] (by decide) (by simpa using hp)
    simpa [prf, OneHot.curMatches] using this
  simp only [MptUpdate.configure, Cmd.holdsL_append] at hc
  have hc := hc.2
  rw [Cmd.holdsL_iff] at hc
  have hc := hc _ (List.mem_map.2 ⟨MPTProofType.AccountDoesNotExist, by decide, rfl⟩)
  rw [Cmd.holds_cond, e2] at hc
  have hc := hc one_ne_zero
  rw [Cmd.holdsL_append] at hc
  have hc := hc.1
  rw [configureSegmentTransitions, Cmd.holdsL_iff] at hc
  have hc := hc _ (List.mem_map.2 ⟨SegmentType.Start, by decide, rfl⟩)
  rw [Cmd.holds_cond, e1] at hc
  have hc := hc one_ne_zero
  have e3 : ∀ σ : SegmentType, (t.model U N).adv (.segment σ) (U : ℤ) = t.adv (.segment σ) U := by
    intro σ
    show t.adv (.segment σ) ((U : ℤ) % (N : ℤ)).toNat = _
    have := h.blinded
    rw [mod_of_lt (by omega) (by omega), Int.toNat_natCast]
  simp [transitions, Cmd.assert, segNext, OneHot.nextMatches, OneHot.matches, OneHot.get?, OneHot.sum,
    OneHot.nonfirstVariants, EnumIter.iter, SegmentType.iter, segmentType, Cmd.holdsL_cons, Cmd.holds_assertZero, e3] at hc
  linear_combination hc

/-- **C73 (finding B17).** So no assigned witness, honest or not, of a circuit with as many rows as there are
usable rows is accepted for all values of the blinding cells. -/
theorem c73_false (hU : 2 ≤ U) (w : Witness Fr) :
    ∃ t : HaloTable, t.Holds w N U ∧ ¬ HaloAccepted H U U N t := by
  refine ⟨⟨fun c r => if r < U then w.adv c r else if c = .segment .AccountLeaf0 then 1 else 0,
    fun c r => w.fix c r, w.chal⟩, ⟨fun c r hr => if_pos hr, fun c r _ => rfl, rfl⟩, fun h => ?_⟩
  have h1 := c73_full hU h
  simp at h1

end Mpt.Props
