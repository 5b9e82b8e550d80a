import Verif.Props.HonestInput
import Verif.Assign.HonestScenario
import Verif.Assign.HonestAccepted
import Verif.Props.Requests
import Verif.Props.Rows

set_option autoImplicit false

/-!
# Theorems: completeness (C35)

Every list of honest traces (`HonestTrace`, /verif/lean/Verif/Props/HonestInput.lean) is turned into
proofs without a panic, and the cells the circuit then assigns satisfy every gate and every lookup, for
every challenge and every number of threads.
-/

namespace Mpt.Props
open Mpt Spec Types MptUpdate Requests

variable {H : HashFn}

theorem mapM_of_all {α β : Type} (l : List α) (f : α → Option β) (h : ∀ a ∈ l, ∃ b, f a = some b) :
    ∃ bs, l.mapM f = some bs := by
  induction l with
  | nil => exact ⟨[], rfl⟩
  | cons a l ih =>
    obtain ⟨b, hb⟩ := h a (by simp)
    obtain ⟨bs, hbs⟩ := ih fun x hx => h x (by simp [hx])
    exact ⟨b :: bs, by rw [List.mapM_cons, hb, hbs]; rfl⟩

/-- The proofs of a list of honest traces. -/
theorem honest_goods (jobs : List (MPTProofType × SMTTrace)) (hj : ∀ j ∈ jobs, HonestTrace H j.1 j.2) :
    ∃ ps, jobs.mapM (fun j => proofFrom H j.1 j.2) = some ps ∧
      ∀ p ∈ ps, ∃ j ∈ jobs, GoodProof H j.1 j.2 p := by
  induction jobs with
  | nil => exact ⟨[], rfl, by simp⟩
  | cons j jobs ih =>
    obtain ⟨p, hp⟩ := honest_good (hj j (by simp))
    obtain ⟨ps, h1, h2⟩ := ih fun x hx => hj x (by simp [hx])
    refine ⟨p :: ps, by rw [List.mapM_cons, hp.parse, h1]; rfl, ?_⟩
    intro q hq
    rcases List.mem_cons.1 hq with rfl | hq
    · exact ⟨j, by simp, hp⟩
    · obtain ⟨j', hj', hg⟩ := h2 q hq
      exact ⟨j', by simp [hj'], hg⟩

/-- Nothing that does not depend on the number of rows panics. -/
theorem good_rowsOK {ps : List Proof} (h : ∀ p ∈ ps, ∃ t tr, GoodProof H t tr p) :
    (∃ es, hashTraces H ps = some es) ∧ (∃ m, nRowsRequired H ps = some m) ∧
      ∀ ρ, RowsIndependentOK H ρ ps := by
  obtain ⟨es, hes⟩ := mapM_of_all ps (proofEntries H) fun p hp => by
    obtain ⟨t, tr, g⟩ := h p hp; exact g.entries
  obtain ⟨us, hus⟩ := mapM_of_all ps proofU128s fun p hp => by
    obtain ⟨t, tr, g⟩ := h p hp; exact g.u128
  obtain ⟨bs, hbs⟩ := mapM_of_all ps (proofBits H) fun p hp => by
    obtain ⟨t, tr, g⟩ := h p hp; obtain ⟨l, hl, -⟩ := g.bits; exact ⟨l, hl⟩
  have hentries : allEntries H ps = some (((0, 0), HashDomain.Pair.toFr, zeroPairHash H) :: es.flatten) := by
    unfold allEntries; rw [hes]; rfl
  have hu : allU128s ps = some (0 :: us.flatten) := by unfold allU128s; rw [hus]; rfl
  have hb : allBits H ps = some ((0, 0, false) :: (1, 0, true) :: bs.flatten) := by
    unfold allBits; rw [hbs]; rfl
  have hbr : byteRepresentations ps = some
      (sortDedup natCode (ps.map fun p => addressLow p.claim.address),
        sortDedup natCode (ps.flatMap proofU64s), sortDedup natCode (0 :: us.flatten),
        sortDedup frCode (ps.flatMap proofFrs)) := by
    unfold byteRepresentations; rw [hu]; rfl
  have hkb : keyBitLookups H ps = some (sortDedup bitCode ((0, 0, false) :: (1, 0, true) :: bs.flatten)) := by
    unfold keyBitLookups; rw [hb]; rfl
  refine ⟨⟨_, by unfold hashTraces; rw [hentries]; rfl⟩,
    ⟨_, by unfold nRowsRequired; rw [hbr, hkb]; rfl⟩, fun ρ => ?_⟩
  obtain ⟨runs, hruns⟩ := mapM_of_all ps (assignSingleProof H ρ) fun p hp => by
    obtain ⟨t, tr, g⟩ := h p hp; exact ready_assign g.ready
  have hcor : ∀ q ∈ sortDedup bitCode ((0, 0, false) :: (1, 0, true) :: bs.flatten), KeyBit.Correct q := by
    intro q hq
    rw [mem_sortDedup] at hq
    rcases List.mem_cons.1 hq with rfl | hq
    · exact ⟨by decide, by decide⟩
    rcases List.mem_cons.1 hq with rfl | hq
    · exact ⟨by decide, by decide⟩
    obtain ⟨l, hl, hq⟩ := List.mem_flatten.1 hq
    obtain ⟨p, hp, hpl⟩ := (mem_mapM_of _ _ _ hbs).1 l hl
    obtain ⟨t, tr, g⟩ := h p hp
    obtain ⟨l', hl', hc⟩ := g.bits
    rw [hpl] at hl'
    cases hl'
    exact hc q hq
  refine ⟨_, runs, _, _, _, hbr, hruns, hkb, (KeyBit.assignRows_eq _).1 hcor,
    (ByteRep.byteStrings_spec _ _ _ _).2.1 ?_⟩
  intro x hx
  rw [mem_sortDedup] at hx
  obtain ⟨p, hp, hx⟩ := List.mem_flatMap.1 hx
  obtain ⟨t, tr, g⟩ := h p hp
  exact g.frs x hx

/-- **C35 (sharper).** The same with one row less, if the updates and one row of padding fit. The
repository's tests use such a number of rows (`N_ROWS = 2049`, one less than `n_rows_required`). -/
theorem c35_complete_tight (jobs : List (MPTProofType × SMTTrace)) (hj : ∀ j ∈ jobs, HonestTrace H j.1 j.2) :
    ∃ ps m es, jobs.mapM (fun j => proofFrom H j.1 j.2) = some ps ∧ nRowsRequired H ps = some m ∧
      hashTraces H ps = some es ∧
      ∀ (ρ : Fr) (n U : ℕ) (table : Witness Fr), m ≤ n + 1 → 2 + totalRows ps ≤ n → 32 * ((updateKeys H ps).length + 1) ≤ n → n ≤ U →
        U ≤ 2 ^ 64 → PosTableFits H table U (traceInputs es) →
        (∃ s, serialAssign H ρ n ps = some s ∧ Accepted H n U (s.witness ρ table)) ∧
        ∀ threads, 0 < threads →
          ∃ s, parAssign H ρ n threads ps = some s ∧ Accepted H n U (s.witness ρ n table) := by
  obtain ⟨ps, hps, hg⟩ := honest_goods jobs hj
  have hg' : ∀ p ∈ ps, ∃ t tr, GoodProof H t tr p := fun p hp => by
    obtain ⟨j, -, g⟩ := hg p hp; exact ⟨_, _, g⟩
  obtain ⟨⟨es, hes⟩, ⟨m, hm⟩, hR⟩ := good_rowsOK hg'
  refine ⟨ps, m, es, hps, hm, hes, ?_⟩
  intro ρ n U table hn hmn' hk hU hU2 ht
  have hP : ∀ p ∈ ps, Parsed H p := fun p hp => by
    obtain ⟨t, tr, g⟩ := hg' p hp; exact ⟨t, tr, g.parse⟩
  have hka : keysAssertion n (updateKeys H ps).length := by unfold keysAssertion; omega
  obtain ⟨s, hs⟩ := (serialAssign_isSome hP).2 ⟨hR ρ, hmn', hka⟩
  obtain ⟨a, b⟩ := ready_accepted hP (fun p hp => by obtain ⟨t, tr, g⟩ := hg' p hp; exact g.ready)
    (fun p hp => by obtain ⟨t, tr, g⟩ := hg' p hp; exact g.hashed)
    (fun p hp => by obtain ⟨t, tr, g⟩ := hg' p hp; exact g.types) hm hn hmn' hk hU hU2 hes ht hs
  exact ⟨⟨s, hs, a⟩, b⟩

/-- **C35.** Completeness for honest traces: every list of honest traces is parsed; the requests to the
hash table and the number of rows are computed without a panic; and whenever the number of rows is enough
(the row count of `n_rows_required`, and -- finding B7 -- 32 rows for one more than the number of keys) and
the hash table holds the requested hashes, the assignment succeeds, serially and for every number of
threads, and satisfies all gates and lookups. -/
theorem c35_complete (jobs : List (MPTProofType × SMTTrace)) (hj : ∀ j ∈ jobs, HonestTrace H j.1 j.2) :
    ∃ ps m es, jobs.mapM (fun j => proofFrom H j.1 j.2) = some ps ∧ nRowsRequired H ps = some m ∧
      hashTraces H ps = some es ∧
      ∀ (ρ : Fr) (n U : ℕ) (table : Witness Fr), m ≤ n → 32 * ((updateKeys H ps).length + 1) ≤ n → n ≤ U →
        U ≤ 2 ^ 64 → PosTableFits H table U (traceInputs es) →
        (∃ s, serialAssign H ρ n ps = some s ∧ Accepted H n U (s.witness ρ table)) ∧
        ∀ threads, 0 < threads →
          ∃ s, parAssign H ρ n threads ps = some s ∧ Accepted H n U (s.witness ρ n table) := by
  obtain ⟨ps, m, es, h1, h2, h3, h4⟩ := c35_complete_tight jobs hj
  refine ⟨ps, m, es, h1, h2, h3, ?_⟩
  intro ρ n U table hn hk hU hU2 ht
  have hmn : 1 + updateRowsRequired ps ≤ n := by
    obtain ⟨br, h1, h⟩ := Option.bind_eq_some_iff.1 h2
    obtain ⟨bits, h2, h⟩ := Option.bind_eq_some_iff.1 h
    have := Option.some.inj h
    omega
  exact h4 ρ n U table (by omega) (by unfold updateRowsRequired at hmn; omega) hk hU hU2 ht

end Mpt.Props
