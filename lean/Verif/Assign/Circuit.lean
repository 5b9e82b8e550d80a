import Verif.Assign.Place
import Verif.Assign.Requests
import Verif.Assign.Fixed
import Verif.Assign.Demo

set_option autoImplicit false

/-!
# Model of `MptCircuitConfig::assign` and `n_rows_required`, /repo/src/mpt.rs:112-285

`none` is a panic. The Poseidon table belongs to the caller (in /repo/src/circuit.rs:43-54 it is filled
from `hash_traces`) and is a parameter: only the Poseidon columns of `table` are used.
-/

namespace Mpt
open Spec MptUpdate Types Requests

/-- `MptCircuitConfig::n_rows_required`, /repo/src/mpt.rs:268-285. -/
def nRowsRequired (H : HashFn) (ps : List Proof) : Option ℕ := do
  let br ← byteRepresentations ps
  let bits ← keyBitLookups H ps
  pure (1 + max (updateRowsRequired ps)
    (max (Canonical.nRowsRequired (updateKeys H ps).length)
      (max (KeyBit.nRowsRequired bits.length)
        (max (ByteRep.nRowsRequired br.1.length br.2.1.length br.2.2.1.length br.2.2.2.length)
          ByteBit.nRowsRequired))))

/-- `assert!(n_rows / 32 - 1 >= keys.len())`, /repo/src/mpt.rs:184-189 (the subtraction underflows if
`n_rows < 32`). -/
def keysAssertion (n k : ℕ) : Prop := 1 ≤ n / 32 ∧ k ≤ n / 32 - 1
/-- /repo/src/mpt.rs:184-189. -/
instance (n k : ℕ) : Decidable (keysAssertion n k) := by unfold keysAssertion; infer_instance

/-- The cells written by the serial branch of `MptCircuitConfig::assign`, /repo/src/mpt.rs:112-250. -/
structure SerialCells where
  updates : ℤ → URow
  keys : List Canonical.Row
  bits : List KeyBit.Row
  strings : List (List ℕ)
  fixed : FixCol → ℤ → Fr

/-- Serial branch of `MptCircuitConfig::assign`, /repo/src/mpt.rs:112-250. -/
def serialAssign (H : HashFn) (ρ : Fr) (n : ℕ) (ps : List Proof) : Option SerialCells := do
  let br ← byteRepresentations ps
  let g ← serialUpdates H ρ n ps
  let keys := updateKeys H ps
  if keysAssertion n keys.length then do
    let cr ← Canonical.assignRows ρ keys n
    let fixed ← assignFixed ρ keys n
    let bits ← keyBitLookups H ps
    let kb ← KeyBit.assignRows bits
    let strings ← ByteRep.byteStrings br.1 br.2.1 br.2.2.1 br.2.2.2
    pure ⟨g, cr, kb, strings, fixed⟩
  else none

/-- The fixed columns, and the Poseidon columns of the caller.
/repo/src/mpt.rs:123-160; the Poseidon columns are the caller's, /repo/src/gadgets/poseidon.rs:63-84. -/
def fixedWith (fixed : FixCol → ℤ → Fr) (table : Witness Fr) : FixCol → ℤ → Fr
  | .posEnable, r => table.fix .posEnable r
  | c, r => fixed c r

/-- The whole witness: the cells of `serialAssign`, and the caller's Poseidon table. The inverse columns
of is-zero gadgets hold the inverses. /repo/src/mpt.rs:112-250. -/
def SerialCells.witness (s : SerialCells) (ρ : Fr) (table : Witness Fr) : Witness Fr where
  adv c r := match c with
    | .brByte => tableCell (ByteRep.assignRows ρ s.strings) (·.byte) r
    | .brValue => tableCell (ByteRep.assignRows ρ s.strings) (·.value) r
    | .brRlc => tableCell (ByteRep.assignRows ρ s.strings) (·.rlc) r
    | .brIndex => tableCell (ByteRep.assignRows ρ s.strings) (·.index) r
    | .brIndexInv =>
      tableCell (ByteRep.assignRows ρ s.strings) (fun x => IsZeroGadget.assignInverse x.index) r
    | .crByte => tableCell s.keys (·.byte) r
    | .crValue => tableCell s.keys (·.value) r
    | .crRlc => tableCell s.keys (·.rlc) r
    | .crDifference => tableCell s.keys (·.difference) r
    | .crDiffInv => tableCell s.keys (fun x => IsZeroGadget.assignInverse x.difference) r
    | .crZeroSoFar => tableCell s.keys (fun x => Canonical.bcell x.zeroSoFar) r
    | .kbValue => tableCell s.bits (·.value) r
    | .kbIndex => tableCell s.bits (·.index) r
    | .kbBit => tableCell s.bits (·.bit) r
    | .kbDiv8 => tableCell s.bits (·.div8) r
    | .kbMod8 => tableCell s.bits (·.mod8) r
    | .kbByte => tableCell s.bits (·.byte) r
    | .posHash | .posLeft | .posRight | .posControl | .posDomain | .posHead => table.adv c r
    | c => (s.updates r).cell c
  fix := fixedWith s.fixed table
  chal := ρ

/-- The inputs of the entries of `hash_traces`. /repo/src/gadgets/mpt_update.rs:2049-2111. -/
def traceInputs (l : List Entry) : List (Fr × Fr × Fr) := l.map fun e => (e.1.1, e.1.2, e.2.1)

/-- What a successful serial assignment has gone through. -/
theorem serialAssign_eq {H : HashFn} {ρ : Fr} {n : ℕ} {ps : List Proof} {s : SerialCells}
    (h : serialAssign H ρ n ps = some s) :
    ∃ br bits, byteRepresentations ps = some br ∧ serialUpdates H ρ n ps = some s.updates ∧
      keysAssertion n (updateKeys H ps).length ∧
      Canonical.assignRows ρ (updateKeys H ps) n = some s.keys ∧
      keyBitLookups H ps = some bits ∧ KeyBit.assignRows bits = some s.bits ∧
      ByteRep.byteStrings br.1 br.2.1 br.2.2.1 br.2.2.2 = some s.strings ∧
      s.fixed = fixedCell n := by
  obtain ⟨br, h1, h⟩ := Option.bind_eq_some_iff.1 h
  obtain ⟨g, h2, h⟩ := Option.bind_eq_some_iff.1 h
  dsimp only at h
  split at h
  swap
  · cases h
  rename_i hk
  obtain ⟨cr, h3, h⟩ := Option.bind_eq_some_iff.1 h
  obtain ⟨fx, h4, h⟩ := Option.bind_eq_some_iff.1 h
  obtain ⟨bits, h5, h⟩ := Option.bind_eq_some_iff.1 h
  obtain ⟨kb, h6, h⟩ := Option.bind_eq_some_iff.1 h
  obtain ⟨st, h7, h⟩ := Option.bind_eq_some_iff.1 h
  cases h
  refine ⟨br, bits, h1, h2, hk, h3, h5, h6, h7, ?_⟩
  have := assignFixed_eq ρ (updateKeys H ps) n (by have := hk.1; omega) hk.2
  rw [this] at h4
  exact (Option.some.inj h4).symm

/-- The witness assigned serially for proofs that were built from traces is the assembly of the
requested tables and the rows of the proofs, followed by padding. -/
theorem serialWitness_eq {H : HashFn} {ρ : Fr} {n : ℕ} {ps : List Proof}
    (hp : ∀ p ∈ ps, Parsed H p) {s : SerialCells} (h : serialAssign H ρ n ps = some s) :
    ∃ br bits strings runs, byteRepresentations ps = some br ∧ keyBitLookups H ps = some bits ∧
      (∀ q ∈ bits, KeyBit.Correct q) ∧
      ByteRep.byteStrings br.1 br.2.1 br.2.2.1 br.2.2.2 = some strings ∧
      ps.mapM (assignSingleProof H ρ) = some runs ∧
      keysAssertion n (updateKeys H ps).length ∧ 2 + totalRows ps ≤ n ∧
      runs.flatten.length = totalRows ps ∧
      ∀ table pos, s.witness ρ table = Assembly.witness ⟨H, ρ, n,
        runs.flatten ++ List.replicate (n - (1 + totalRows ps)) (.padding H), strings,
        updateKeys H ps, bits, pos, table, none⟩ := by
  obtain ⟨br, bits, h1, h2, h3, h4, h5, h6, h7, h8⟩ := serialAssign_eq h
  obtain ⟨hn, runs, r1, r2, r3⟩ := serialUpdates_eq H ρ n ps hp _ h2
  obtain ⟨hc, hb⟩ := KeyBit.correct_of_assigned h6
  refine ⟨br, bits, s.strings, runs, h1, h5, hc, h7, r1, h3, hn, r2, ?_⟩
  intro table pos
  have hk : s.keys = Canonical.rows ρ (updateKeys H ps) n := by rw [Canonical.rows, h4]; rfl
  unfold SerialCells.witness Assembly.witness
  rw [Witness.mk.injEq]
  refine ⟨?_, ?_, rfl⟩
  · funext c r
    cases c <;> first
      | rfl
      | (simp only [hk]; rfl)
      | (simp only [hb, Assembly.kbOff, Assembly.kbReqs, KeyBit.cellFrom]; simp; done)
      | exact congrArg (fun g : ℤ → URow => (g r).cell _) r3
  · funext c r
    cases c <;> first
      | rfl
      | simp only [h8, fixedWith]

end Mpt

namespace Mpt
open Spec MptUpdate Types Requests

/-- The regions written by the parallel branch of `MptCircuitConfig::assign`. /repo/src/mpt.rs:112-250. -/
structure ParCells where
  updates : List (Region URow)
  bits : List (Region KeyBit.Row)
  keys : List (Region Canonical.Row)
  strings : List (List ℕ)

/-- Parallel branch of `MptCircuitConfig::assign`, /repo/src/mpt.rs:112-250, with `threads` worker
threads. -/
def parAssign (H : HashFn) (ρ : Fr) (n threads : ℕ) (ps : List Proof) : Option ParCells := do
  let br ← byteRepresentations ps
  let u ← parUpdates H ρ n ps
  let bits ← keyBitLookups H ps
  let kb ← KeyBit.parRegions bits threads
  let keys := updateKeys H ps
  if keysAssertion n keys.length then do
    let cr ← Canonical.parRegions ρ keys n threads
    let strings ← ByteRep.byteStrings br.1 br.2.1 br.2.2.1 br.2.2.2
    pure ⟨u, kb, cr, strings⟩
  else none

/-- The whole witness of the parallel branch. The fixed columns of the canonical representation are in
its regions, the others are written as in serial mode. /repo/src/mpt.rs:112-250. -/
def ParCells.witness (s : ParCells) (ρ : Fr) (n : ℕ) (table : Witness Fr) : Witness Fr where
  adv c r := match c with
    | .brByte => tableCell (ByteRep.assignRows ρ s.strings) (·.byte) r
    | .brValue => tableCell (ByteRep.assignRows ρ s.strings) (·.value) r
    | .brRlc => tableCell (ByteRep.assignRows ρ s.strings) (·.rlc) r
    | .brIndex => tableCell (ByteRep.assignRows ρ s.strings) (·.index) r
    | .brIndexInv =>
      tableCell (ByteRep.assignRows ρ s.strings) (fun x => IsZeroGadget.assignInverse x.index) r
    | .crByte => stackedCell s.keys (·.byte) r
    | .crValue => stackedCell s.keys (·.value) r
    | .crRlc => stackedCell s.keys (·.rlc) r
    | .crDifference => stackedCell s.keys (·.difference) r
    | .crDiffInv => stackedCell s.keys (fun x => IsZeroGadget.assignInverse x.difference) r
    | .crZeroSoFar => stackedCell s.keys (fun x => Canonical.bcell x.zeroSoFar) r
    | .kbValue => stackedCell s.bits (·.value) r
    | .kbIndex => stackedCell s.bits (·.index) r
    | .kbBit => stackedCell s.bits (·.bit) r
    | .kbDiv8 => stackedCell s.bits (·.div8) r
    | .kbMod8 => stackedCell s.bits (·.mod8) r
    | .kbByte => stackedCell s.bits (·.byte) r
    | .posHash | .posLeft | .posRight | .posControl | .posDomain | .posHead => table.adv c r
    | c => stackedCell s.updates (fun u => u.cell c) r
  fix c r := match c with
    | .selector => enabledOn (List.range' 1 (n - 1)) r
    | .isFinalRow => enabledOn [n - 1] r
    | .brIsFirst => enabledOn [0] r
    | .crIndex => stackedCell s.keys Canonical.Row.index r
    | .crIndexIsZero => stackedCell s.keys (fun x => Canonical.bcell x.indexIsZero) r
    | .crIndexIs31 => stackedCell s.keys (fun x => Canonical.bcell x.indexIs31) r
    | .crModulusByte => stackedCell s.keys Canonical.Row.modulusByte r
    | .bbByte => tableCell ByteBit.rows ByteBit.Row.byte r
    | .bbIndex => tableCell ByteBit.rows ByteBit.Row.index r
    | .bbBit => tableCell ByteBit.rows ByteBit.Row.bit r
    | .posEnable => table.fix .posEnable r
  chal := ρ

/-- The part of the assignment that does not depend on the number of rows does not panic.
/repo/src/mpt.rs:112-250. -/
def RowsIndependentOK (H : HashFn) (ρ : Fr) (ps : List Proof) : Prop :=
  ∃ br runs bits rows strings, byteRepresentations ps = some br ∧
    ps.mapM (assignSingleProof H ρ) = some runs ∧ keyBitLookups H ps = some bits ∧
    KeyBit.assignRows bits = some rows ∧
    ByteRep.byteStrings br.1 br.2.1 br.2.2.1 br.2.2.2 = some strings

theorem updateBlocks_of_mapM (H : HashFn) (ρ : Fr) (ps : List Proof) (runs : List (List URow))
    (h : ps.mapM (assignSingleProof H ρ) = some runs) (off : ℕ) :
    ∃ b, updateBlocks H ρ off ps = some b := by
  induction ps generalizing off runs with
  | nil => exact ⟨_, rfl⟩
  | cons p ps ih =>
    rw [List.mapM_cons] at h
    obtain ⟨a, h1, h⟩ := Option.bind_eq_some_iff.1 h
    obtain ⟨b, h2, h⟩ := Option.bind_eq_some_iff.1 h
    obtain ⟨c, hc⟩ := ih b h2 (off + p.nRows)
    exact ⟨(off, a) :: c, by simp only [updateBlocks, h1, hc]; rfl⟩

theorem keyBitLookups_mem {H : HashFn} {ps : List Proof} {bits : List (Fr × ℕ × Bool)}
    (h : keyBitLookups H ps = some bits) : (0, 0, false) ∈ bits ∧ (1, 0, true) ∈ bits := by
  obtain ⟨l, h1, h2⟩ := Option.map_eq_some_iff.1 h
  obtain ⟨x, h3, h4⟩ := Option.bind_eq_some_iff.1 h1
  cases h4
  subst h2
  constructor <;> rw [mem_sortDedup] <;> simp

/-- When the serial assignment succeeds. -/
theorem serialAssign_isSome {H : HashFn} {ρ : Fr} {n : ℕ} {ps : List Proof}
    (hp : ∀ p ∈ ps, Parsed H p) :
    (∃ s, serialAssign H ρ n ps = some s) ↔
      RowsIndependentOK H ρ ps ∧ 2 + totalRows ps ≤ n ∧ keysAssertion n (updateKeys H ps).length := by
  constructor
  · rintro ⟨s, hs⟩
    obtain ⟨br, bits, h1, h2, h3, h4, h5, h6, h7, h8⟩ := serialAssign_eq hs
    obtain ⟨hn, runs, r1, r2, r3⟩ := serialUpdates_eq H ρ n ps hp _ h2
    exact ⟨⟨br, runs, bits, s.bits, s.strings, h1, r1, h5, h6, h7⟩, hn, h3⟩
  · rintro ⟨⟨br, runs, bits, rows, strings, h1, h2, h3, h4, h5⟩, hn, hk⟩
    obtain ⟨b, hb⟩ := updateBlocks_of_mapM H ρ ps runs h2 1
    have hu : ∃ g, serialUpdates H ρ n ps = some g := by
      simp only [serialUpdates, hb, if_pos hn, Option.bind_eq_bind, Option.bind_some, Option.pure_def]
      exact ⟨_, rfl⟩
    obtain ⟨g, hg⟩ := hu
    have hc : Canonical.assignRows ρ (updateKeys H ps) n =
        some (Canonical.rows ρ (updateKeys H ps) n) := by
      rw [Canonical.rows, Canonical.assignRows_eq _ _ _ (by have := hk.2; omega)]; rfl
    refine ⟨⟨g, Canonical.rows ρ (updateKeys H ps) n, rows, strings, fixedCell n⟩, ?_⟩
    simp only [serialAssign, h1, hg, h3, h4, h5, if_pos hk, hc,
      assignFixed_eq ρ (updateKeys H ps) n (by have := hk.1; omega) hk.2, Option.bind_eq_bind,
      Option.bind_some, Option.pure_def]

/-- When the parallel assignment succeeds. -/
theorem parAssign_isSome {H : HashFn} {ρ : Fr} {n threads : ℕ} {ps : List Proof}
    (ht : 0 < threads) :
    (∃ s, parAssign H ρ n threads ps = some s) ↔
      RowsIndependentOK H ρ ps ∧ (totalRows ps = 0 ∨ 1 + totalRows ps ≤ n) ∧
        keysAssertion n (updateKeys H ps).length := by
  constructor
  · rintro ⟨s, h⟩
    obtain ⟨br, h1, h⟩ := Option.bind_eq_some_iff.1 h
    obtain ⟨u, h2, h⟩ := Option.bind_eq_some_iff.1 h
    obtain ⟨bits, h3, h⟩ := Option.bind_eq_some_iff.1 h
    obtain ⟨kb, h4, h⟩ := Option.bind_eq_some_iff.1 h
    dsimp only at h
    split at h
    swap
    · cases h
    rename_i hk
    obtain ⟨cr, h5, h⟩ := Option.bind_eq_some_iff.1 h
    obtain ⟨st, h6, h⟩ := Option.bind_eq_some_iff.1 h
    obtain ⟨reg, h7, h8⟩ := Option.bind_eq_some_iff.1 h2
    obtain ⟨runs, h9, -⟩ := Option.bind_eq_some_iff.1 h7
    have hm := (keyBitLookups_mem h3).1
    have hc := KeyBit.par_correct bits threads ht (List.ne_nil_of_mem hm) h4
    refine ⟨⟨br, runs, bits, _, st, h1, h9, h3, (KeyBit.assignRows_eq bits).1 hc, h6⟩, ?_, hk⟩
    by_cases h0 : totalRows ps = 0
    · exact .inl h0
    · rw [if_neg h0] at h8
      split at h8
      · right; assumption
      · cases h8
  · rintro ⟨⟨br, runs, bits, rows, strings, h1, h2, h3, h4, h5⟩, hn, hk⟩
    have hu : ∃ u, parUpdates H ρ n ps = some u := by
      simp only [parUpdates, parUpdateRegions, h2, Option.bind_eq_bind, Option.bind_some,
        Option.pure_def]
      by_cases h0 : totalRows ps = 0
      · exact ⟨_, if_pos h0⟩
      · exact ⟨_, by rw [if_neg h0, if_pos (hn.resolve_left h0)]⟩
    obtain ⟨u, hu⟩ := hu
    have hm := (keyBitLookups_mem h3).1
    obtain ⟨kb, hkb, -⟩ := KeyBit.par_cells bits threads ht (List.ne_nil_of_mem hm)
      (KeyBit.correct_of_assigned h4).1
    obtain ⟨cr, hcr, -⟩ := Canonical.par_eq_serial ρ (updateKeys H ps) n threads ht
      (by have := hk.1; omega) (by have := hk.2; omega)
    refine ⟨⟨u, kb, cr, strings⟩, ?_⟩
    simp only [parAssign, h1, hu, h3, hkb, h5, if_pos hk, hcr, Option.bind_eq_bind,
      Option.bind_some, Option.pure_def]

/-- The witness assigned in parallel is the assembly of the same tables and rows, with the parallel
layout of the key bits, whenever the serial assignment succeeds. -/
theorem parWitness_eq {H : HashFn} {ρ : Fr} {n threads : ℕ} (ht : 0 < threads) {ps : List Proof}
    (hp : ∀ p ∈ ps, Parsed H p) {s : SerialCells} (h : serialAssign H ρ n ps = some s) :
    ∃ s' bits, parAssign H ρ n threads ps = some s' ∧ keyBitLookups H ps = some bits ∧
      s'.strings = s.strings ∧
      ∀ rows table pos, (∀ table, s.witness ρ table = Assembly.witness ⟨H, ρ, n, rows, s.strings,
          updateKeys H ps, bits, pos, table, none⟩) →
        s'.witness ρ n table = Assembly.witness ⟨H, ρ, n, rows, s.strings,
          updateKeys H ps, bits, pos, table, some threads⟩ := by
  obtain ⟨br, bits, h1, h2, h3, h4, h5, h6, h7, h8⟩ := serialAssign_eq h
  obtain ⟨hc, hb⟩ := KeyBit.correct_of_assigned h6
  obtain ⟨u, hu, hucell⟩ := Props.c15_updates n ps hp _ h2
  have hm := (keyBitLookups_mem h5).1
  obtain ⟨kb, hkb, hkbcell⟩ := KeyBit.par_cells bits threads ht (List.ne_nil_of_mem hm) hc
  have h32 : 32 ≤ n := by have := h3.1; omega
  obtain ⟨cr, hcr, hcrcell⟩ := Canonical.par_eq_serial ρ (updateKeys H ps) n threads ht h32
    (by have := h3.2; omega)
  refine ⟨⟨u, kb, cr, s.strings⟩, bits, ?_, h5, rfl, ?_⟩
  · simp only [parAssign, h1, hu, h5, hkb, h7, if_pos h3, hcr, Option.bind_eq_bind,
      Option.bind_some, Option.pure_def]
  intro rows table pos hs
  have hfix := assignFixed_eq ρ (updateKeys H ps) n h32 h3.2
  have hrows : Canonical.assignRows ρ (updateKeys H ps) n =
      some (Canonical.rows ρ (updateKeys H ps) n) := by
    rw [Canonical.rows, Canonical.assignRows_eq _ _ _ (by have := h3.2; omega)]; rfl
  rw [assignFixed, if_neg (by unfold keysAssertion at h3; omega), hrows, Option.map_some] at hfix
  have hfix' := Option.some.inj hfix
  have hupd : ∀ c, isUpdateCol c → ∀ r, (s.updates r).cell c = (rowAt rows r).cell c := by
    intro c hcu r
    have := congrArg (fun w : Witness Fr => w.adv c r) (hs table)
    cases c <;> first
      | exact this
      | exact absurd hcu (by simp [isUpdateCol])
  have hkz : ∀ f : KeyBit.Row → Fr, f ⟨0, 0, 0, 0, 0, 0⟩ = 0 → ∀ r, stackedCell kb f r =
      tableCell ((KeyBit.parReqs bits threads).map KeyBit.rowSpec) f (r + 1) := by
    intro f hf r
    exact hkbcell f (by rw [KeyBit.rowSpec_zero]; exact hf) r
  have hk0 : ∀ f : KeyBit.Row → Fr, f ⟨0, 0, 0, 0, 0, 0⟩ = 0 → ∀ r, stackedCell kb f r =
      tableCell ((KeyBit.parReqs bits threads).map KeyBit.rowSpec) f
        (r + 1 - Assembly.kbOff ⟨H, ρ, n, rows, s.strings, updateKeys H ps, bits, pos, table,
          some threads⟩) := by
    intro f hf r
    rw [show Assembly.kbOff _ = 0 from rfl, sub_zero]
    exact hkz f hf r
  have hu' : ∀ c, isUpdateCol c → ∀ r,
      (ParCells.witness ⟨u, kb, cr, s.strings⟩ ρ n table).adv c r =
        (Assembly.witness ⟨H, ρ, n, rows, s.strings, updateKeys H ps, bits, pos, table,
          some threads⟩).adv c r := by
    intro c hcu r
    have e := (hucell c r).trans (hupd c hcu r)
    cases c <;> first
      | exact e
      | exact absurd hcu (by simp [isUpdateCol])
  have ha : ∀ c r, (ParCells.witness ⟨u, kb, cr, s.strings⟩ ρ n table).adv c r =
        (Assembly.witness ⟨H, ρ, n, rows, s.strings, updateKeys H ps, bits, pos, table,
          some threads⟩).adv c r := by
    intro c r
    by_cases hcu : isUpdateCol c
    · exact hu' c hcu r
    cases c with
    | kbValue => exact hk0 (·.value) rfl r
    | kbIndex => exact hk0 (·.index) rfl r
    | kbBit => exact hk0 (·.bit) rfl r
    | kbDiv8 => exact hk0 (·.div8) rfl r
    | kbMod8 => exact hk0 (·.mod8) rfl r
    | kbByte => exact hk0 (·.byte) rfl r
    | crValue | crByte | crDifference | crRlc | crZeroSoFar | crDiffInv => exact hcrcell _ _
    | brValue | brIndex | brByte | brRlc | brIndexInv => rfl
    | posHash | posLeft | posRight | posControl | posDomain | posHead => rfl
    | _ => exact absurd trivial hcu
  have hx : ∀ c r, (ParCells.witness ⟨u, kb, cr, s.strings⟩ ρ n table).fix c r =
        (Assembly.witness ⟨H, ρ, n, rows, s.strings, updateKeys H ps, bits, pos, table,
          some threads⟩).fix c r := by
    intro c r
    have e := congrFun (congrFun hfix' c) r
    cases c with
    | crIndex | crIndexIsZero | crIndexIs31 | crModulusByte => exact (hcrcell _ _).trans e
    | posEnable => rfl
    | _ => exact e
  have hext : ∀ w₁ w₂ : Witness Fr, (∀ c r, w₁.adv c r = w₂.adv c r) →
      (∀ c r, w₁.fix c r = w₂.fix c r) → w₁.chal = w₂.chal → w₁ = w₂ := by
    rintro ⟨a₁, f₁, c₁⟩ ⟨a₂, f₂, c₂⟩ h1 h2 h3
    simp only [Witness.mk.injEq]
    exact ⟨funext fun c => funext fun r => h1 c r, funext fun c => funext fun r => h2 c r, h3⟩
  exact hext _ _ ha hx rfl

end Mpt
