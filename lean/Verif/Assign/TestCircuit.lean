import Verif.Assign.Circuit

set_option autoImplicit false

/-!
# The test circuit and its hash table

`PoseidonTable::load` (/repo/src/gadgets/poseidon.rs:54-84) and `TestCircuit` (/repo/src/circuit.rs).
-/

namespace Mpt.TestCircuit
open Mpt Types Requests MptUpdate

/-- `MAX_POSEIDON_ROWS`, /repo/src/gadgets/poseidon.rs:9. -/
def maxPoseidonRows : ℕ := 200

/-- The entry written on row `r`: the table starts on row 0. /repo/src/gadgets/poseidon.rs:58-76. -/
def entryAt (es : List Entry) (r : ℤ) : Option Entry := if 0 ≤ r then es[r.toNat]? else none

/-- The cells `PoseidonTable::load` writes. Rows from `es.length` to `maxPoseidonRows` are enabled and
otherwise blank. /repo/src/gadgets/poseidon.rs:54-84. -/
def tableCells (es : List Entry) : Witness Fr where
  adv c r := match c with
    | .posLeft => (entryAt es r).elim 0 (fun e => e.1.1)
    | .posRight => (entryAt es r).elim 0 (fun e => e.1.2)
    | .posDomain => (entryAt es r).elim 0 (fun e => e.2.1)
    | .posHash => (entryAt es r).elim 0 (fun e => e.2.2)
    | .posHead => (entryAt es r).elim 0 (fun _ => 1)
    | _ => 0
  fix c r := match c with
    | .posEnable => if 0 ≤ r ∧ r < max es.length maxPoseidonRows then 1 else 0
    | _ => 0
  chal := 0

/-- `PoseidonTable::load`: panics (`none`) when an entry is not a true hash.
/repo/src/gadgets/poseidon.rs:54-84. -/
def load (H : HashFn) (es : List Entry) : Option (Witness Fr) :=
  if ∀ e ∈ es, H e.1.1 e.1.2 e.2.1 = e.2.2 then some (tableCells es) else none

/-- `TestCircuit::synthesize` with the serial assignment. /repo/src/circuit.rs:40-55. -/
def synthesize (H : HashFn) (ρ : Fr) (n : ℕ) (ps : List Proof) : Option (Witness Fr) := do
  let s ← serialAssign H ρ n ps
  let es ← hashTraces H ps
  let table ← load H es
  pure (s.witness ρ table)

/-- `TestCircuit::synthesize` with the parallel assignment. /repo/src/circuit.rs:40-55. -/
def synthesizePar (H : HashFn) (ρ : Fr) (n threads : ℕ) (ps : List Proof) : Option (Witness Fr) := do
  let s ← parAssign H ρ n threads ps
  let es ← hashTraces H ps
  let table ← load H es
  pure (s.witness ρ n table)

/-- `TestCircuit::new`. /repo/src/circuit.rs:19-24. -/
def new (H : HashFn) (jobs : List (MPTProofType × SMTTrace)) : Option (List Proof) :=
  jobs.mapM (fun j => proofFrom H j.1 j.2)

variable {H : HashFn} {es : List Entry}

theorem load_some (h : ∀ e ∈ es, H e.1.1 e.1.2 e.2.1 = e.2.2) : load H es = some (tableCells es) := by
  rw [load, if_pos h]

/-- Loading the table notices a wrong hash. -/
theorem load_none {e : Entry} (he : e ∈ es) (h : e.2.2 ≠ H e.1.1 e.1.2 e.2.1) : load H es = none := by
  rw [load, if_neg fun h' => h (h' e he).symm]

theorem of_load {t : Witness Fr} (h : load H es = some t) : t = tableCells es := by
  unfold load at h
  split at h
  · exact (Option.some.inj h).symm
  · simp at h

theorem tableCells_enable (r : ℤ) :
    (tableCells es).fix .posEnable r = if 0 ≤ r ∧ r < ((max es.length 200 : ℕ) : ℤ) then 1 else 0 := rfl

theorem synthesize_some {ρ : Fr} {n : ℕ} {ps : List Proof} {s : SerialCells} {t : Witness Fr}
    (h1 : serialAssign H ρ n ps = some s) (h2 : hashTraces H ps = some es) (h3 : load H es = some t) :
    synthesize H ρ n ps = some (s.witness ρ t) := by
  unfold synthesize
  rw [h1, Option.bind_eq_bind, Option.bind_some, h2, Option.bind_eq_bind, Option.bind_some, h3,
    Option.bind_eq_bind, Option.bind_some]
  rw [Option.pure_def]

theorem synthesizePar_some {ρ : Fr} {n threads : ℕ} {ps : List Proof} {s : ParCells} {t : Witness Fr}
    (h1 : parAssign H ρ n threads ps = some s) (h2 : hashTraces H ps = some es) (h3 : load H es = some t) :
    synthesizePar H ρ n threads ps = some (s.witness ρ n t) := by
  unfold synthesizePar
  rw [h1, Option.bind_eq_bind, Option.bind_some, h2, Option.bind_eq_bind, Option.bind_some, h3,
    Option.bind_eq_bind, Option.bind_some]
  rw [Option.pure_def]

/-- The loaded table serves all entries, if a row of the circuit remains blank. -/
theorem load_fits (h : ∀ e ∈ es, H e.1.1 e.1.2 e.2.1 = e.2.2) {U : ℕ} (hU : max es.length maxPoseidonRows < U) :
    PosTableFits H (tableCells es) U (traceInputs es) := by
  refine ⟨?_, ?_, ?_, ?_⟩
  · intro r _
    show (if _ then (1 : Fr) else 0) = 0 ∨ (if _ then (1 : Fr) else 0) = 1
    split <;> simp
  · intro r _ _ _ h3
    have h' : (entryAt es r).elim (0 : Fr) (fun _ => 1) = 1 := h3
    show (entryAt es r).elim 0 (fun e => e.2.2) = H ((entryAt es r).elim 0 (fun e => e.1.1))
      ((entryAt es r).elim 0 (fun e => e.1.2)) ((entryAt es r).elim 0 (fun e => e.2.1))
    rcases hp : entryAt es r with _ | e
    · rw [hp] at h'; simp at h'
    · have he : e ∈ es := by
        unfold entryAt at hp
        split at hp
        · exact List.mem_of_getElem? hp
        · simp at hp
      exact (h e he).symm
  · have e0 : entryAt es (max es.length maxPoseidonRows : ℕ) = none := by
      simp [entryAt]
    refine ⟨(max es.length maxPoseidonRows : ℕ), ⟨by omega, by omega⟩, ?_, ?_, ?_, ?_, ?_, ?_, ?_⟩
    · show (if 0 ≤ ((max es.length maxPoseidonRows : ℕ) : ℤ) ∧
        ((max es.length maxPoseidonRows : ℕ) : ℤ) < max es.length maxPoseidonRows then (1 : Fr) else 0) = 0
      rw [if_neg]
      push_cast
      omega
    · show (entryAt es _).elim _ _ = _
      rw [e0]; rfl
    · show (entryAt es _).elim _ _ = _
      rw [e0]; rfl
    · show (entryAt es _).elim _ _ = _
      rw [e0]; rfl
    · rfl
    · show (entryAt es _).elim _ _ = _
      rw [e0]; rfl
    · show (entryAt es _).elim _ _ = _
      rw [e0]; rfl
  · intro x hx
    obtain ⟨⟨⟨l, rr⟩, d, hh⟩, he, hxe⟩ := List.mem_map.1 hx
    cases hxe
    obtain ⟨k, hk, hkk⟩ := List.getElem_of_mem he
    have e : entryAt es (k : ℤ) = some ((l, rr), d, hh) := by
      simp [entryAt, List.getElem?_eq_getElem hk, hkk]
    have ht : H l rr d = hh := h _ he
    have hen : (tableCells es).fix .posEnable (k : ℤ) = 1 := by
      show (if 0 ≤ (k : ℤ) ∧ (k : ℤ) < max es.length maxPoseidonRows then (1 : Fr) else 0) = 1
      rw [if_pos]
      omega
    refine ⟨(k : ℤ), ⟨by omega, by omega⟩, ?_, ?_, ?_, ?_, ?_, ?_, ?_⟩
    · exact hen.symm
    all_goals simp [tableCells, e, ht]

end Mpt.TestCircuit
