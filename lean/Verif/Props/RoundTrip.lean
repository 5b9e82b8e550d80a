import Verif.Props.OperationsDemo

set_option autoImplicit false

/-!
# Assigned circuits meet the hypotheses of the soundness theorems

The soundness theorems C16-C32 and C53-C55 are about accepted witnesses with sound lookup tables. The circuits
that `assign` fills for the operations of a state (C35, C52) are such witnesses, for every number of rows that
is not a multiple of 32. At the end: one concrete circuit that exposes claims of all eight types.
-/

namespace Mpt.Props
open Mpt Spec Types MptUpdate Requests

variable {H : HashFn}

/-- The first row of an assigned byte table starts a string. -/
theorem brIndex_first (ρ : Fr) (strings : List (List ℕ)) :
    tableCell (ByteRep.assignRows ρ strings) (·.index) 1 = 0 := by
  have h := tableCell_succ (ByteRep.assignRows ρ strings) (·.index) 0
  simp only [Nat.cast_zero, zero_add] at h
  rw [h]
  induction strings with
  | nil => simp [ByteRep.assignRows]
  | cons s l ih =>
    cases s with
    | nil =>
      have e : ByteRep.assignRows ρ ([] :: l) = ByteRep.assignRows ρ l := by
        simp [ByteRep.assignRows, ByteRep.loop]
      rw [e]
      exact ih (by simpa [tableCell] using rfl)
    | cons b s => simp [ByteRep.assignRows, ByteRep.loop]

/-- An operation can be looked up. -/
def OpExposed (H : HashFn) (w : Witness Fr) (U : ℕ) (s : Op × World × World) : Prop :=
  Exposes w U s.1.type (beVal s.1.address : Fr) (rlc w.chal (beBytes 32 s.1.slot))
    (rootRlc w.chal (s.2.1.trie.hash H)) (rootRlc w.chal (s.2.2.trie.hash H))
    (valueCode w.chal s.1.type (opValue H s.1 s.2.1)) (valueCode w.chal s.1.type (opValue H s.1 s.2.2))

/-- The cells at the edges of the tables of an assigned circuit are in order, in serial and in parallel mode. -/
theorem edges_of_assign {ρ : Fr} {n : ℕ} {ps : List Proof} (hP : ∀ p ∈ ps, Parsed H p) (hn : n % 32 ≠ 0)
    {s : SerialCells} (h : serialAssign H ρ n ps = some s) (table : Witness Fr) :
    EdgesOK n (s.witness ρ table) ∧
      ∀ threads, 0 < threads → ∀ s', parAssign H ρ n threads ps = some s' → EdgesOK n (s'.witness ρ n table) := by
  obtain ⟨br, bits, strings, runs, k1, k2, k3, k4, k5, k6, k7, k8, k9⟩ := serialWitness_eq hP h
  have hk : (updateKeys H ps).length ≤ n / 32 := by have := k6.2; omega
  refine ⟨⟨hn, brIndex_first ρ s.strings, .inl ?_⟩, fun threads ht s' hs' => ⟨hn, brIndex_first ρ s'.strings, .inl ?_⟩⟩
  · rw [k9 table []]
    exact Assembly.trailingOK (a := ⟨H, ρ, n, _, strings, updateKeys H ps, bits, [], table, none⟩) hk
  · obtain ⟨s₂, bits₂, g1, g2, g3, g4⟩ := parWitness_eq ht hP h
    obtain rfl : s₂ = s' := Option.some.inj (g1.symm.trans hs')
    obtain rfl : bits = bits₂ := Option.some.inj (k2.symm.trans g2)
    have hstr : strings = s.strings := by
      obtain ⟨br', bits', f1, -, -, -, -, -, f7, -⟩ := serialAssign_eq h
      obtain rfl : br = br' := Option.some.inj (k1.symm.trans f1)
      exact Option.some.inj (k4.symm.trans f7)
    rw [hstr] at k9
    rw [g4 _ table [] (fun table => k9 table [])]
    exact Assembly.trailingOK (a := ⟨H, ρ, n, _, s.strings, updateKeys H ps, bits, [], table, some threads⟩) hk

/-- The circuits of C52, serial and parallel, have sound tables and expose the operations, if the number of rows
is not a multiple of 32. -/
theorem c52_tables {ops : List Op} {w w' : World} {steps : List (Op × World × World)} (hw : w.OK H)
    (hrun : runOps H ops w = some (w', steps))
    (hadr : ∀ op ∈ ops, IsBytes op.address ∧ op.address.length = 20)
    (C : ∀ s ∈ steps, CollisionFree H (s.1.Relevant H s.2.1 s.2.2)) :
    ∃ ps m es, (jobsOf H steps).mapM (fun j => proofFrom H j.1 j.2) = some ps ∧ nRowsRequired H ps = some m ∧
      hashTraces H ps = some es ∧
      ∀ (ρ : Fr) (n U : ℕ) (table : Witness Fr), m ≤ n → 32 * ((updateKeys H ps).length + 1) ≤ n → n % 32 ≠ 0 →
        n ≤ U → U ≤ 2 ^ 64 → PosTableFits H table U (traceInputs es) →
        (∃ s, serialAssign H ρ n ps = some s ∧ Accepted H n U (s.witness ρ table) ∧
          TablesOK (s.witness ρ table) U ∧ ∀ st ∈ steps, OpExposed H (s.witness ρ table) U st) ∧
        ∀ threads, 0 < threads →
          ∃ s, parAssign H ρ n threads ps = some s ∧ Accepted H n U (s.witness ρ n table) ∧
            TablesOK (s.witness ρ n table) U ∧ ∀ st ∈ steps, OpExposed H (s.witness ρ n table) U st := by
  obtain ⟨ps, m, es, a1, a2, a3, a4⟩ := c35_operations hw hrun hadr C
  refine ⟨ps, m, es, a1, a2, a3, fun ρ n U table b1 b2 b3 b4 b5 b6 => ?_⟩
  obtain ⟨⟨s, h1, h2, h3⟩, hpar⟩ := a4 ρ n U table b1 b2 b4 b5 b6
  have hP : ∀ p ∈ ps, Parsed H p := fun p hp => by
    obtain ⟨j, -, hj⟩ := (mem_mapM_of _ _ _ a1).1 p hp
    exact ⟨_, _, hj⟩
  obtain ⟨e1, e2⟩ := edges_of_assign hP b3 h1 table
  refine ⟨⟨s, h1, h2, h2.tablesOK e1, fun st hst => ?_⟩, fun threads ht => ?_⟩
  · obtain ⟨r, hr, e⟩ := h3 st hst
    exact ⟨r, enabled_inU hr b4, e⟩
  · obtain ⟨s, h1, h2, h3⟩ := hpar threads ht
    refine ⟨s, h1, h2, h2.tablesOK (e2 threads ht s h1), fun st hst => ?_⟩
    obtain ⟨r, hr, e⟩ := h3 st hst
    exact ⟨r, enabled_inU hr b4, e⟩

/-! ## One circuit with all types of claims -/

/-- `trieRowsFrom` by structural recursion, for evaluation in the kernel. -/
def trieRowsFuel (key : Fr) (lo ln : ℕ) (oldLeafHash newLeafHash : Fr) :
    ℕ → ℕ → List SMTNode → List SMTNode → Option (List TrieRow)
  | 0, _, _, _ => none
  | _ + 1, _, [], [] => some []
  | f + 1, i, old :: olds, new :: news => do
    let direction ← bit true key i
    let row ← bothRow lo ln i direction old new
    let rest ← trieRowsFuel key lo ln oldLeafHash newLeafHash f (i + 1) olds news
    pure (row :: rest)
  | f + 1, i, old :: olds, [] => do
    let direction ← bit true key i
    let row ← leftRow newLeafHash direction old
    let rest ← trieRowsFuel key lo ln oldLeafHash newLeafHash f (i + 1) olds []
    pure (row :: rest)
  | f + 1, i, [], new :: news => do
    let direction ← bit true key i
    let row ← rightRow oldLeafHash direction new
    let rest ← trieRowsFuel key lo ln oldLeafHash newLeafHash f (i + 1) [] news
    pure (row :: rest)

theorem trieRowsFuel_eq (key : Fr) (lo ln : ℕ) (a b : Fr) (f i : ℕ) (x y : List SMTNode)
    (h : x.length + y.length < f) :
    trieRowsFuel key lo ln a b f i x y = trieRowsFrom key lo ln a b i x y := by
  induction f generalizing i x y with
  | zero => omega
  | succ f ih =>
    cases x <;> cases y <;> simp only [List.length_cons, List.length_nil] at h
    · rw [trieRowsFuel, trieRowsFrom]
    · rw [trieRowsFuel, trieRowsFrom, ih _ _ _ (by simp only [List.length_nil]; omega)]
    · rw [trieRowsFuel, trieRowsFrom, ih _ _ _ (by simp only [List.length_nil]; omega)]
    · rw [trieRowsFuel, trieRowsFrom, ih _ _ _ (by omega)]

/-- `internalFrom` by structural recursion, for evaluation in the kernel. -/
def internalFuel (key : Fr) (oldLeafHash newLeafHash : Fr) (lo ln : ℕ) :
    ℕ → ℕ → List SMTNode → List SMTNode → Option (List HashRow)
  | 0, _, _, _ => none
  | _ + 1, _, [], [] => some []
  | f + 1, i, old :: olds, new :: news => do
    let direction ← bit true key i
    let row ← if old.sibling = new.sibling then do
        let od ← HashDomain.ofNat? old.nodeType
        let nd ← HashDomain.ofNat? new.nodeType
        let d ← commonDomain lo ln i direction od nd
        let o ← fr old.value
        let n ← fr new.value
        let s ← fr old.sibling
        some (HashRow.mk direction d o n s false false)
      else none
    let rest ← internalFuel key oldLeafHash newLeafHash lo ln f (i + 1) olds news
    pure (row :: rest)
  | f + 1, i, old :: olds, [] => do
    let direction ← bit true key i
    let d ← HashDomain.ofNat? old.nodeType
    let o ← fr old.value
    let s ← fr old.sibling
    let rest ← internalFuel key oldLeafHash newLeafHash lo ln f (i + 1) olds []
    pure (HashRow.mk direction d o newLeafHash s false true :: rest)
  | f + 1, i, [], new :: news => do
    let direction ← bit true key i
    let d ← HashDomain.ofNat? new.nodeType
    let n ← fr new.value
    let s ← fr new.sibling
    let rest ← internalFuel key oldLeafHash newLeafHash lo ln f (i + 1) [] news
    pure (HashRow.mk direction d oldLeafHash n s true false :: rest)

theorem internalFuel_eq (key : Fr) (lo ln : ℕ) (a b : Fr) (f i : ℕ) (x y : List SMTNode)
    (h : x.length + y.length < f) :
    internalFuel key a b lo ln f i x y = internalFrom key a b lo ln i x y := by
  induction f generalizing i x y with
  | zero => omega
  | succ f ih =>
    cases x <;> cases y <;> simp only [List.length_cons, List.length_nil] at h
    · rw [internalFuel, internalFrom]
    · rw [internalFuel, internalFrom, ih _ _ _ (by simp only [List.length_nil]; omega)]
    · rw [internalFuel, internalFrom, ih _ _ _ (by simp only [List.length_nil]; omega)]
    · rw [internalFuel, internalFrom, ih _ _ _ (by omega)]

theorem trieRowsFrom_eval (key : Fr) (lo ln : ℕ) (a b : Fr) (i : ℕ) (x y : List SMTNode) :
    trieRowsFrom key lo ln a b i x y = trieRowsFuel key lo ln a b (x.length + y.length + 1) i x y :=
  (trieRowsFuel_eq _ _ _ _ _ _ _ _ _ (by omega)).symm

theorem internalFrom_eval (key : Fr) (lo ln : ℕ) (a b : Fr) (i : ℕ) (x y : List SMTNode) :
    internalFrom key a b lo ln i x y = internalFuel key a b lo ln (x.length + y.length + 1) i x y :=
  (internalFuel_eq _ _ _ _ _ _ _ _ _ (by omega)).symm

/-- The numbers that decide how many rows the demo needs. -/
def demoSize : Option (ℕ × ℕ × ℕ) := do
  let r ← runOps linHash demoOps .initial
  let ps ← (jobsOf linHash r.2).mapM (fun j => proofFrom linHash j.1 j.2)
  let m ← nRowsRequired linHash ps
  let es ← hashTraces linHash ps
  pure (m, (updateKeys linHash ps).length, (traceInputs es).length)

theorem demoSize_eq : demoSize.map (fun x => decide (x.1 ≤ 4097 ∧ x.2.1 ≤ 127 ∧ x.2.2 ≤ 4096)) = some true := by
  simp only [demoSize, proofFrom, storageProofFrom, trieRowsNew, getInternalHashTraces, trieRowsFrom_eval,
    internalFrom_eval]
  decide +kernel

/-- **The demo circuits**: `n` rows, assigned for the seventeen operations of `demoOps`, accepted, with the edges of
the tables in order, hence with sound tables, and exposing the operations, for every challenge and every size `n` that
is large enough and not a multiple of 32. -/
theorem demo_circuit_of (ρ : Fr) (n : ℕ) (h4 : 4097 ≤ n) (hn : n % 32 ≠ 0) (h64 : n ≤ 2 ^ 64) : ∃ (w' : World) (steps : List (Op × World × World)) (w : Witness Fr),
    runOps linHash demoOps .initial = some (w', steps) ∧ steps.map (·.1) = demoOps ∧ w.chal = ρ ∧
    Accepted linHash n n w ∧ EdgesOK n w ∧ TablesOK w n ∧ ∀ st ∈ steps, OpExposed linHash w n st := by
  obtain ⟨w', steps, h1, h2⟩ := safeRun_run demo_safe
  have h3 := (runOps_steps (World.initial_ok linHash) h1).2.1
  have hadr : ∀ op ∈ demoOps, IsBytes op.address ∧ op.address.length = 20 := by
    unfold IsBytes; decide
  obtain ⟨ps, m, es, a1, a2, a3, a4⟩ := c52_tables (World.initial_ok linHash) h1 hadr h2
  have hs := demoSize_eq
  rw [demoSize, h1] at hs
  simp only [Option.bind_eq_bind, Option.bind_some] at hs
  rw [a1] at hs
  simp only [Option.bind_some] at hs
  rw [a2] at hs
  simp only [Option.bind_some] at hs
  rw [a3] at hs
  simp only [Option.bind_some, Option.pure_def, Option.map_some, Option.some.injEq, decide_eq_true_eq] at hs
  obtain ⟨b1, b2, b3⟩ := hs
  obtain ⟨⟨s, c0, c1, c2, c3⟩, -⟩ := a4 ρ n n (posTable linHash (traceInputs es)) (by omega) (by omega) hn
    le_rfl h64 (posTable_fits _ _ _ (by omega))
  exact ⟨w', steps, _, h1, h3, rfl, c1, (edges_of_assign (fun p hp => by
    obtain ⟨j, -, hj⟩ := (mem_mapM_of _ _ _ a1).1 p hp
    exact ⟨_, _, hj⟩) hn c0 _).1, c2, c3⟩

/-- The demo circuit with 4097 rows. -/
theorem demo_circuit (ρ : Fr) : ∃ (w' : World) (steps : List (Op × World × World)) (w : Witness Fr),
    runOps linHash demoOps .initial = some (w', steps) ∧ steps.map (·.1) = demoOps ∧ w.chal = ρ ∧
    Accepted linHash 4097 4097 w ∧ TablesOK w 4097 ∧ ∀ st ∈ steps, OpExposed linHash w 4097 st := by
  obtain ⟨w', steps, w, h1, h2, h3, h4, -, h5⟩ := demo_circuit_of ρ 4097 le_rfl (by norm_num) (by norm_num)
  exact ⟨w', steps, w, h1, h2, h3, h4, h5⟩

/-- A circuit whose size is neither 0 nor 1 modulo 32 (5000 = 156 * 32 + 8) and whose edges are in order. -/
example (ρ : Fr) : ∃ w : Witness Fr, w.chal = ρ ∧ Accepted linHash 5000 5000 w ∧ EdgesOK 5000 w := by
  obtain ⟨-, -, w, -, -, h3, h4, h5, -⟩ := demo_circuit_of ρ 5000 (by norm_num) (by norm_num) (by norm_num)
  exact ⟨w, h3, h4, h5⟩

/-- The types of claims that the demo makes, with values (for claims that have some) that are not 0. -/
theorem demo_types (t : MPTProofType) (ht : t ≠ .AccountDestructed) :
    ((runOps linHash demoOps .initial).map fun r => r.2.any fun st => decide (st.1.type = t ∧
      (t ∈ [.AccountDoesNotExist, .StorageDoesNotExist] ∨
        opValue linHash st.1 st.2.1 ≠ 0 ∨ opValue linHash st.1 st.2.2 ≠ 0))) = some true := by
  cases t <;> first | exact absurd rfl ht | decide +kernel

end Mpt.Props
