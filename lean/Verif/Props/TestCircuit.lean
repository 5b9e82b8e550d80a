import Verif.Assign.TestCircuit
import Verif.Props.Complete
import Verif.Props.Requests
import Verif.Props.NegativeParse
import Verif.Props.Circuit

set_option autoImplicit false

/-!
# C57, C58: the circuit with its own hash table

`TestCircuit` (also used by the benchmark) is the only complete circuit in the repository: the updates and a
table of all hashes the updates need.
-/

namespace Mpt.Props
open Mpt Spec Types MptUpdate Requests

variable {H : HashFn}

/-- **C57.** A circuit built from honest traces synthesizes without a panic and is satisfied, serially and in
parallel, when it has enough rows: for the updates (`m ≤ n + 1`, see C35), for the keys (B7), and for the
table of hashes with its 200 reserved rows and one blank row. -/
theorem c57_test_circuit (jobs : List (MPTProofType × SMTTrace)) (hj : ∀ j ∈ jobs, HonestTrace H j.1 j.2) :
    ∃ ps m es, TestCircuit.new H jobs = some ps ∧ nRowsRequired H ps = some m ∧ hashTraces H ps = some es ∧
      ∀ (ρ : Fr) (n U : ℕ), m ≤ n + 1 → 2 + totalRows ps ≤ n → 32 * ((updateKeys H ps).length + 1) ≤ n →
        n ≤ U → U ≤ 2 ^ 64 → max es.length 200 < U →
        (∃ w, TestCircuit.synthesize H ρ n ps = some w ∧ Accepted H n U w) ∧
        ∀ threads, 0 < threads → ∃ w, TestCircuit.synthesizePar H ρ n threads ps = some w ∧ Accepted H n U w := by
  obtain ⟨ps, m, es, h1, h2, h3, h4⟩ := c35_complete_tight jobs hj
  refine ⟨ps, m, es, h1, h2, h3, ?_⟩
  intro ρ n U hm hr hk hU hU2 hes
  obtain ⟨ps', h1', hg⟩ := honest_goods jobs hj
  obtain rfl : ps = ps' := Option.some.inj (h1.symm.trans h1')
  have ht : ∀ e ∈ es, H e.1.1 e.1.2 e.2.1 = e.2.2 := fun e he =>
    ((c36_hash_traces_partial H ps es h3).2.2.2 (fun p hp => by
      obtain ⟨j, -, g⟩ := hg p hp; exact g.hashed) e he).symm
  have hl := TestCircuit.load_some ht
  obtain ⟨⟨s, hs, ha⟩, hpar⟩ := h4 ρ n U _ hm hr hk hU hU2 (TestCircuit.load_fits ht hes)
  refine ⟨⟨s.witness ρ (TestCircuit.tableCells es), TestCircuit.synthesize_some hs h3 hl, ha⟩, ?_⟩
  intro t ht
  obtain ⟨s, hs, ha⟩ := hpar t ht
  exact ⟨s.witness ρ n (TestCircuit.tableCells es), TestCircuit.synthesizePar_some hs h3 hl, ha⟩

/-- **C57, panics.** There are traces that parse but whose circuit cannot be synthesized, with any number of
rows: a storage read whose `state_key` is not the hash of the slot (compare `c36_false`). -/
theorem c57_panics (H : HashFn) (address : List ℕ) {slot : ℕ} (hs : slot < 2 ^ 256) {v : Fr}
    (hv : v ≠ H ((slot / 2 ^ 128 : ℕ) : Fr) ((slot % 2 ^ 128 : ℕ) : Fr) HashDomain.Pair.toFr) :
    ∃ trace ps, TestCircuit.new H [(.StorageDoesNotExist, trace)] = some ps ∧
      ∀ ρ n, TestCircuit.synthesize H ρ n ps = none := by
  obtain ⟨tr, p, l, h1, h2, e, he, hne⟩ := c36_false H address hs hv
  refine ⟨tr, [p], by simp [TestCircuit.new, h1], ?_⟩
  intro ρ n
  unfold TestCircuit.synthesize
  rcases serialAssign H ρ n [p] with _ | s
  · rfl
  · rw [Option.bind_eq_bind, Option.bind_some, h2, Option.bind_eq_bind, Option.bind_some,
      TestCircuit.load_none he hne, Option.bind_eq_bind, Option.bind_none]

/-- The fixed columns of a synthesized circuit. -/
theorem synthesize_fix {ρ : Fr} {n : ℕ} {ps : List Proof} {w : Witness Fr} {es : List Entry}
    (h : TestCircuit.synthesize H ρ n ps = some w) (he : hashTraces H ps = some es) :
    (∀ c, c ≠ .posEnable → ∀ r, w.fix c r = fixedCell n c r) ∧
      ∀ r, w.fix .posEnable r = if 0 ≤ r ∧ r < ((max es.length 200 : ℕ) : ℤ) then 1 else 0 := by
  obtain ⟨s, h1, h⟩ := Option.bind_eq_some_iff.1 h
  obtain ⟨es', h3, h⟩ := Option.bind_eq_some_iff.1 h
  have he' : es' = es := Option.some.inj (h3.symm.trans he)
  subst he'
  obtain ⟨t, h2, h⟩ := Option.bind_eq_some_iff.1 h
  rw [Option.pure_def] at h
  have hw := Option.some.inj h
  subst hw
  have ht := TestCircuit.of_load h2
  subst ht
  obtain ⟨br, bits, -, -, -, -, -, -, -, hf⟩ := serialAssign_eq h1
  refine ⟨?_, fun r => TestCircuit.tableCells_enable r⟩
  intro c hc r
  show fixedWith s.fixed _ c r = _
  rw [hf]
  cases c <;> first
    | rfl
    | exact absurd rfl hc

/-- **C58.** The verifying key does not depend on the witness: two circuits with the same number of rows have
the same fixed columns exactly when their hash tables have the same number of enabled rows -- in particular if
both need at most 200 hashes. (The gates do not depend on the witness either: `configure` does not see it.) -/
theorem c58_verifying_key_partial {ρ ρ' : Fr} {n : ℕ} {ps ps' : List Proof} {w w' : Witness Fr} {es es' : List Entry}
    (h : TestCircuit.synthesize H ρ n ps = some w) (he : hashTraces H ps = some es)
    (h' : TestCircuit.synthesize H ρ' n ps' = some w') (he' : hashTraces H ps' = some es') :
    (w.fix = w'.fix ↔ max es.length 200 = max es'.length 200) ∧
      (es.length ≤ 200 → es'.length ≤ 200 → w.fix = w'.fix) := by
  obtain ⟨a, b⟩ := synthesize_fix h he
  obtain ⟨a', b'⟩ := synthesize_fix h' he'
  have key : w.fix = w'.fix ↔ max es.length 200 = max es'.length 200 := by
    constructor
    · intro e
      have q : ∀ r : ℤ, (0 ≤ r ∧ r < ((max es.length 200 : ℕ) : ℤ)) ↔ (0 ≤ r ∧ r < ((max es'.length 200 : ℕ) : ℤ)) := by
        intro r
        have := b r
        rw [e, b' r] at this
        by_cases c1 : 0 ≤ r ∧ r < ((max es.length 200 : ℕ) : ℤ)
        · by_cases c2 : 0 ≤ r ∧ r < ((max es'.length 200 : ℕ) : ℤ)
          · exact iff_of_true c1 c2
          · rw [if_pos c1, if_neg c2] at this; exact absurd this zero_ne_one
        · by_cases c2 : 0 ≤ r ∧ r < ((max es'.length 200 : ℕ) : ℤ)
          · rw [if_neg c1, if_pos c2] at this; exact absurd this one_ne_zero
          · exact iff_of_false c1 c2
      have q1 := q ((max es.length 200 : ℕ) : ℤ)
      have q2 := q ((max es'.length 200 : ℕ) : ℤ)
      omega
    · intro e
      funext c r
      by_cases hc : c = .posEnable
      · subst hc
        rw [b r, b' r, e]
      · rw [a c hc r, a' c hc r]
  exact ⟨key, fun h1 h2 => key.2 (by omega)⟩

/-- **C58, parallel.** Whenever the serial circuit is synthesized, so is the parallel one, with the same
fixed columns: keys made in one mode fit the other. -/
theorem c58_parallel {ρ : Fr} {n threads : ℕ} {ps : List Proof} {w : Witness Fr} (ht : 0 < threads)
    (hp : ∀ p ∈ ps, ∃ t tr, proofFrom H t tr = some p) (h : TestCircuit.synthesize H ρ n ps = some w) :
    ∃ w', TestCircuit.synthesizePar H ρ n threads ps = some w' ∧ w'.fix = w.fix := by
  obtain ⟨s, h1, h⟩ := Option.bind_eq_some_iff.1 h
  obtain ⟨es, h3, h⟩ := Option.bind_eq_some_iff.1 h
  obtain ⟨t, h2, h⟩ := Option.bind_eq_some_iff.1 h
  rw [Option.pure_def] at h
  have hw := Option.some.inj h
  subst hw
  obtain ⟨s', hs', hc⟩ := c15_circuit H ρ n threads ht ps hp s h1
  refine ⟨s'.witness ρ n t, TestCircuit.synthesizePar_some hs' h3 h2, ?_⟩
  funext c r
  exact (hc t).2.1 c r

/-- **C57, loading.** Loading the hash table panics exactly when a reported triple is not a true hash. -/
theorem c57_load_iff (es : List Entry) :
    TestCircuit.load H es = none ↔ ∃ e ∈ es, H e.1.1 e.1.2 e.2.1 ≠ e.2.2 := by
  constructor
  · intro h
    by_contra hno
    push Not at hno
    rw [TestCircuit.load_some hno] at h
    cases h
  · rintro ⟨e, he, h⟩
    exact TestCircuit.load_none he h.symm

end Mpt.Props
