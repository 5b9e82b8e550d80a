import Verif.Assign.Circuit
import Verif.Props.Tables

set_option autoImplicit false

namespace Mpt
open Spec MptUpdate Types Requests

/-- In a strictly sorted list, a least element is the first. -/
theorem head_of_least {α : Type} (code : α → List ℕ) (l : List α)
    (hs : l.Pairwise (fun a b => code a < code b)) (x : α) (hx : x ∈ l)
    (hmin : ∀ y ∈ l, code x ≤ code y) : l.head? = some x := by
  cases l with
  | nil => simp at hx
  | cons a l =>
    rcases List.mem_cons.1 hx with rfl | h
    · rfl
    · exact absurd ((List.pairwise_cons.1 hs).1 x h) (not_lt.2 (hmin a (by simp)))

theorem keyBitLookups_head {H : HashFn} {ps : List Proof} {bits : List (Fr × ℕ × Bool)}
    (h : keyBitLookups H ps = some bits) : bits.head? = some (0, 0, false) := by
  have hm := (keyBitLookups_mem h).1
  obtain ⟨l, h1, h2⟩ := Option.map_eq_some_iff.1 h
  subst h2
  refine head_of_least bitCode _ (sortDedup_sorted bitCode bitCode_inj l) _ hm ?_
  rintro ⟨v, i, b⟩ -
  rw [← not_lt]
  simp [bitCode, List.cons_lt_cons_iff]

theorem parAssign_bits {H : HashFn} {ρ : Fr} {n threads : ℕ} {ps : List Proof} {s' : ParCells}
    {bits : List (Fr × ℕ × Bool)} (h : parAssign H ρ n threads ps = some s')
    (hb : keyBitLookups H ps = some bits) : KeyBit.parRegions bits threads = some s'.bits := by
  obtain ⟨br, h1, h⟩ := Option.bind_eq_some_iff.1 h
  obtain ⟨u, h2, h⟩ := Option.bind_eq_some_iff.1 h
  obtain ⟨bits', h3, h⟩ := Option.bind_eq_some_iff.1 h
  obtain ⟨kb, h4, h⟩ := Option.bind_eq_some_iff.1 h
  dsimp only at h
  split at h
  swap
  · cases h
  obtain ⟨cr, h5, h⟩ := Option.bind_eq_some_iff.1 h
  obtain ⟨st, h6, h⟩ := Option.bind_eq_some_iff.1 h
  cases h
  rw [h3] at hb
  cases hb
  exact h4

namespace Props

/-- **C15, whole circuit.** Whenever the serial branch of `MptCircuitConfig::assign` succeeds on a
list of parsed proofs, so does the parallel branch with any positive number of threads. The two
witnesses, with the same Poseidon table, agree in every fixed column, in the challenge and in every
advice column except those of the key-bit table, and on that table they expose the same tuples if the
circuit has `1 + requests` rows. -/
theorem c15_circuit (H : HashFn) (ρ : Fr) (n threads : ℕ) (ht : 0 < threads) (ps : List Proof)
    (hp : ∀ p ∈ ps, ∃ t tr, proofFrom H t tr = some p) (s : SerialCells)
    (h : serialAssign H ρ n ps = some s) :
    ∃ s', parAssign H ρ n threads ps = some s' ∧ ∀ table : Witness Fr,
      (s'.witness ρ n table).chal = (s.witness ρ table).chal ∧
      (∀ c r, (s'.witness ρ n table).fix c r = (s.witness ρ table).fix c r) ∧
      (∀ c, c ∉ [.kbValue, .kbIndex, .kbBit, .kbDiv8, .kbMod8, .kbByte] → ∀ r,
        (s'.witness ρ n table).adv c r = (s.witness ρ table).adv c r) ∧
      (∀ U reqs, keyBitLookups H ps = some reqs → KeyBit.nRowsRequired reqs.length ≤ n → n ≤ U →
        ∀ value index bit, InKeyBit (s'.witness ρ n table) U value index bit ↔
          InKeyBit (s.witness ρ table) U value index bit) := by
  obtain ⟨br, bits, strings, runs, h1, h2, h3, h4, h5, h6, h7, h8, h9⟩ := serialWitness_eq hp h
  obtain ⟨s', bits', p1, p2, p3, p4⟩ := parWitness_eq ht hp h
  obtain rfl : bits' = bits := by rw [p2] at h2; exact Option.some.inj h2
  obtain ⟨br', bits'', e1, e2, e3, e4, e5, e6, e7, e8⟩ := serialAssign_eq h
  obtain rfl : br' = br := by rw [e1] at h1; exact Option.some.inj h1
  obtain rfl : bits'' = bits' := by rw [e5] at h2; exact Option.some.inj h2
  obtain rfl : strings = s.strings := by rw [e7] at h4; exact (Option.some.inj h4).symm
  refine ⟨s', p1, fun table => ?_⟩
  have ep := p4 _ table [] (fun t => h9 t [])
  have es := h9 table []
  have hfix : ∀ c r, (s'.witness ρ n table).fix c r = (s.witness ρ table).fix c r := by
    intro c r
    rw [ep, es]
    rfl
  refine ⟨rfl, hfix, ?_, ?_⟩
  · intro c hc r
    rw [ep, es]
    cases c <;> first
      | rfl
      | simp at hc
  · intro U reqs hreqs hn hU value index bit
    rw [p2] at hreqs
    cases hreqs
    have hS : FixedOK n (s.witness ρ table) := by
      intro c hc r
      rw [es]
      cases c <;> first
        | rfl
        | exact absurd rfl hc
    have hP : FixedOK n (s'.witness ρ n table) := by
      intro c hc r
      rw [hfix]
      exact hS c hc r
    refine (c15_key_bit hS hP hU bits'' hn threads ht (keyBitLookups_head p2) ⟨s.bits, e6, ?_⟩
      ⟨s'.bits, parAssign_bits p1 p2, ?_⟩ value index bit).symm
    · intro p hp r
      simp only [List.mem_cons, List.not_mem_nil, or_false] at hp
      rcases hp with rfl | rfl | rfl | rfl | rfl | rfl <;> rfl
    · intro p hp r
      simp only [List.mem_cons, List.not_mem_nil, or_false] at hp
      rcases hp with rfl | rfl | rfl | rfl | rfl | rfl <;> rfl

end Props
end Mpt
