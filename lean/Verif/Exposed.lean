import Verif.RunShape

set_option autoImplicit false

/-!
# What the exposed lookup table contains

Other circuits look up the tuple `lookup_exprs` of this circuit. `Exposes w U t ..` says that the
tuple is present on some usable row with selector 1.
-/

namespace Mpt
open Spec MptUpdate

variable {H : HashFn} {n U : ℕ} {w : Witness Fr}

/-- The claim `(t, address, storage key RLC, old/new root RLC, old/new value)` can be looked up in
the circuit's table: some usable row exposes it (with selector 1). The order of the tuple is that of
`MptUpdateLookup::lookup`, /repo/src/gadgets/mpt_update.rs:81-104 and /repo/src/mpt.rs:254-264. -/
def Exposes (w : Witness Fr) (U : ℕ) (t : MPTProofType)
    (address slotRlc oldRootRlc newRootRlc oldValue newValue : Fr) : Prop :=
  ∃ r, InU U r ∧ exposed w r =
    [1, address, slotRlc, (t.toNat : Fr), newRootRlc, oldRootRlc, newValue, oldValue]

theorem proofType_toNat_inj {a b : MPTProofType} (h : (a.toNat : Fr) = (b.toNat : Fr)) : a = b := by
  by_contra hne
  refine natCast_ne_of_lt ?_ ?_ ?_ h
  · cases a <;> decide
  · cases b <;> decide
  · revert hne; cases a <;> cases b <;> decide

/-- The two degenerate tuples every accepted witness may contain: the all-zero tuple of rows that
are not Start rows, which reads as a NonceChanged claim, and the padding claim of the last row. -/
def Degenerate (t : MPTProofType)
    (address slotRlc oldRootRlc newRootRlc oldValue newValue : Fr) : Prop :=
  (t = .NonceChanged ∨ t = .AccountDoesNotExist) ∧ address = 0 ∧ slotRlc = 0 ∧ oldRootRlc = 0 ∧
    newRootRlc = 0 ∧ oldValue = 0 ∧ newValue = 0

/-- C18, C19: an exposed tuple is degenerate or comes from the Start row of a complete run, whose
key is the address's key, whose roots have the exposed RLCs, and whose values are the exposed
ones. -/
theorem Exposes.run (h : Accepted H n U w) (T : TablesOK w U) {t : MPTProofType}
    {address slotRlc oldRootRlc newRootRlc oldValue newValue : Fr}
    (hx : Exposes w U t address slotRlc oldRootRlc newRootRlc oldValue newValue) :
    Degenerate t address slotRlc oldRootRlc newRootRlc oldValue newValue ∨
    ∃ (s e : ℤ) (a : ℕ), Run H n U w s e ∧ proofAt w s = t ∧ address = (a : Fr) ∧
      IsAddressKey (PR H w U) a (w.adv .key s) ∧ slotRlc = w.adv .storageKeyRlc s ∧
      oldRootRlc = rootRlc w.chal (w.adv .oldHash s) ∧
      newRootRlc = rootRlc w.chal (w.adv .newHash s) ∧
      oldValue = w.adv .oldValue s ∧ newValue = w.adv .newValue s := by
  obtain ⟨r, hr, he⟩ := hx
  have hen : Enabled n r := by
    rw [← sel_eq_one_iff h.fixed]
    have := congrArg List.head? he
    simpa [exposed, lookupExprs] using this
  have hn2 : 2 ≤ n := by have := hen.1; have := hen.2; omega
  by_cases hst : segAt w r = .Start
  · by_cases hlast : r + 1 < n
    · right
      obtain ⟨e, R⟩ := h.exists_run hen hlast hst
      obtain ⟨hi, lo, hhi, hlo, hk, hex⟩ := R.start_sound T
      rw [he] at hex
      simp only [List.cons.injEq, and_true, true_and] at hex
      obtain ⟨e1, e2, e3, e4, e5, e6, e7⟩ := hex
      have d1 : (hi * 2 ^ 32 + lo) / 2 ^ 32 = hi := by omega
      have d2 : (hi * 2 ^ 32 + lo) % 2 ^ 32 = lo := by omega
      refine ⟨r, e, hi * 2 ^ 32 + lo, R, (proofType_toNat_inj e3).symm, e1, ⟨?_, ?_⟩, e2, e5, e4, e7,
        e6⟩
      · norm_num at hhi hlo ⊢; omega
      · rw [d1, d2]; exact hk
    · left
      have hrn : r = (n : ℤ) - 1 := by have := hen.2; omega
      have hf := (h.final_row hn2).2.2
      rw [← hrn, he] at hf
      simp only [List.cons.injEq, and_true, true_and] at hf
      obtain ⟨e1, e2, e3, e4, e5, e6, e7⟩ := hf
      refine ⟨.inr (proofType_toNat_inj (e3.trans ?_)), e1, e2, e5, e4, e7, e6⟩
      norm_num [MPTProofType.toNat]
  · left
    have hx := h.exposed_eq hen
    rw [if_neg hst, he] at hx
    simp only [List.cons.injEq, and_true, true_and] at hx
    obtain ⟨e1, e2, e3, e4, e5, e6, e7⟩ := hx
    refine ⟨.inl (proofType_toNat_inj (e3.trans ?_)), e1, e2, e5, e4, e7, e6⟩
    norm_num [MPTProofType.toNat]

end Mpt
