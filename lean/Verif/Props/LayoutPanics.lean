import Verif.Props.Tables

set_option autoImplicit false

/-!
# C14: wrong key-bit requests, in parallel
-/

namespace Mpt.Props
open Mpt Spec

/-- **C14, parallel.** A wrong request (index of 256 or more, or a wrong bit) makes `assign_par` panic as well, whatever
the number of threads and wherever the request is; so does an empty list, which the circuit never passes. -/
theorem c14_key_bit_par_panics (reqs : List KeyBit.Req) (threads : ℕ) (ht : 0 < threads) :
    ((∃ q ∈ reqs, ¬ (q.2.1 < 256 ∧ q.2.2 = q.1.val.testBit q.2.1)) → KeyBit.parRegions reqs threads = none) ∧
    (reqs = [] → KeyBit.parRegions reqs threads = none) := by
  constructor
  · rintro ⟨q, hq, hbad⟩
    obtain ⟨cs, h1, h2, h3, -, -⟩ := chunks_zip reqs threads ht (List.length_pos_of_mem hq)
    rw [← h3, List.mem_flatten] at hq
    obtain ⟨c, hc, hq⟩ := hq
    have hrow : KeyBit.assignRows c = none :=
      mapM_eq_none _ _ q hq ((KeyBit.rowOf_eq q).2 hbad)
    obtain ⟨i, hi, rfl⟩ := List.mem_iff_getElem.1 hc
    unfold KeyBit.parRegions
    rw [h1, Option.bind_eq_bind, Option.bind_some, h2]
    refine mapM_eq_none _ _ (cs[i], i) ?_ ?_
    · rw [List.mem_iff_getElem]
      exact ⟨i, by simpa using hi, by simp⟩
    · simp only [hrow]
      rfl
  · rintro rfl
    unfold KeyBit.parRegions chunks chunkSize
    have : (([] : List KeyBit.Req).length + threads - 1) / threads = 0 := by
      rw [List.length_nil]
      exact Nat.div_eq_of_lt (by omega)
    rw [this]
    rfl

/-- The second of two requests has a wrong bit. -/
example : KeyBit.parRegions [((0 : Fr), 0, false), ((0 : Fr), 3, true)] 4 = none :=
  (c14_key_bit_par_panics _ 4 (by norm_num)).1 ⟨((0 : Fr), 3, true), by simp, by simp [ZMod.val_zero]⟩

end Mpt.Props
