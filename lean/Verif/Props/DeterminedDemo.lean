import Verif.Props.AgreementDemo
import Verif.Props.PatchedDetermined

set_option autoImplicit false

/-!
# C72 fails for inserted values; cases that meet its hypotheses
-/

namespace Mpt.Props
open Mpt Spec Types MptUpdate Requests

/-- A word inserted into the empty storage trie of an account: the claim that it is any `v` is accepted for every
challenge. -/
theorem insertionClaim_accepted (H : HashFn) {adr : List ℕ} (hadr : IsBytes adr ∧ adr.length = 20) {slot x : ℕ}
    (hs : slot < 2 ^ 256) (acc : Account) (h0 : Account.wordHash H 0 ≠ 0)
    (hx : Account.wordHash H x ≠ Account.wordHash H 0) (v : ℕ) (ρ : Fr) :
    ρ ∈ AcceptingChallenges H 2049 2049 ((insertionOf H (beVal adr) acc slot x).assembly H 0 (beVal adr) 0).witness
      [insertionClaim H adr acc slot x v] := by
  have ha : beVal adr < 2 ^ 160 := by
    have := beVal_lt _ hadr.1
    rw [hadr.2] at this
    exact this
  have z : zeroPairHash H = Account.wordHash H 0 := by simp [zeroPairHash, Account.wordHash]
  obtain ⟨h1, -, r, hr, he⟩ := insertion_accepted H ρ ha (insertionOf H (beVal adr) acc slot x) hs (by rw [z]; exact h0)
    (by rw [z]; exact hx) (Spec.rlc ρ (beBytes 32 v))
  refine ⟨_, rfl, demo_first H 0 ρ _ _ _ _ (insertion_first H _ 0 ρ _ _ _), h1, ?_⟩
  intro c hc
  rw [List.mem_singleton] at hc
  subst hc
  refine ⟨r, hr, he.trans ?_⟩
  show [_, _, _, _, _, _, _, _] = [_, _, _, _, _, _, _, Spec.rlc ρ (beBytes 32 0)]
  rw [rlc_zero_word]
  rfl

/-- **C72 is false without restrictions.** The claims that the value `v` is written to an absent slot of an account,
starting from one root, are accepted for every challenge with two different new roots: that of the state in which
the slot has the value `x` and that of the one in which it has `x'`. -/
theorem c72_false (H : HashFn) {adr : List ℕ} (hadr : IsBytes adr ∧ adr.length = 20) {slot x x' v : ℕ}
    (hs : slot < 2 ^ 256) (acc : Account) (h0 : Account.wordHash H 0 ≠ 0)
    (hx : Account.wordHash H x ≠ Account.wordHash H 0) (hx' : Account.wordHash H x' ≠ Account.wordHash H 0)
    (hv : v < 2 ^ 256)
    (hne : (insertionClaim H adr acc slot x v).newRoot ≠ (insertionClaim H adr acc slot x' v).newRoot) :
    ∃ (w₀ w₁ : Witness Fr) (c d : StateClaim), c.Fits ∧ d.Fits ∧ c.newValue = v ∧ d.newValue = v ∧
      c.Diverges .old d ∧
      ∀ ρ, ρ ∈ AcceptingChallenges H 2049 2049 w₀ [c] ∧ ρ ∈ AcceptingChallenges H 2049 2049 w₁ [d] := by
  refine ⟨_, _, insertionClaim H adr acc slot x v, insertionClaim H adr acc slot x' v, ⟨hadr, hs, ?_, hv⟩,
    ⟨hadr, hs, ?_, hv⟩, rfl, rfl, ⟨⟨rfl, rfl, fun _ => rfl, rfl, .inl rfl⟩, hne⟩, fun ρ =>
      ⟨insertionClaim_accepted H hadr hs acc h0 hx v ρ, insertionClaim_accepted H hadr hs acc h0 hx' v ρ⟩⟩
  · show 0 < 2 ^ 256; norm_num
  · show 0 < 2 ^ 256; norm_num

/-- The hypotheses of `c72_false` are met. -/
example : ∃ (w₀ w₁ : Witness Fr) (c d : StateClaim), c.Fits ∧ d.Fits ∧ c.newValue = 9 ∧ d.newValue = 9 ∧
      c.Diverges .old d ∧
      ∀ ρ, ρ ∈ AcceptingChallenges linHash 2049 2049 w₀ [c] ∧ ρ ∈ AcceptingChallenges linHash 2049 2049 w₁ [d] :=
  c72_false linHash (adr := soundAdr) ⟨by unfold IsBytes; decide, by decide⟩ (slot := 3) (x := 8) (x' := 7) (by norm_num)
    (soundAcct.account linHash) (by decide +kernel) (by decide +kernel) (by decide +kernel) (by norm_num)
    (by decide +kernel)

/-- The claim of `nonceClaim 5` with another new root. -/
def divergingClaim : StateClaim := { nonceClaim 5 with newRoot := (nonceClaim 5).newRoot + 1 }

theorem divergingClaim_diverges : (nonceClaim 5).Diverges .old divergingClaim :=
  ⟨⟨rfl, rfl, fun _ => rfl, rfl, .inl rfl⟩, fun h => by
    have h : (nonceClaim 5).newRoot = (nonceClaim 5).newRoot + 1 := h
    exact one_ne_zero (left_eq_add.1 h)⟩

theorem divergingClaim_fits : divergingClaim.Fits := by
  obtain ⟨a, b, c, d⟩ := nonceClaim_fits (old := 5) (by norm_num)
  exact ⟨a, b, c, d⟩

theorem divergingClaim_definite : divergingClaim.Definite .old := by
  obtain ⟨a, b⟩ := nonceClaim_definite (old := 5) (by norm_num)
  exact ⟨a, b⟩

/-- The claim that the nonce 5 becomes another is accepted with this first phase; one that makes the same change but
ends with another root can only be accepted for few challenges. -/
example : (AcceptingChallenges linHash 2049 2049 soundWitness [nonceClaim 5, divergingClaim]).ncard ≤
    31 * (3 * 2049 + 11).choose 2 :=
  c72_determined_partial (.of_mod (by norm_num) soundWitness_index) (nonceClaim_fits (by norm_num)) divergingClaim_fits
    (nonceClaim_definite (by norm_num)) divergingClaim_definite soundWitness_free divergingClaim_diverges

example : (AcceptingChallenges linHash 2049 2049 soundWitness [nonceClaim 5] ×ˢ
      AcceptingChallenges linHash 2049 2049 soundWitness [divergingClaim]).ncard ≤
    frModulus * (31 * (3 * 2049 + 6).choose 2 + 31 * (3 * 2049 + 6).choose 2) :=
  c72_two_circuits_partial (.of_mod (by norm_num) soundWitness_index) (.of_mod (by norm_num) soundWitness_index)
    (nonceClaim_fits (by norm_num)) divergingClaim_fits (nonceClaim_definite (by norm_num))
    divergingClaim_definite (soundWitness_free.mono fun _ _ _ h => h.elim id id) divergingClaim_diverges

example : (PatchedChallenges linHash 2049 2049 soundWitness [nonceClaim 5, divergingClaim]).ncard ≤
    31 * (3 * 2049 + 11).choose 2 :=
  c72_patched (.of_mod (by norm_num) soundWitness_index) (nonceClaim_fits (by norm_num)) divergingClaim_fits
    (fun h => by cases h) soundWitness_free divergingClaim_diverges

example : (PatchedChallenges linHash 2049 2049 soundWitness [nonceClaim 5] ×ˢ
      PatchedChallenges linHash 2049 2049 soundWitness [divergingClaim]).ncard ≤
    frModulus * (31 * (3 * 2049 + 6).choose 2 + 31 * (3 * 2049 + 6).choose 2) :=
  c72_patched_two_circuits (.of_mod (by norm_num) soundWitness_index) (.of_mod (by norm_num) soundWitness_index)
    (nonceClaim_fits (by norm_num)) divergingClaim_fits (fun h => by cases h)
    (soundWitness_free.mono fun _ _ _ h => h.elim id id) divergingClaim_diverges

end Mpt.Props
