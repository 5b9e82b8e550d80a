import Verif.Props.Chain
import Verif.Props.ProvingDemo

set_option autoImplicit false

/-!
# C76, C77: examples
-/

namespace Mpt.Props
open Mpt Spec Types MptUpdate Requests

/-- A strategy: first nothing is claimed; then, depending on the first challenge, the false claim that the nonce was 6
or the false claim that it was 7, with the first phase of the table that proves that it was 5. -/
def cheat : Strategy
  | [] => ⟨[], soundTable⟩
  | ρ :: _ => ⟨[nonceClaim (if ρ = 0 then 6 else 7)], soundTable⟩

/-- Except for the proof, the strategy meets all conditions of `Fools`, for all challenges: the conditions do not
exclude each other. -/
theorem cheat_conditions (ρ ρ' : Fr) :
    (∀ b ∈ cheat.play [ρ, ρ'], b.1.claims.length ≤ 1) ∧ (∀ c ∈ cheat.claims [ρ, ρ'], c.Fits) ∧
    Linked (soundWorld.trie.hash linHash) (cheat.claims [ρ, ρ']) ∧
    cheat.Always linHash (fun W b => b.table.Edges 2049 ∧ SafeClaims linHash (b.table.unroll 4096) 2049 W b.claims)
      soundWorld [ρ, ρ'] ∧
    ¬ History linHash soundWorld (cheat.claims [ρ, ρ']) := by
  have hE : soundTable.Edges 2049 := ⟨soundWitness_index, .inl fun r h1 h2 => absurd h2 (by omega)⟩
  have hx : ∀ x : ℕ, x = 6 ∨ x = 7 → x < 2 ^ 64 ∧ x ≠ 5 := by rintro x (rfl | rfl) <;> norm_num
  have hc : cheat.claims [ρ, ρ'] = [nonceClaim (if ρ = 0 then 6 else 7)] := rfl
  have h67 : (if ρ = 0 then 6 else 7) = 6 ∨ (if ρ = 0 then 6 else 7) = 7 := by split <;> simp
  obtain ⟨h1, h2⟩ := hx _ h67
  rw [hc]
  refine ⟨?_, ?_, ⟨by rw [soundWorld_root]; rfl, trivial⟩, ?_, ?_⟩
  · intro b hb
    simp only [Strategy.play, List.mem_cons, List.not_mem_nil, or_false] at hb
    rcases hb with rfl | rfl <;> simp [cheat, Strategy.after]
  · intro c hc
    rw [List.mem_singleton] at hc; subst hc; exact nonceClaim_fits h1
  · refine ⟨⟨hE, trivial⟩, fun W' hW' => ?_⟩
    cases hW'
    exact ⟨⟨hE, soundTable_free, nonceClaim_decided _, fun _ _ => trivial⟩, fun _ _ => trivial⟩
  · rintro ⟨W', hW', -⟩
    exact nonceClaim_false h2 ⟨W', hW'⟩

/-- So nearly no pair of challenges allows to complete the tables. -/
example : {ρs : List Fr | ∃ ρ ρ', ρs = [ρ, ρ'] ∧ ∀ b ∈ cheat.play [ρ, ρ'],
      b.2 ∈ ProvableFor linHash 2049 2049 4096 b.1.table b.1.claims}.ncard ≤
    2 * (31 * (3 * 2049 + 5 * 1 + 1).choose 2) * frModulus ^ (2 - 1) := by
  refine (Set.ncard_le_ncard ?_ ((List.finite_length_eq Fr 2).subset fun l hl => hl.1)).trans
    (c76_chain_partial (H := linHash) (n := 2049) (U := 2049) (N := 4096) (by norm_num) 2 1 soundWorld_ok cheat)
  rintro l ⟨ρ, ρ', rfl, h⟩
  obtain ⟨h1, h2, h3, h4, h5⟩ := cheat_conditions ρ ρ'
  exact ⟨rfl, h, h1, h2, h3, h4, h5⟩

/-- The hypotheses of `c76_true` are met by the seventeen operations of the demo, cut into three batches. -/
example : ∃ css : List (List StateClaim), css.map (·.length) = [5, 0, 12] ∧ History linHash .initial css.flatten ∧
    ∃ n₀ : ℕ, ∀ n U k : ℕ, n₀ ≤ n → n < U → U < 2 ^ k → k ≤ 64 → ∀ blinding : ℕ → AdvCol → ℕ → Fr,
      ∃ bs : List Batch, bs.map (·.claims) = css ∧
        (∀ i b, bs[i]? = some b → ∀ c, ∀ r ≥ U, b.table.adv c r = blinding i c r) ∧
        (∀ b ∈ bs, ProvablePatched linHash n U (2 ^ k) b.table b.claims = Set.univ) := by
  obtain ⟨cs, w', steps, h1, h2, h3, h4, h5⟩ := demo_run_claims
  have e : [cs.take 5, [], cs.drop 5].flatten = cs := by simp
  refine ⟨[cs.take 5, [], cs.drop 5], by simp [h1], ?_, ?_⟩
  · rw [e]; exact history_iff.2 ⟨_, _, _, h2, h3⟩
  · refine c77_true (World.initial_ok linHash) h2 ?_ ?_ h5
    · rw [e]; exact h3
    · rw [e]; exact h4

end Mpt.Props
