import Verif.Spec.Proving

set_option autoImplicit false

/-!
# Specification: chains of proofs

One circuit has a limited number of rows. A long history is split into batches, each of which is proved by a
circuit of its own, with a challenge of its own. A cheating prover may choose the claims of a batch, and what he
commits to for it, after he has seen the challenges of the batches before.
-/

namespace Mpt.Spec
open Mpt

/-- What is sent before a challenge is drawn: the claims, and the first phase of a halo2 table that is to prove
them. For /repo/src/mpt.rs:39-264. -/
structure Batch where
  claims : List StateClaim
  table : HaloTable

/-- A way to choose the batches: the next batch depends on the challenges drawn so far. -/
abbrev Strategy := List Fr → Batch

/-- The strategy after a first challenge. -/
def Strategy.after (σ : Strategy) (ρ : Fr) : Strategy := fun l => σ (ρ :: l)

/-- The batches and their challenges, if the challenges are `ρs`. -/
def Strategy.play : Strategy → List Fr → List (Batch × Fr)
  | _, [] => []
  | σ, ρ :: ρs => (σ [], ρ) :: (σ.after ρ).play ρs

/-- All claims that are made if the challenges are `ρs`. -/
def Strategy.claims (σ : Strategy) (ρs : List Fr) : List StateClaim := (σ.play ρs).flatMap (·.1.claims)

/-- The claims lead from the state `W` to the state `W'`. -/
def Leads (H : HashFn) : World → List StateClaim → World → Prop
  | W, [], W' => W = W'
  | W, c :: cs, W' => ∃ W₁, c.Step H W W₁ ∧ Leads H W₁ cs W'

/-- `safe` holds for every batch in every state it may be played in. -/
def Strategy.Always (H : HashFn) (safe : World → Batch → Prop) : Strategy → World → List Fr → Prop
  | _, _, [] => True
  | σ, W, ρ :: ρs => safe W (σ []) ∧ ∀ W', Leads H W (σ []).claims W' → (σ.after ρ).Always H safe W' ρs

/-- With the challenges `ρs` the strategy proves, batch by batch, claims that start with the root of `W`, are linked
by their roots, but are not a history of `W`; no batch has more than `K` claims. `provable` says with which
challenges a batch can be proved; `safe` is what is assumed about the batches (in the theorems: that they do not
contain hash collisions). -/
structure Strategy.Fools (σ : Strategy) (H : HashFn) (provable : Batch → Set Fr) (safe : World → Batch → Prop)
    (K : ℕ) (W : World) (ρs : List Fr) : Prop where
  proved : ∀ b ∈ σ.play ρs, b.2 ∈ provable b.1
  short : ∀ b ∈ σ.play ρs, b.1.claims.length ≤ K
  fits : ∀ c ∈ σ.claims ρs, c.Fits
  linked : Linked (W.trie.hash H) (σ.claims ρs)
  safe : σ.Always H safe W ρs
  false : ¬ History H W (σ.claims ρs)

end Mpt.Spec
