import Verif.Props.ParserCheck
import Verif.Props.OperationsDemo
import Verif.Fixtures.Eval

set_option autoImplicit false

/-!
# C67: cases of the self-check

`c67_false`: the self-check panics on the honest proof that an account is absent from the empty state, for every
hash function. `c67_demo`: of the seventeen operations of the demonstration, thirteen pass the self-check, and the
other four (the account path is empty, or the account is inserted beside an account one level below the root) are
rejected unless the hash function has a coincidence. `c67_unsound`: the self-check accepts a false claim about the
side with the shorter path.
-/

namespace Mpt.Props
open Mpt Spec Types MptUpdate Requests Fixtures

/-- "The account is absent", about the empty state. -/
def emptyTrace (H : HashFn) : SMTTrace where
  address := List.replicate 20 0
  accountKey := frHash (accountKey H (List.replicate 20 0))
  accountPath := (⟨frHash 0, none, []⟩, ⟨frHash 0, none, []⟩)
  accountUpdate := (none, none)
  statePath := (none, none)
  commonStateRoot := some (frHash 0)
  stateKey := none
  stateUpdate := none

theorem zero_address : IsBytes (List.replicate 20 0) := by unfold IsBytes; decide

theorem emptyTrace_honest (H : HashFn) : HonestTrace H .AccountDoesNotExist (emptyTrace H) :=
  .absent [] none 0
    ⟨⟨zero_address, rfl⟩, fr_frHash _,
      ⟨.nil, .nil, trivial, trivial, fr_frHash _, fr_frHash _, by simp, by simp,
        ⟨rfl, rfl, trivial, trivial, by simp, by simp⟩, trivial, by simp [emptyTrace], by simp [EndPlaced],
        by simp [EndPlaced]⟩⟩
    rfl (.inl rfl) (.field _ (by decide) (.inl rfl) _ 0 rfl (fr_frHash _))

/-- **C67 is false without the length condition**: for every hash function there is an honest trace that is parsed
into a proof on which the self-check panics. -/
theorem c67_false (H : HashFn) : ∃ t tr p, HonestTrace H t tr ∧ proofFrom H t tr = some p ∧ p.check H = false := by
  obtain ⟨p, hp⟩ := honest_good (emptyTrace_honest H)
  exact ⟨_, _, p, emptyTrace_honest H, hp.parse, c67_rejects_empty hp.parse rfl rfl⟩

/-- `LongEnough`, decided. -/
def longEnough (tr : SMTTrace) : Bool :=
  let a := tr.accountPath.1.path.length
  let b := tr.accountPath.2.path.length
  (a == b && Nat.blt 0 a) || (Nat.ble 2 a && Nat.ble 2 b)

theorem longEnough_iff (tr : SMTTrace) : longEnough tr = true ↔ LongEnough tr := by
  simp [longEnough, LongEnough]

/-- Which of the operations of the demonstration have a long enough account path. -/
def demoLong : Option (List Bool) :=
  (runOps linHash demoOps .initial).map fun x => x.2.map fun s => longEnough (opTrace linHash s.1 s.2.1 s.2.2)

theorem demoLong_eq : demoLong = some (List.replicate 3 false ++ List.replicate 13 true ++ [false]) := by
  decide +kernel

/-- Each operation of the demonstration meets the hypothesis of `c67_complete_partial` or of `c67_rejects`, and
both kinds occur. -/
theorem c67_demo : ∃ w steps, runOps linHash demoOps .initial = some (w, steps) ∧
    (steps.map fun s => longEnough (opTrace linHash s.1 s.2.1 s.2.2)) =
      List.replicate 3 false ++ List.replicate 13 true ++ [false] ∧
    ∀ s ∈ steps, HonestTrace linHash s.1.type (opTrace linHash s.1 s.2.1 s.2.2) ∧
      ∃ p, proofFrom linHash s.1.type (opTrace linHash s.1 s.2.1 s.2.2) = some p ∧
        (longEnough (opTrace linHash s.1 s.2.1 s.2.2) = true → p.check linHash = true) ∧
        (longEnough (opTrace linHash s.1 s.2.1 s.2.2) = false → p.check linHash = false ∨ Coincidence linHash p) := by
  obtain ⟨w', steps, h1, h2⟩ := safeRun_run demo_safe
  obtain ⟨-, h3, h4⟩ := runOps_steps (World.initial_ok linHash) h1
  have hadr : ∀ op ∈ demoOps, IsBytes op.address ∧ op.address.length = 20 := by
    unfold IsBytes; decide
  refine ⟨w', steps, h1, ?_, fun s hs => ?_⟩
  · have := demoLong_eq
    unfold demoLong at this
    rw [h1] at this
    exact Option.some.inj this
  · have hh := op_honest (hadr _ (h3 ▸ List.mem_map_of_mem hs)) (h4 s hs).1 (h4 s hs).2 (h2 s hs)
    obtain ⟨p, hp⟩ := honest_good hh
    refine ⟨hh, p, hp.parse, fun hl => ?_, fun hl => ?_⟩
    · obtain ⟨p', hp', hc⟩ := c67_complete_partial hh ((longEnough_iff _).1 hl)
      obtain rfl := Option.some.inj (hp.parse.symm.trans hp')
      exact hc
    · cases hc : p.check linHash with
      | false => exact .inl rfl
      | true =>
        refine .inr (c67_rejects hh (fun hn => ?_) hp.parse hc)
        rw [(longEnough_iff _).2 hn] at hl
        cases hl

/-- A state with three accounts. -/
def threeAccounts : List Op :=
  [.setNonce (demoAddress 1) 1, .setNonce (demoAddress 2) 1, .setNonce (demoAddress 3) 1]

/-- The trace with another account on the old side: nothing but the leaf and the account data is replaced. -/
def forgeOld (H : HashFn) (tr : SMTTrace) (a : AccountData) : SMTTrace :=
  { tr with
    accountUpdate := (some a, tr.accountUpdate.2)
    accountPath :=
      ({ tr.accountPath.1 with leaf := leafNode (some (accountKey H tr.address, accountLeafData H a 0)) },
        tr.accountPath.2) }

/-- The forged proof is parsed and passes the self-check; what it claims, and what the state says. -/
def forgedVerdict : Option (Bool × Bool) :=
  (runOps linHash threeAccounts .initial).bind fun x =>
    ((Op.setNonce (demoAddress 4) 5).apply linHash x.1).map fun w' =>
      let tr := forgeOld linHash (opTrace linHash (.setNonce (demoAddress 4) 5) x.1 w') ⟨999, 0, 0, 0, 0⟩
      ((x.1.accounts (accountKey linHash (demoAddress 4))).isNone,
        match proofFromS linHash .NonceChanged tr with
        | none => false
        | some p => p.check linHash && decide (p.claim.oldRoot = x.1.trie.hash linHash) &&
            decide (p.claim.newRoot = w'.trie.hash linHash) && decide (p.claim.address = demoAddress 4) &&
            (match p.claim.kind with | .Nonce (some 999) (some 5) => true | _ => false))

theorem forgedVerdict_eq : forgedVerdict = some (true, true) := by decide +kernel

theorem forgeOld_address (H : HashFn) (a : List ℕ) (n : ℕ) (w w' : World) (d : AccountData) :
    (forgeOld H (opTrace H (.setNonce a n) w w') d).address = a := rfl

/-- **C67, soundness of both sides is false**: there are a consistent state in which an account is absent, and a
trace that is parsed into a proof that passes the self-check and claims that the account has nonce 999 in
that state. -/
theorem c67_unsound : ∃ (w : World) (tr : SMTTrace) (p : Proof) (n : ℕ), w.OK linHash ∧
    w.accounts (accountKey linHash tr.address) = none ∧ proofFrom linHash .NonceChanged tr = some p ∧
    p.check linHash = true ∧ p.claim.address = tr.address ∧ p.claim.oldRoot = w.trie.hash linHash ∧
    p.claim.kind = .Nonce (some 999) (some n) := by
  have h := forgedVerdict_eq
  unfold forgedVerdict at h
  obtain ⟨⟨w, steps⟩, h1, h2⟩ := Option.bind_eq_some_iff.1 h
  obtain ⟨w', h3, h4⟩ := Option.map_eq_some_iff.1 h2
  have hw := (runOps_steps (World.initial_ok linHash) h1).1
  obtain ⟨h5, h6⟩ := Prod.mk.inj h4
  rw [proofFromS_eq] at h6
  split at h6
  · cases h6
  · rename_i p hp
    simp only [Bool.and_eq_true, decide_eq_true_eq] at h6
    obtain ⟨⟨⟨⟨c1, c2⟩, c3⟩, c4⟩, c5⟩ := h6
    have ea := forgeOld_address linHash (demoAddress 4) 5 w w' ⟨999, 0, 0, 0, 0⟩
    refine ⟨w, _, p, 5, hw, ?_, hp, c1, c4.trans ea.symm, c2, ?_⟩
    · rw [ea]
      exact Option.isNone_iff_eq_none.1 h5
    split at c5
    · assumption
    · cases c5

end Mpt.Props
