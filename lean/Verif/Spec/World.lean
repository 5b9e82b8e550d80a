import Verif.Spec.Zktrie
import Verif.Types.Claim
import Verif.Props.HonestInput

set_option autoImplicit false

/-!
# Specification: the state, and operations on it

The state as a user of the circuit sees it: accounts by key, each with its storage, and the zktrie that
commits to them. `Op.apply` performs one read or write. Nothing here mentions the circuit.
-/

namespace Mpt.Spec
open Mpt Types Props

/-- An account: its fields, its storage trie and the values of its slots (0: nothing stored), by slot key. -/
structure AcctState where
  data : AccountData
  trie : ZkTrie
  slots : Fr → ℕ

/-- The data in the leaf of an account. -/
def AcctState.leafData (H : HashFn) (a : AcctState) : Fr := accountLeafData H a.data (a.trie.hash H)

/-- The storage trie of the account stores the hashes of its slots; everything is in range. -/
structure AcctState.OK (H : HashFn) (a : AcctState) : Prop where
  data : AccountOK a.data
  wf : a.trie.WF
  slots : ∀ k, a.trie.get k = if a.slots k = 0 then none else some (Account.wordHash H (a.slots k))
  range : ∀ k, a.slots k < 2 ^ 256

/-- The state: a trie and the accounts it commits to, by account key. -/
structure World where
  trie : ZkTrie
  accounts : Fr → Option AcctState

/-- The trie stores exactly the accounts. -/
structure World.OK (H : HashFn) (w : World) : Prop where
  wf : w.trie.WF
  accounts : ∀ k, w.trie.get k = (w.accounts k).map (AcctState.leafData H)
  each : ∀ k a, w.accounts k = some a → a.OK H

/-- Stores an account. -/
def World.set (H : HashFn) (w : World) (key : Fr) (a : AcctState) : World where
  trie := w.trie.put key (a.leafData H) 0
  accounts := Function.update w.accounts key (some a)

/-- The empty state. -/
def World.initial : World := ⟨.empty, fun _ => none⟩

/-- Reads and writes. A read is a write of the present value. -/
inductive Op
  /-- The account does not exist (any of the claim types that can say so). -/
  | absent (address : List ℕ) (type : MPTProofType)
  | setNonce (address : List ℕ) (value : ℕ)
  | setBalance (address : List ℕ) (value : ℕ)
  | setCodeSize (address : List ℕ) (value : ℕ)
  | setCodeHash (address : List ℕ) (value : ℕ)
  | setPoseidonCodeHash (address : List ℕ) (value : ℕ)
  /-- Writes a storage slot; writing 0 removes it. -/
  | setSlot (address : List ℕ) (slot value : ℕ)
  /-- The slot of an account, which need not exist, is empty. -/
  | slotEmpty (address : List ℕ) (slot : ℕ)

namespace Op

def address : Op → List ℕ
  | absent a _ | setNonce a _ | setBalance a _ | setCodeSize a _ | setCodeHash a _
  | setPoseidonCodeHash a _ | setSlot a _ _ | slotEmpty a _ => a

/-- The slot the operation is about (0 for the others). -/
def slot : Op → ℕ
  | setSlot _ s _ | slotEmpty _ s => s
  | _ => 0

/-- The type of the claim. -/
def type : Op → MPTProofType
  | absent _ t => t
  | setNonce _ _ => .NonceChanged
  | setBalance _ _ => .BalanceChanged
  | setCodeSize _ _ => .CodeSizeExists
  | setCodeHash _ _ => .CodeHashExists
  | setPoseidonCodeHash _ _ => .PoseidonCodeHashExists
  | setSlot _ _ _ => .StorageChanged
  | slotEmpty _ _ => .StorageDoesNotExist

/-- The claim types that can say that an account is absent. -/
def absentTypes : List MPTProofType :=
  [.NonceChanged, .BalanceChanged, .CodeHashExists, .CodeSizeExists, .AccountDoesNotExist]

/-- The account after writing slot `s`. -/
def writeSlot (H : HashFn) (a : AcctState) (s value : ℕ) : AcctState :=
  let k := Account.wordHash H s
  { a with
    trie := if value = 0 then a.trie.remove k 0 else a.trie.put k (Account.wordHash H value) 0
    slots := Function.update a.slots k value }

/-- A new account with the given fields and no storage. -/
def fresh (d : AccountData) : AcctState := ⟨d, .empty, fun _ => 0⟩

/-- Performs an operation; `none` when it is not possible. -/
def apply (H : HashFn) (op : Op) (w : World) : Option World :=
  let key := accountKey H op.address
  match op, w.accounts key with
  | absent _ t, none => if t ∈ absentTypes then some w else none
  | setNonce _ x, none => if 0 < x ∧ x < 2 ^ 64 then some (w.set H key (fresh ⟨x, 0, 0, 0, 0⟩)) else none
  | setBalance _ x, none => if 0 < x ∧ x < 2 ^ 248 then some (w.set H key (fresh ⟨0, x, 0, 0, 0⟩)) else none
  | slotEmpty _ s, none => if s < 2 ^ 256 then some w else none
  | setNonce _ x, some a =>
    if x < 2 ^ 64 then some (w.set H key { a with data := { a.data with nonce := x } }) else none
  | setBalance _ x, some a =>
    if x < 2 ^ 248 then some (w.set H key { a with data := { a.data with balance := x } }) else none
  | setCodeSize _ x, some a =>
    if x < 2 ^ 64 then some (w.set H key { a with data := { a.data with codeSize := x } }) else none
  | setCodeHash _ x, some a =>
    if x < 2 ^ 256 then some (w.set H key { a with data := { a.data with codeHash := x } }) else none
  | setPoseidonCodeHash _ x, some a => some (w.set H key { a with data := { a.data with poseidonCodeHash := x } })
  | setSlot _ s x, some a =>
    if s < 2 ^ 256 ∧ x < 2 ^ 256 ∧ (x ≠ 0 ∨ a.slots (Account.wordHash H s) ≠ 0) then
      some (w.set H key (writeSlot H a s x)) else none
  | slotEmpty _ s, some a =>
    if s < 2 ^ 256 ∧ a.slots (Account.wordHash H s) = 0 then some w else none
  | _, _ => none

end Op

/-- The two 128-bit halves of `x` as the input of a hash. -/
def WordInput (x : ℕ) (d : HashDomain) : Fr → Fr → Fr → Prop := fun l r e =>
  l = ((x / 2 ^ 128 : ℕ) : Fr) ∧ r = ((x % 2 ^ 128 : ℕ) : Fr) ∧ e = d.toFr

/-- The hash inputs of a state that matter for an operation on the account `key` and the slot `slotKey`: those
of the account trie, of the account's storage trie, of its code hash and of the value of the slot. -/
def World.Relevant (H : HashFn) (w : World) (key slotKey : Fr) : Fr → Fr → Fr → Prop := fun l r d =>
  w.trie.trie.Inputs H l r d ∨ ∃ a, w.accounts key = some a ∧ (a.trie.trie.Inputs H l r d ∨
    (∃ e ∈ [HashDomain.Pair, .Leaf, .AccountFields], WordInput a.data.codeHash e l r d) ∨
    WordInput (a.slots slotKey) .Pair l r d)

/-- The hash inputs that matter for an operation: those of the states before and after, and the hash of the
word 0. -/
def Op.Relevant (H : HashFn) (op : Op) (w w' : World) : Fr → Fr → Fr → Prop := fun l r d =>
  w.Relevant H (accountKey H op.address) (Account.wordHash H op.slot) l r d ∨
  w'.Relevant H (accountKey H op.address) (Account.wordHash H op.slot) l r d ∨ WordInput 0 .Pair l r d

/-! ## The state stays consistent -/

theorem World.set_ok {H : HashFn} {w : World} (h : w.OK H) {key : Fr} {a : AcctState} (ha : a.OK H) :
    (w.set H key a).OK H := by
  obtain ⟨h1, h2⟩ := ZkTrie.put_spec h.wf key (a.leafData H)
  refine ⟨h1, fun k => ?_, fun k b hb => ?_⟩
  · show (w.trie.put key (a.leafData H) 0).get k = _
    rw [h2 k]
    by_cases hk : k = key
    · subst hk; simp [World.set]
    · simp [World.set, hk, h.accounts]
  · by_cases hk : k = key
    · subst hk
      simp only [World.set, Function.update_self, Option.some.injEq] at hb
      exact hb ▸ ha
    · simp only [World.set, Function.update_of_ne hk] at hb
      exact h.each k b hb

theorem AcctState.OK.writeSlot {H : HashFn} {a : AcctState} (h : a.OK H) {s x : ℕ} (hx : x < 2 ^ 256) :
    (Op.writeSlot H a s x).OK H := by
  refine ⟨h.data, ?_, fun k => ?_, fun k => ?_⟩
  · show ZkTrie.WF (if x = 0 then _ else _)
    split
    · exact (ZkTrie.remove_spec h.wf _).1
    · exact (ZkTrie.put_spec h.wf _ _).1
  · show ZkTrie.get (if x = 0 then _ else _) k =
      if Function.update a.slots (Account.wordHash H s) x k = 0 then none
      else some (Account.wordHash H (Function.update a.slots (Account.wordHash H s) x k))
    by_cases hk : k = Account.wordHash H s
    · subst hk
      rw [Function.update_self]
      split
      · rw [(ZkTrie.remove_spec h.wf _).2, if_pos rfl]
      · rw [(ZkTrie.put_spec h.wf _ _).2, if_pos rfl]
    · rw [Function.update_of_ne hk, ← h.slots k]
      split
      · rw [(ZkTrie.remove_spec h.wf _).2, if_neg hk]
      · rw [(ZkTrie.put_spec h.wf _ _).2, if_neg hk]
  · simp only [Op.writeSlot]
    by_cases hk : k = Account.wordHash H s
    · subst hk; rw [Function.update_self]; exact hx
    · rw [Function.update_of_ne hk]; exact h.range k

theorem fresh_ok {H : HashFn} {d : AccountData} (h : AccountOK d) : (Op.fresh d).OK H :=
  ⟨h, trivial, fun _ => rfl, fun _ => by simp [Op.fresh]⟩

/-- Every operation leaves the state consistent. -/
theorem Op.apply_ok {H : HashFn} {op : Op} {w w' : World} (h : w.OK H) (ha : op.apply H w = some w') :
    w'.OK H := by
  have key : ∀ {k a d}, w.accounts k = some a → AccountOK d → AcctState.OK H { a with data := d } :=
    fun {k a d} hk hd => let o := h.each k a hk; ⟨hd, o.wf, o.slots, o.range⟩
  have dat : ∀ {k a}, w.accounts k = some a → AccountOK a.data := fun {k a} hk => (h.each k a hk).data
  unfold Op.apply at ha
  dsimp only at ha
  split at ha <;> first
    | (split at ha <;> first | (cases ha; exact h) | (cases ha; done) | skip)
    | (cases ha; done) | skip
  all_goals cases ha
  all_goals refine World.set_ok h ?_
  · rename_i hc; exact fresh_ok ⟨hc.2, by norm_num, by norm_num, by norm_num⟩
  · rename_i hc; exact fresh_ok ⟨by norm_num, by norm_num, hc.2, by norm_num⟩
  · rename_i hk hc; exact key hk ⟨hc, (dat hk).codeSize, (dat hk).balance, (dat hk).codeHash⟩
  · rename_i hk hc; exact key hk ⟨(dat hk).nonce, (dat hk).codeSize, hc, (dat hk).codeHash⟩
  · rename_i hk hc; exact key hk ⟨(dat hk).nonce, hc, (dat hk).balance, (dat hk).codeHash⟩
  · rename_i hk hc; exact key hk ⟨(dat hk).nonce, (dat hk).codeSize, (dat hk).balance, hc⟩
  · rename_i hk; exact key hk ⟨(dat hk).nonce, (dat hk).codeSize, (dat hk).balance, (dat hk).codeHash⟩
  · rename_i hk hc; exact (h.each _ _ hk).writeSlot hc.2.1

theorem World.initial_ok (H : HashFn) : World.initial.OK H :=
  ⟨trivial, fun _ => rfl, fun _ _ h => by cases h⟩

end Mpt.Spec
