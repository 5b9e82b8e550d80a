import Verif.Assign.HonestAbsent

set_option autoImplicit false

/-!
# Completeness (C35): creation of an account
-/

namespace Mpt
open Spec MptUpdate Types Requests Props

variable {H : HashFn} {w : Witness Fr} {U : ℕ}

/-! ## Hashes served -/

theorem serves_oldLeaf {ρ : Fr} {p : Proof} (hS : Serves H w U ρ p) {d : Fr}
    (h : p.old.leafDataHash = some d) : P1 w U p.old.key d HashDomain.Leaf.toFr (p.old.hash H) := by
  obtain ⟨es, q1, q2⟩ := hS.hash
  obtain ⟨a, -, q0⟩ := Option.bind_eq_some_iff.1 q1
  obtain ⟨b, -, q⟩ := Option.bind_eq_some_iff.1 q0
  cases q
  have := q2 ((p.old.key, d), HashDomain.Leaf.toFr, domainHash H p.old.key d .Leaf)
    (List.mem_append_left _ (List.mem_append_left _ (List.mem_append_left _
      (List.mem_append_right _ (by simp [leafEntry, h])))))
  simpa [Path.hash, h] using this

theorem serves_newLeaf {ρ : Fr} {p : Proof} (hS : Serves H w U ρ p) {d : Fr}
    (h : p.new.leafDataHash = some d) : P1 w U p.new.key d HashDomain.Leaf.toFr (p.new.hash H) := by
  obtain ⟨es, q1, q2⟩ := hS.hash
  obtain ⟨a, -, q0⟩ := Option.bind_eq_some_iff.1 q1
  obtain ⟨b, -, q⟩ := Option.bind_eq_some_iff.1 q0
  cases q
  have := q2 ((p.new.key, d), HashDomain.Leaf.toFr, domainHash H p.new.key d .Leaf)
    (List.mem_append_left _ (List.mem_append_left _
      (List.mem_append_right _ (by simp [leafEntry, h]))))
  simpa [Path.hash, h] using this

/-- The hashes of account fields are in the table. -/
structure FieldNodes (w : Witness Fr) (U : ℕ) (t : AccountTraces) : Prop where
  n1 : P1 w U t.t1.1 t.t1.2.1 HashDomain.AccountFields.toFr t.t1.2.2
  n2 : P1 w U t.t2.1 t.t2.2.1 HashDomain.AccountFields.toFr t.t2.2.2
  n3 : P1 w U t.t3.1 t.t3.2.1 HashDomain.AccountFields.toFr t.t3.2.2
  n4 : P1 w U t.t4.1 t.t4.2.1 HashDomain.AccountFields.toFr t.t4.2.2

theorem fieldNodes_of {address : List ℕ} {a : AccountData} {sr : Fr}
    (h : ∀ e ∈ tracesEntries H (accountHashTraces H address a sr), P1 w U e.1.1 e.1.2 e.2.1 e.2.2) :
    FieldNodes w U (accountHashTraces H address a sr) := by
  have key : ∀ t : Triple, t ∈ [(accountHashTraces H address a sr).t0,
      (accountHashTraces H address a sr).t1, (accountHashTraces H address a sr).t2,
      (accountHashTraces H address a sr).t3, (accountHashTraces H address a sr).t4,
      (accountHashTraces H address a sr).t5] → domainHash H t.1 t.2.1 .AccountFields = t.2.2 →
      P1 w U t.1 t.2.1 HashDomain.AccountFields.toFr t.2.2 := by
    intro t ht he
    refine h ((t.1, t.2.1), HashDomain.AccountFields.toFr, t.2.2) (List.mem_flatMap.2 ⟨t, ht, ?_⟩)
    rw [tripleEntry, if_pos he]; simp
  exact ⟨key _ (by simp) rfl, key _ (by simp) rfl, key _ (by simp) rfl, key _ (by simp) rfl⟩

theorem serves_newTraces {ρ : Fr} {p : Proof} (hS : Serves H w U ρ p) :
    ∀ e ∈ tracesEntries H p.newTraces, P1 w U e.1.1 e.1.2 e.2.1 e.2.2 := by
  obtain ⟨es, q1, q2⟩ := hS.hash
  obtain ⟨a, -, q0⟩ := Option.bind_eq_some_iff.1 q1
  obtain ⟨b, -, q⟩ := Option.bind_eq_some_iff.1 q0
  cases q
  exact fun e he => q2 e (List.mem_append_right _ he)

theorem serves_oldTraces {ρ : Fr} {p : Proof} (hS : Serves H w U ρ p) :
    ∀ e ∈ tracesEntries H p.oldTraces, P1 w U e.1.1 e.1.2 e.2.1 e.2.2 := by
  obtain ⟨es, q1, q2⟩ := hS.hash
  obtain ⟨a, -, q0⟩ := Option.bind_eq_some_iff.1 q1
  obtain ⟨b, -, q⟩ := Option.bind_eq_some_iff.1 q0
  cases q
  exact fun e he => q2 e (List.mem_append_left _ (List.mem_append_right _ he))

/-! ## Integers -/

theorem frFromBiguint_eq (n : ℕ) : frFromBiguint n = (n : Fr) := (c46_reduction n).1

theorem rlcFold_31 {x : ℕ} (h : x < 2 ^ 248) (ρ : Fr) :
    rlcFold (beBytes 32 x) ρ = rlcFold (beBytes 31 x) ρ := by
  rw [show (32 : ℕ) = 31 + 1 from rfl, beBytes]
  have : x / 256 ^ 31 % 256 = 0 := by
    rw [Nat.div_eq_of_lt (by rw [show (256 : ℕ) ^ 31 = 2 ^ 248 by norm_num]; exact h)]
  rw [this]
  unfold rlcFold
  simp

theorem val_cast_of_lt {x : ℕ} (h : x < 2 ^ 248) : ((x : ℕ) : Fr).val = x :=
  ZMod.val_cast_of_lt (lt_trans h (by unfold frModulus; norm_num))

/-! ## New accounts -/

/-- Creation of an account, by setting its nonce or its balance: all other fields are 0. -/
inductive NewKind (p : Proof) : AccountData → Prop
  | nonce (n : ℕ) (hk : p.claim.kind = .Nonce none (some n)) : NewKind p ⟨n, 0, 0, 0, 0⟩
  | balance (b : ℕ) (hb : b < 2 ^ 248) (hk : p.claim.kind = .Balance none (some b)) :
    NewKind p ⟨0, b, 0, 0, 0⟩

structure NewReady (H : HashFn) (p : Proof) (a : AccountData) : Prop where
  acc : AccountReady H .ExtensionNew p
  noOld : p.oldAccount = none
  newAccount : ∃ e, p.newAccount = some e ∧ e.nonce = a.nonce ∧ e.codeSize = a.codeSize ∧
    e.balance = frFromBiguint a.balance
  storage : p.storage = .Root 0
  kind : NewKind p a
  traces : p.newTraces = accountHashTraces H p.claim.address a 0
  newKey : p.new.key = accountKey H p.claim.address
  newLeaf : p.new.leafDataHash = some p.newTraces.t5.2.1
  newHash : p.new.hash H ≠ 0
  oldLeaf : (p.old.leafDataHash = none ∧ p.old.key = accountKey H p.claim.address) ∨
    (∃ d, p.old.leafDataHash = some d ∧ p.old.key ≠ accountKey H p.claim.address ∧ p.old.hash H ≠ 0)
  final : endPath p.accountTrieRows = .Common → p.old.hash H = 0

end Mpt
