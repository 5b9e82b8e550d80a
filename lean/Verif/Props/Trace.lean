import Verif.Types.Proof
import Verif.Props.Util

set_option autoImplicit false

/-!
# C41: claims are extracted faithfully from traces; C42: account leaf hashing
-/

namespace Mpt.Props
open Mpt Mpt.Types Mpt.Spec

/-- Specification of C41: the kind of claim that a trace supports for a proof type.
`acc` are the account records before and after (`none` = the account does not exist), `sto` the
storage entries `(key, old value, new value)` if the trace has a storage update. -/
inductive KindOf : MPTProofType → SMTTrace → ClaimKind → Prop
  /-- storage entry read as absent before and after -/
  | storageEmpty {t old new} : t.stateUpdate = some (some old, some new) → old.key = new.key →
      (t.accountUpdate.1 = t.accountUpdate.2 ∨
        t.accountUpdate = (none, some ⟨0, 0, 0, 0, 0⟩)) →
      beVal old.value = 0 → beVal new.value = 0 →
      KindOf .StorageDoesNotExist t (.IsEmpty (some (beVal old.key)))
  /-- storage entry changed; a zero value is an absent entry -/
  | storage {t old new o n} : t.stateUpdate = some (some old, some new) → old.key = new.key →
      (t.accountUpdate.1 = t.accountUpdate.2 ∨
        t.accountUpdate = (none, some ⟨0, 0, 0, 0, 0⟩)) →
      (beVal old.value ≠ 0 ∨ beVal new.value ≠ 0) →
      (o = none ∧ beVal old.value = 0 ∨ o = some (beVal old.value) ∧ beVal old.value ≠ 0) →
      (n = none ∧ beVal new.value = 0 ∨ n = some (beVal new.value) ∧ beVal new.value ≠ 0) →
      KindOf .StorageChanged t (.Storage (beVal old.key) o n)
  /-- no account before and after: reads of zero -/
  | absentNonce {t} : (t.stateUpdate = none ∨ t.stateUpdate = some (none, none)) →
      t.accountUpdate = (none, none) → KindOf .NonceChanged t (.Nonce (some 0) (some 0))
  | absentBalance {t} : (t.stateUpdate = none ∨ t.stateUpdate = some (none, none)) →
      t.accountUpdate = (none, none) → KindOf .BalanceChanged t (.Balance (some 0) (some 0))
  | absentCodeHash {t} : (t.stateUpdate = none ∨ t.stateUpdate = some (none, none)) →
      t.accountUpdate = (none, none) → KindOf .CodeHashExists t (.CodeHash (some 0) (some 0))
  | absentCodeSize {t} : (t.stateUpdate = none ∨ t.stateUpdate = some (none, none)) →
      t.accountUpdate = (none, none) → KindOf .CodeSizeExists t (.CodeSize (some 0) (some 0))
  | absentAccount {t} : (t.stateUpdate = none ∨ t.stateUpdate = some (none, none)) →
      t.accountUpdate = (none, none) → KindOf .AccountDoesNotExist t (.IsEmpty none)
  /-- here the claim's storage key is read from the trace's *hashed* key -/
  | absentStorage {t k} : (t.stateUpdate = none ∨ t.stateUpdate = some (none, none)) →
      t.accountUpdate = (none, none) → t.stateKey = some k →
      KindOf .StorageDoesNotExist t (.IsEmpty (some (beVal k)))
  /-- a new account, created by a nonce or by a balance -/
  | createNonce {t a} : (t.stateUpdate = none ∨ t.stateUpdate = some (none, none)) →
      t.accountUpdate = (none, some a) → a.nonce ≠ 0 →
      KindOf .NonceChanged t (.Nonce none (some a.nonce))
  | createBalance {t a} : (t.stateUpdate = none ∨ t.stateUpdate = some (none, none)) →
      t.accountUpdate = (none, some a) → a.nonce = 0 → a.balance ≠ 0 → a.balance < 2 ^ 256 →
      KindOf .BalanceChanged t (.Balance none (some a.balance))
  /-- an existing account in which one field changes -/
  | nonce {t a n} : (t.stateUpdate = none ∨ t.stateUpdate = some (none, none)) →
      t.accountUpdate = (some a, some { a with nonce := n }) →
      KindOf .NonceChanged t (.Nonce (some a.nonce) (some n))
  | balance {t a b} : (t.stateUpdate = none ∨ t.stateUpdate = some (none, none)) →
      t.accountUpdate = (some a, some { a with balance := b }) → a.balance < 2 ^ 256 → b < 2 ^ 256 →
      KindOf .BalanceChanged t (.Balance (some a.balance) (some b))
  | codeHash {t a h} : (t.stateUpdate = none ∨ t.stateUpdate = some (none, none)) →
      t.accountUpdate = (some a, some { a with codeHash := h }) → a.codeHash < 2 ^ 256 → h < 2 ^ 256 →
      KindOf .CodeHashExists t (.CodeHash (some a.codeHash) (some h))
  | codeSize {t a s} : (t.stateUpdate = none ∨ t.stateUpdate = some (none, none)) →
      t.accountUpdate = (some a, some { a with codeSize := s }) →
      KindOf .CodeSizeExists t (.CodeSize (some a.codeSize) (some s))
  | poseidonCodeHash {t a} {h : ℕ} : (t.stateUpdate = none ∨ t.stateUpdate = some (none, none)) →
      t.accountUpdate = (some a, some { a with poseidonCodeHash := h }) →
      KindOf .PoseidonCodeHashExists t
        (.PoseidonCodeHash (some (a.poseidonCodeHash : Fr)) (some (h : Fr)))

theorem accountKind_iff (pt : MPTProofType) (t : SMTTrace) (k : ClaimKind)
    (hs : t.stateUpdate = none ∨ t.stateUpdate = some (none, none)) :
    (accountKind pt t = some k ∧ k.proofType = pt) ↔ KindOf pt t k := by
  constructor
  · rintro ⟨h, hp⟩
    unfold accountKind at h
    split at h
    · rename_i ha
      cases pt <;> simp at h
      case StorageDoesNotExist =>
        obtain ⟨key, hk, rfl⟩ := h
        exact .absentStorage hs ha hk
      all_goals subst h
      · exact .absentNonce hs ha
      · exact .absentBalance hs ha
      · exact .absentCodeHash hs ha
      · exact .absentCodeSize hs ha
      · exact .absentAccount hs ha
    · rename_i a ha
      split at h
      · split at h
        · subst pt
          rw [← Option.some.inj h]
          exact .createNonce hs ha ‹_›
        · simp at h
      · split at h
        · split at h
          · subst pt
            simp only [u256FromBiguint] at h
            split at h
            · rw [Option.map_some] at h
              rw [← Option.some.inj h]
              exact .createBalance hs ha (not_not.1 ‹_›) ‹_› ‹_›
            · simp at h
          · simp at h
        · simp at h
    · rename_i a b ha
      obtain ⟨n1, b1, c1, p1, s1⟩ := a
      obtain ⟨n2, b2, c2, p2, s2⟩ := b
      cases pt <;> simp [u256FromBiguint] at h
      · obtain ⟨⟨rfl, rfl, rfl, rfl⟩, rfl⟩ := h
        exact KindOf.nonce hs ha
      · obtain ⟨⟨rfl, rfl, rfl, rfl⟩, h⟩ := h
        change (Option.bind _ fun _ => Option.bind _ _) = _ at h
        simp only [Option.bind_eq_some_iff] at h
        obtain ⟨x, h1, y, h2, h⟩ := h
        split at h1
        · split at h2
          · obtain rfl := Option.some.inj h1
            obtain rfl := Option.some.inj h2
            rw [← Option.some.inj h]
            exact KindOf.balance hs ha (by norm_num; assumption) (by norm_num; assumption)
          · simp at h2
        · simp at h1
      · obtain ⟨⟨rfl, rfl, rfl, rfl⟩, h⟩ := h
        change (Option.bind _ fun _ => Option.bind _ _) = _ at h
        simp only [Option.bind_eq_some_iff] at h
        obtain ⟨x, h1, y, h2, h⟩ := h
        split at h1
        · split at h2
          · obtain rfl := Option.some.inj h1
            obtain rfl := Option.some.inj h2
            rw [← Option.some.inj h]
            exact KindOf.codeHash hs ha (by norm_num; assumption) (by norm_num; assumption)
          · simp at h2
        · simp at h1
      · obtain ⟨⟨rfl, rfl, rfl, rfl⟩, rfl⟩ := h
        rw [(c46_reduction _).1, (c46_reduction _).1]
        exact .poseidonCodeHash hs ha
      · obtain ⟨⟨rfl, rfl, rfl, rfl⟩, rfl⟩ := h
        exact .codeSize hs ha
    · simp at h
  · intro h
    cases h <;> simp_all [accountKind, ClaimKind.proofType, u256FromBiguint, u256FromHex,
      c46_reduction]

/-- C41: `Claim::from` accepts a trace for a proof type exactly when its roots are canonical field
elements and the trace supports a claim of that type, and then returns the trace's roots, the trace's
address and that claim. -/
theorem c41_claim (pt : MPTProofType) (t : SMTTrace) (c : Claim) :
    claimFrom pt t = some c ↔
      fr t.accountPath.1.root = some c.oldRoot ∧ fr t.accountPath.2.root = some c.newRoot ∧
      c.address = t.address ∧ KindOf pt t c.kind := by
  have key : ∀ k, (claimKindFrom pt t = some k ∧ k.proofType = pt) ↔ KindOf pt t k := by
    intro k
    unfold claimKindFrom
    split
    · rename_i old new hs
      constructor
      · rintro ⟨h, hp⟩
        unfold storageKind at h
        split at h
        · rename_i hacc
          have hacc' : t.accountUpdate.1 = t.accountUpdate.2 ∨
              t.accountUpdate = (none, some ⟨0, 0, 0, 0, 0⟩) := by
            rcases hacc with h | ⟨h1, h2⟩
            · exact .inl h
            · exact .inr (Prod.ext h1 h2)
          split at h
          · rename_i hk
            dsimp only at h
            split at h
            · rename_i hz
              rw [← Option.some.inj h] at hp ⊢
              rw [← hp]
              exact .storageEmpty hs hk hacc' hz.1 hz.2
            · rename_i hz
              rw [← Option.some.inj h] at hp ⊢
              rw [← hp]
              refine .storage hs hk hacc' (not_and_or.1 hz) ?_ ?_
              · by_cases h0 : beVal old.value = 0 <;> simp [u256FromHex, h0]
              · by_cases h0 : beVal new.value = 0 <;> simp [u256FromHex, h0]
          · simp at h
        · simp at h
      · intro h
        cases h with
        | @storageEmpty _ o n h1 h2 h3 h4 h5 =>
          rw [hs] at h1
          simp only [Option.some.injEq, Prod.mk.injEq] at h1
          obtain ⟨rfl, rfl⟩ := h1
          have h3' : t.accountUpdate.1 = t.accountUpdate.2 ∨
              (t.accountUpdate.1 = none ∧ t.accountUpdate.2 = some AccountData.default) := by
            rcases h3 with h | h
            · exact .inl h
            · exact .inr (by rw [h]; exact ⟨rfl, rfl⟩)
          rw [storageKind, if_pos h3', if_pos h2]
          simp only [u256FromHex, h4, h5]
          exact ⟨rfl, rfl⟩
        | @storage _ o n vo vn h1 h2 h3 h4 h5 h6 =>
          rw [hs] at h1
          simp only [Option.some.injEq, Prod.mk.injEq] at h1
          obtain ⟨rfl, rfl⟩ := h1
          have h3' : t.accountUpdate.1 = t.accountUpdate.2 ∨
              (t.accountUpdate.1 = none ∧ t.accountUpdate.2 = some AccountData.default) := by
            rcases h3 with h | h
            · exact .inl h
            · exact .inr (by rw [h]; exact ⟨rfl, rfl⟩)
          rw [storageKind, if_pos h3', if_pos h2]
          dsimp only
          rw [if_neg (show ¬ (u256FromHex old.value = 0 ∧ u256FromHex new.value = 0) from not_and_or.2 h4)]
          refine ⟨?_, rfl⟩
          simp only [u256FromHex]
          rcases h5 with ⟨rfl, e1⟩ | ⟨rfl, e1⟩ <;> rcases h6 with ⟨rfl, e2⟩ | ⟨rfl, e2⟩ <;>
            simp [e1, e2]
        | _ => simp_all
    · rename_i hs
      simp only [reduceCtorEq, false_and, false_iff]
      intro h
      cases h <;> simp_all
    · rename_i hs
      simp only [reduceCtorEq, false_and, false_iff]
      intro h
      cases h <;> simp_all
    · rename_i hs
      exact accountKind_iff pt t k (.inr hs)
    · rename_i hs
      exact accountKind_iff pt t k (.inl hs)
  simp only [claimFrom, Option.bind_eq_bind, Option.bind_eq_some_iff]
  constructor
  · rintro ⟨r0, h0, r1, h1, k, hk, h⟩
    split at h
    · rw [← Option.some.inj h]
      exact ⟨h0, h1, rfl, (key k).1 ⟨hk, ‹_›⟩⟩
    · simp at h
  · rintro ⟨h0, h1, h2, h3⟩
    obtain ⟨hk, hp⟩ := (key c.kind).2 h3
    refine ⟨_, h0, _, h1, _, hk, ?_⟩
    rw [if_pos hp, ← h2]

/-- C41: traces that the code refuses, for every proof type: accounts that are deleted, a storage
update with one missing side or with two different keys, and everything about `AccountDestructed`. -/
theorem c41_rejected (pt : MPTProofType) (t : SMTTrace)
    (h : pt = .AccountDestructed ∨ (∃ a, t.accountUpdate = (some a, none)) ∨
      (∃ a, t.stateUpdate = some (some a, none)) ∨ (∃ a, t.stateUpdate = some (none, some a)) ∨
      (∃ a b, t.stateUpdate = some (some a, some b) ∧ a.key ≠ b.key)) :
    claimFrom pt t = none := by
  rw [Option.eq_none_iff_forall_ne_some]
  intro c hc
  rw [c41_claim] at hc
  obtain ⟨_, _, _, hk⟩ := hc
  generalize c.kind = k at hk
  rcases h with rfl | ⟨a, h⟩ | ⟨a, h⟩ | ⟨a, h⟩ | ⟨a, b, h, hne⟩
  · cases hk
  · cases hk <;> simp_all
  · cases hk <;> simp_all
  · cases hk <;> simp_all
  · cases hk <;> simp_all

/-- C41: the values put into the circuit are the claim's values: integers for nonce and code size, the
field element for the Poseidon code hash, the RLC of the 32 big-endian bytes for balance, code hash and
storage values, and 0 for an absent side. -/
theorem c41_values (c : Claim) (ρ : Fr) :
    (∀ o n, c.kind = .Nonce o n ∨ c.kind = .CodeSize o n →
      c.oldValueAssignment ρ = ((o.getD 0 : ℕ) : Fr) ∧ c.newValueAssignment ρ = ((n.getD 0 : ℕ) : Fr)) ∧
    (∀ o n, c.kind = .PoseidonCodeHash o n →
      c.oldValueAssignment ρ = o.getD 0 ∧ c.newValueAssignment ρ = n.getD 0) ∧
    (∀ o n, c.kind = .Balance o n ∨ c.kind = .CodeHash o n ∨ (∃ k, c.kind = .Storage k o n) →
      c.oldValueAssignment ρ = rlc ρ (beBytes 32 (o.getD 0)) ∧
      c.newValueAssignment ρ = rlc ρ (beBytes 32 (n.getD 0))) ∧
    (∀ k, c.kind = .IsEmpty k → c.oldValueAssignment ρ = 0 ∧ c.newValueAssignment ρ = 0) := by
  obtain ⟨_, _, _, kind⟩ := c
  cases kind <;>
    simp [Claim.oldValueAssignment, Claim.newValueAssignment, c47_rlc_eq, u256ToBigEndian]

/-- Non-vacuity: a trace of a nonce change is accepted. -/
example : ∃ t c, claimFrom .NonceChanged t = some c ∧ c.kind = .Nonce (some 1) (some 2) := by
  refine ⟨⟨[], [], (⟨[], none, []⟩, ⟨[], none, []⟩), (some ⟨1, 5, 6, 7, 8⟩, some ⟨2, 5, 6, 7, 8⟩),
    (none, none), none, none, none⟩, ⟨0, 0, [], .Nonce (some 1) (some 2)⟩, ?_, rfl⟩
  rw [c41_claim]
  have h0 : fr [] = some 0 := by simp [fr, leVal, beVal, frModulus_prime.pos]
  exact ⟨h0, h0, rfl, KindOf.nonce (a := ⟨1, 5, 6, 7, 8⟩) (n := 2) (.inl rfl) rfl⟩

/-! ## C42 -/

/-- A hash input `(left, right, domain)`. -/
abbrev HashInput := Fr × Fr × HashDomain
/-- Its hash. -/
def hashOf (H : HashFn) (x : HashInput) : Fr := H x.1 x.2.1 x.2.2.toFr

/-- Specification: the seven hash inputs of an account leaf in the zkTrie. -/
structure LeafInputs where
  code : HashInput
  right : HashInput
  left : HashInput
  fields : HashInput
  data : HashInput
  addr : HashInput
  leaf : HashInput

def LeafInputs.all (l : LeafInputs) : List HashInput :=
  [l.code, l.right, l.left, l.fields, l.data, l.addr, l.leaf]

/-- The commitment scheme: keccak code hash by 128-bit halves; (storage root, code hash);
(nonce + 2^64 code size, balance); (left, right); Poseidon code hash; the address key; the leaf. -/
def leafInputs (H : HashFn) (address : ℕ) (a : AccountData) (storageRoot : Fr) : LeafInputs :=
  let code : HashInput :=
    (((a.codeHash / 2 ^ 128 : ℕ) : Fr), ((a.codeHash % 2 ^ 128 : ℕ) : Fr), .Pair)
  let right : HashInput := (storageRoot, hashOf H code, .AccountFields)
  let left : HashInput := (nonceCode a.nonce a.codeSize, (a.balance : Fr), .AccountFields)
  let fields : HashInput := (hashOf H left, hashOf H right, .AccountFields)
  let data : HashInput := (hashOf H fields, (a.poseidonCodeHash : Fr), .AccountFields)
  let addr : HashInput :=
    (((address / 2 ^ 32 : ℕ) : Fr), ((address % 2 ^ 32 * 2 ^ 96 : ℕ) : Fr), .Pair)
  let leaf : HashInput := (hashOf H addr, hashOf H data, .Leaf)
  ⟨code, right, left, fields, data, addr, leaf⟩

/-- `[left, right, hash]` of an input. -/
def tripleOf (H : HashFn) (x : HashInput) : Triple := (x.1, x.2.1, hashOf H x)

/-- C42: every row of `account_hash_traces` is a hash triple, the rows are the hashes of the account
leaf's commitment scheme, and the last row's hash is the leaf hash. -/
theorem c42_traces (H : HashFn) (address : List ℕ) (hb : IsBytes address) (hl : address.length = 20)
    (a : AccountData) (hc : a.codeHash < 2 ^ 256) (storageRoot : Fr) :
    let t := accountHashTraces H address a storageRoot
    let i := leafInputs H (beVal address) a storageRoot
    t.t0 = tripleOf H i.code ∧ t.t1 = tripleOf H i.right ∧ t.t2 = tripleOf H i.left ∧
    t.t3 = tripleOf H i.fields ∧ t.t4 = tripleOf H i.data ∧ t.t5 = tripleOf H i.leaf := by
  obtain ⟨_, _, hhi, _⟩ := c45_split a.codeHash hc
  have hk := (c48_account_key H address hb hl).2.2.2.2
  have hnc : ((a.nonce : ℕ) : Fr) + ((a.codeSize : ℕ) : Fr) * (((2 ^ 32 : ℕ) : Fr) * ((2 ^ 32 : ℕ) : Fr))
      = nonceCode a.nonce a.codeSize := by
    rw [nonceCode]; push_cast; ring
  simp only [accountHashTraces, leafInputs, tripleOf, hashOf, hhi, hk, hnc, (c46_reduction _).1,
    domainHash, and_self]

/-- No input of the first list collides with a different input of the second list (in the same
domain). -/
def NoCollision (H : HashFn) (xs ys : List HashInput) : Prop :=
  ∀ x ∈ xs, ∀ y ∈ ys, x.2.2 = y.2.2 → hashOf H x = hashOf H y → x = y

theorem nonceCode_inj {n s n' s' : ℕ} (h1 : n < 2 ^ 64) (h2 : s < 2 ^ 64) (h3 : n' < 2 ^ 64)
    (h4 : s' < 2 ^ 64) (h : nonceCode n s = nonceCode n' s') : n = n' ∧ s = s' := by
  have hm := frModulus_gt
  have : n + 2 ^ 64 * s = n' + 2 ^ 64 * s' := natCast_inj_of_lt
    (lt_trans (show n + 2 ^ 64 * s < 2 ^ 128 by omega) (lt_trans (by norm_num) hm))
    (lt_trans (show n' + 2 ^ 64 * s' < 2 ^ 128 by omega) (lt_trans (by norm_num) hm)) h
  omega

theorem div_mod_inj {x y m : ℕ} (h1 : x / m = y / m) (h2 : x % m = y % m) : x = y := by
  rw [← Nat.div_add_mod x m, ← Nat.div_add_mod y m, h1, h2]

theorem lt_128 {x : ℕ} (h : x < 2 ^ 128) : x < frModulus :=
  lt_trans h (lt_trans (Nat.pow_lt_pow_right (by norm_num) (by norm_num)) frModulus_gt)

theorem hi_lt {x : ℕ} (h : x < 2 ^ 256) : x / 2 ^ 128 < frModulus := by
  refine lt_128 ?_
  rw [Nat.div_lt_iff_lt_mul (by positivity), ← pow_add]
  exact h

theorem lo_lt (x : ℕ) : x % 2 ^ 128 < frModulus := lt_128 (Nat.mod_lt _ (by positivity))

theorem addr_hi_lt {x : ℕ} (h : x < 2 ^ 160) : x / 2 ^ 32 < frModulus := by
  refine lt_128 ?_
  rw [Nat.div_lt_iff_lt_mul (by positivity), ← pow_add]
  exact h

theorem addr_lo_lt (x : ℕ) : x % 2 ^ 32 * 2 ^ 96 < frModulus := by
  refine lt_128 ?_
  rw [show (2 : ℕ) ^ 128 = 2 ^ 32 * 2 ^ 96 by rw [← pow_add]]
  exact Nat.mul_lt_mul_of_pos_right (Nat.mod_lt _ (by positivity)) (by positivity)

section
variable (H : HashFn) (ad : ℕ) (a : AccountData) (r : Fr)
theorem li_leaf : (leafInputs H ad a r).leaf =
    (hashOf H (leafInputs H ad a r).addr, hashOf H (leafInputs H ad a r).data, .Leaf) := rfl
theorem li_addr : (leafInputs H ad a r).addr =
    (((ad / 2 ^ 32 : ℕ) : Fr), ((ad % 2 ^ 32 * 2 ^ 96 : ℕ) : Fr), .Pair) := rfl
theorem li_data : (leafInputs H ad a r).data =
    (hashOf H (leafInputs H ad a r).fields, (a.poseidonCodeHash : Fr), .AccountFields) := rfl
theorem li_fields : (leafInputs H ad a r).fields =
    (hashOf H (leafInputs H ad a r).left, hashOf H (leafInputs H ad a r).right, .AccountFields) := rfl
theorem li_left : (leafInputs H ad a r).left =
    (nonceCode a.nonce a.codeSize, (a.balance : Fr), .AccountFields) := rfl
theorem li_right : (leafInputs H ad a r).right =
    (r, hashOf H (leafInputs H ad a r).code, .AccountFields) := rfl
theorem li_code : (leafInputs H ad a r).code =
    (((a.codeHash / 2 ^ 128 : ℕ) : Fr), ((a.codeHash % 2 ^ 128 : ℕ) : Fr), .Pair) := rfl
end

/-- C42: a leaf hash commits to the address, to every account field and to the storage root: two
accounts with values in range whose leaf hashes are equal are the same, unless two of the fourteen hash
inputs involved collide. -/
theorem c42_binding (H : HashFn) (addr1 addr2 : List ℕ) (hb1 : IsBytes addr1) (hb2 : IsBytes addr2)
    (hl1 : addr1.length = 20) (hl2 : addr2.length = 20) (a1 a2 : AccountData) (r1 r2 : Fr)
    (hr : ∀ a ∈ [a1, a2], a.nonce < 2 ^ 64 ∧ a.codeSize < 2 ^ 64 ∧ a.balance < frModulus ∧
      a.poseidonCodeHash < frModulus ∧ a.codeHash < 2 ^ 256)
    (hcoll : NoCollision H (leafInputs H (beVal addr1) a1 r1).all (leafInputs H (beVal addr2) a2 r2).all)
    (heq : (accountHashTraces H addr1 a1 r1).t5.2.2 = (accountHashTraces H addr2 a2 r2).t5.2.2) :
    addr1 = addr2 ∧ a1 = a2 ∧ r1 = r2 := by
  obtain ⟨⟨n1, s1, b1, p1, c1⟩, ⟨n2, s2, b2, p2, c2⟩⟩ :
      (_ ∧ _ ∧ _ ∧ _ ∧ _) ∧ (_ ∧ _ ∧ _ ∧ _ ∧ _) := ⟨hr a1 (by simp), hr a2 (by simp)⟩
  have e := (c42_traces H addr1 hb1 hl1 a1 c1 r1).2.2.2.2.2
  have e' := (c42_traces H addr2 hb2 hl2 a2 c2 r2).2.2.2.2.2
  simp only [e, e', tripleOf] at heq
  have hf : ∀ x y l1 r1' d1 l2 r2' d2, x ∈ (leafInputs H (beVal addr1) a1 r1).all →
      y ∈ (leafInputs H (beVal addr2) a2 r2).all → x = (l1, r1', d1) → y = (l2, r2', d2) → d1 = d2 →
      hashOf H x = hashOf H y → l1 = l2 ∧ r1' = r2' := by
    rintro x y l1 r1' d1 l2 r2' d2 hx hy rfl rfl hd he
    have := hcoll _ hx _ hy hd he
    simp only [Prod.mk.injEq] at this
    exact ⟨this.1, this.2.1⟩
  obtain ⟨f1, f2⟩ := hf _ _ _ _ _ _ _ _ (by simp only [LeafInputs.all]; simp)
    (by simp only [LeafInputs.all]; simp) (li_leaf H (beVal addr1) a1 r1) (li_leaf H (beVal addr2) a2 r2)
    rfl heq
  obtain ⟨g1, g2⟩ := hf _ _ _ _ _ _ _ _ (by simp only [LeafInputs.all]; simp)
    (by simp only [LeafInputs.all]; simp) (li_addr H (beVal addr1) a1 r1) (li_addr H (beVal addr2) a2 r2)
    rfl f1
  obtain ⟨d1, d2⟩ := hf _ _ _ _ _ _ _ _ (by simp only [LeafInputs.all]; simp)
    (by simp only [LeafInputs.all]; simp) (li_data H (beVal addr1) a1 r1) (li_data H (beVal addr2) a2 r2)
    rfl f2
  obtain ⟨x1, x2⟩ := hf _ _ _ _ _ _ _ _ (by simp only [LeafInputs.all]; simp)
    (by simp only [LeafInputs.all]; simp) (li_fields H (beVal addr1) a1 r1)
    (li_fields H (beVal addr2) a2 r2) rfl d1
  obtain ⟨y1, y2⟩ := hf _ _ _ _ _ _ _ _ (by simp only [LeafInputs.all]; simp)
    (by simp only [LeafInputs.all]; simp) (li_left H (beVal addr1) a1 r1) (li_left H (beVal addr2) a2 r2)
    rfl x1
  obtain ⟨z1, z2⟩ := hf _ _ _ _ _ _ _ _ (by simp only [LeafInputs.all]; simp)
    (by simp only [LeafInputs.all]; simp) (li_right H (beVal addr1) a1 r1)
    (li_right H (beVal addr2) a2 r2) rfl x2
  obtain ⟨u1, u2⟩ := hf _ _ _ _ _ _ _ _ (by simp only [LeafInputs.all]; simp)
    (by simp only [LeafInputs.all]; simp) (li_code H (beVal addr1) a1 r1) (li_code H (beVal addr2) a2 r2)
    rfl z2
  have hbal := natCast_inj_of_lt b1 b2 y2
  have hp := natCast_inj_of_lt p1 p2 d2
  obtain ⟨hn, hs⟩ := nonceCode_inj n1 s1 n2 s2 y1
  have hcode : a1.codeHash = a2.codeHash := div_mod_inj
    (natCast_inj_of_lt (hi_lt c1) (hi_lt c2) u1) (natCast_inj_of_lt (lo_lt _) (lo_lt _) u2)
  have q1 := (c48_account_key H addr1 hb1 hl1).1
  have q2 := (c48_account_key H addr2 hb2 hl2).1
  have w1 := natCast_inj_of_lt (addr_hi_lt q1) (addr_hi_lt q2) g1
  have w2 := natCast_inj_of_lt (addr_lo_lt _) (addr_lo_lt _) g2
  refine ⟨beVal_inj hb1 hb2 (by rw [hl1, hl2])
    (div_mod_inj w1 (Nat.eq_of_mul_eq_mul_right (by positivity) w2)), ?_, z1⟩
  obtain ⟨_, _, _, _, _⟩ := a1
  obtain ⟨_, _, _, _, _⟩ := a2
  simp only [AccountData.mk.injEq]
  exact ⟨hn, hbal, hcode, hp, hs⟩

theorem small_ne {a b : ℕ} (h : a < b) (hb : b < 2 ^ 64) : (a : Fr) ≠ (b : Fr) := by
  intro e
  have hm : (2 : ℕ) ^ 64 < frModulus := lt_trans (by norm_num) frModulus_gt
  have := natCast_inj_of_lt (lt_trans (lt_trans h hb) hm) (lt_trans hb hm) e
  omega

/-- Non-vacuity: a hash function and an account (nonce 1, balance 2) without collisions among the
seven inputs of its leaf, although the function is far from injective. -/
example : ∃ (H : HashFn) (a : AccountData), a.nonce = 1 ∧ a.balance = 2 ∧
    NoCollision H (leafInputs H 0 a 0).all (leafInputs H 0 a 0).all := by
  refine ⟨fun l r _ => 3 * l + 5 * r, ⟨1, 2, 0, 0, 0⟩, rfl, rfl, ?_⟩
  have h1 : (0 : Fr) ≠ 13 := by simpa using small_ne (a := 0) (b := 13) (by norm_num) (by norm_num)
  have h2 : (0 : Fr) ≠ 39 := by simpa using small_ne (a := 0) (b := 39) (by norm_num) (by norm_num)
  have h3 : (0 : Fr) ≠ 117 := by simpa using small_ne (a := 0) (b := 117) (by norm_num) (by norm_num)
  have h4 : (13 : Fr) ≠ 39 := by simpa using small_ne (a := 13) (b := 39) (by norm_num) (by norm_num)
  have h5 : (13 : Fr) ≠ 117 := by simpa using small_ne (a := 13) (b := 117) (by norm_num) (by norm_num)
  have h6 : (39 : Fr) ≠ 117 := by simpa using small_ne (a := 39) (b := 117) (by norm_num) (by norm_num)
  have e : (leafInputs (fun l r _ => 3 * l + 5 * r) 0 ⟨1, 2, 0, 0, 0⟩ 0).all =
      [(0, 0, .Pair), (0, 0, .AccountFields), (1, 2, .AccountFields), (13, 0, .AccountFields),
       (39, 0, .AccountFields), (0, 0, .Pair), (0, 117, .Leaf)] := by
    simp only [leafInputs, LeafInputs.all, hashOf, nonceCode]
    norm_num
  rw [e, NoCollision]
  simp only [List.forall_mem_cons, List.not_mem_nil, false_imp_iff, implies_true, and_true, hashOf]
  norm_num
  simp [h1,h2,h3,h4,h5,h6,h1.symm, h2.symm,h3.symm,h4.symm,h5.symm,h6.symm]

end Mpt.Props
