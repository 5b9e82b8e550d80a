import Verif.Props.Claims
import Verif.Props.Trace
import Verif.Spec.TrieInsert

set_option autoImplicit false

/-!
# Properties C27, C28, C30, C31, C32: claims against a known trie

Each theorem says: the exposed claim is about a 160-bit address and two roots with the exposed RLCs,
and *every* trie with one of these roots (and no hash collision between its own hash inputs and those
in the Poseidon table) contains what the claim says.
-/

namespace Mpt.Props
open Mpt Spec MptUpdate

variable {H : HashFn} {n U : ℕ} {w : Witness Fr} {t : MPTProofType}
variable {address slotRlc oldRootRlc newRootRlc oldValue newValue : Fr}
variable {S : Fr → Fr → Fr → Prop} {key oldRoot newRoot : Fr}

/-- The key under which the account of an address is stored. -/
def addressKey (H : HashFn) (a : ℕ) : Fr :=
  H ((a / 2 ^ 32 : ℕ) : Fr) ((a % 2 ^ 32 * 2 ^ 96 : ℕ) : Fr) HashDomain.Pair.toFr

/-- The exposed address and root RLCs are those of a 160-bit address and of two roots for which `P`
holds. -/
def About (H : HashFn) (ρ address oldRootRlc newRootRlc : Fr)
    (P : (key oldRoot newRoot : Fr) → Prop) : Prop :=
  ∃ (a : ℕ) (oldRoot newRoot : Fr), a < 2 ^ 160 ∧ address = (a : Fr) ∧
    oldRootRlc = rootRlc ρ oldRoot ∧ newRootRlc = rootRlc ρ newRoot ∧
    P (addressKey H a) oldRoot newRoot

theorem rootRlc_zero (ρ : Fr) : rootRlc ρ 0 = 0 := by
  have h : ∀ k, Spec.rlc ρ (List.replicate k 0) = 0 := by
    intro k
    induction k with
    | zero => rfl
    | succ k ih => simp [List.replicate_succ, Spec.rlc, ih]
  have e : frBytes (0 : Fr) = List.replicate 32 0 := by
    rw [frBytes, ZMod.val_zero]; decide
  rw [rootRlc, e, h]

theorem about_of_backed {P Q : (key oldRoot newRoot : Fr) → Prop}
    (h : Backed H w U t address slotRlc oldRootRlc newRootRlc oldValue newValue P)
    (hd : (t = .NonceChanged ∨ t = .AccountDoesNotExist) → oldValue = 0 → newValue = 0 →
      Q (addressKey H 0) 0 0)
    (hq : ∀ key oldRoot newRoot, P key oldRoot newRoot → Q key oldRoot newRoot) :
    About H w.chal address oldRootRlc newRootRlc Q := by
  rcases h with ⟨h1, h2, -, h4, h5, h6, h7⟩ | ⟨a, k, o, nn, h1, h2, h3, h4, h5⟩
  · exact ⟨0, 0, 0, by norm_num, by simpa using h2, by rw [h4, rootRlc_zero],
      by rw [h5, rootRlc_zero], hd h1 h6 h7⟩
  · refine ⟨a, o, nn, h2.1, h1, h3, h4, ?_⟩
    have := h2.2.1
    rw [addressKey, ← this]
    exact hq _ _ _ h5

/-! ## A known trie -/

/-- `t` has the given root and no hash collisions with the inputs in `S`. -/
structure KnownTrie (H : HashFn) (S : Fr → Fr → Fr → Prop) (t : Trie) (root : Fr) : Prop where
  hash : t.hash H = root
  branching : t.Branching
  free : CollisionFree H (Or3 S (t.Inputs H))

/-- `t` has the given root and stores `acc` for `key`, without hash collisions. -/
structure Known (H : HashFn) (S : Fr → Fr → Fr → Prop) (t : Trie) (acc : Account) (key root : Fr) :
    Prop where
  hash : t.hash H = root
  branching : t.Branching
  range : acc.InRange
  has : t.Has H key acc
  free : CollisionFree H (Or3 S (Or3 (t.Inputs H) (acc.Inputs H)))

/-- `P` holds of the account every such trie stores for `key`. -/
def Stored (H : HashFn) (S : Fr → Fr → Fr → Prop) (key root : Fr) (P : Account → Prop) : Prop :=
  ∀ t acc, Known H S t acc key root → P acc

namespace Known
variable {tr : Trie} {acc : Account} {root : Fr} (K : Known H S tr acc key root)
include K

theorem trie : KnownTrie H S tr root :=
  ⟨K.hash, K.branching, K.free.mono (fun _ _ _ h => h.imp id .inl)⟩

theorem leaf {k d h : Fr} {path : List Step} (hp : GoodPath path)
    (ho : Opens (hashRel H S) key 0 path h root) (hl : IsLeaf (hashRel H S) k d h) :
    k = key ∧ d = acc.data H :=
  get_leaf_of_opens K.branching K.trie.free hp.2 (K.hash ▸ ho) hl K.has

theorem data_inputs {f p d : Fr} (h : hashRel H S f p HashDomain.AccountFields.toFr d)
    (hd : d = acc.data H) : f = acc.fields H ∧ p = acc.poseidonCodeHash := by
  obtain ⟨e1, e2, -⟩ := K.free.inj (.inl h.2) (.inr (.inr (.inr ⟨rfl, .inr (.inr (.inr ⟨rfl, rfl⟩))⟩)))
    (h.1.symm.trans hd)
  exact ⟨e1, e2⟩
theorem fields_inputs {f p d : Fr} (h : hashRel H S f p HashDomain.AccountFields.toFr d)
    (hd : d = acc.fields H) : f = acc.left H ∧ p = acc.right H := by
  obtain ⟨e1, e2, -⟩ := K.free.inj (.inl h.2) (.inr (.inr (.inr ⟨rfl, .inr (.inr (.inl ⟨rfl, rfl⟩))⟩)))
    (h.1.symm.trans hd)
  exact ⟨e1, e2⟩
theorem left_inputs {f p d : Fr} (h : IsLeft (hashRel H S) f p d) (hd : d = acc.left H) :
    f = nonceCode acc.nonce acc.codeSize ∧ p = (acc.balance : Fr) := by
  obtain ⟨e1, e2, -⟩ := K.free.inj (.inl h.2) (.inr (.inr (.inr ⟨rfl, .inl ⟨rfl, rfl⟩⟩)))
    (h.1.symm.trans hd)
  exact ⟨e1, e2⟩
theorem right_inputs {f p d : Fr} (h : IsRight (hashRel H S) f p d) (hd : d = acc.right H) :
    f = acc.storageRoot ∧ p = Account.wordHash H acc.keccakCodeHash := by
  obtain ⟨e1, e2, -⟩ := K.free.inj (.inl h.2) (.inr (.inr (.inr ⟨rfl, .inr (.inl ⟨rfl, rfl⟩)⟩)))
    (h.1.symm.trans hd)
  exact ⟨e1, e2⟩
theorem word {x : ℕ} {d : Fr} (h : IsWord (hashRel H S) x d)
    (hd : d = Account.wordHash H acc.keccakCodeHash) : x = acc.keccakCodeHash := by
  obtain ⟨e1, e2, -⟩ := K.free.inj (.inl h.2.2) (.inr (.inr (.inl ⟨rfl, rfl, rfl⟩)))
    (h.2.1.symm.trans hd)
  exact div_mod_inj (natCast_inj_of_lt (hi_lt h.1) (hi_lt K.range.keccak) e1)
    (natCast_inj_of_lt (lo_lt _) (lo_lt _) e2)

theorem account {k left right pch h : Fr} {path : List Step} (hp : GoodPath path)
    (ho : Opens (hashRel H S) key 0 path h root) (hl : IsAccount (hashRel H S) k left right pch h) :
    k = key ∧ left = acc.left H ∧ right = acc.right H ∧ pch = acc.poseidonCodeHash := by
  obtain ⟨f, d, h1, h2, h3⟩ := hl
  obtain ⟨e1, e2⟩ := K.leaf hp ho h3
  obtain ⟨e3, e4⟩ := K.data_inputs h2 e2
  obtain ⟨e5, e6⟩ := K.fields_inputs h1 e3
  exact ⟨e1, e5, e6, e4⟩

theorem not_absent {h : Fr} {path : List Step} (hp : ∀ s ∈ path, IsBranch s.domain)
    (ho : Opens (hashRel H S) key 0 path h root) {m : ℕ} (ha : Absent (hashRel H S) key m h) :
    False := by
  have := get_none_of_opens K.branching K.trie.free hp (K.hash ▸ ho) ha
  have h2 := K.has
  rw [Trie.Has, this] at h2
  cases h2

theorem not_empty (he : EmptyPath (hashRel H S) key root) : False := by
  obtain ⟨path, h, hp, ho, ha⟩ := he
  exact K.not_absent hp.2 ho ha

theorem not_inserted {other leaf : Fr} (hi : InsertedLeaf (hashRel H S) key root other leaf) : False := by
  obtain ⟨pre, ext, h, hp, -, -, hi, -, ha⟩ := hi
  exact K.not_absent hp.2 hi.opens_old ha

theorem not_pushed_old {other : Fr} (hi : PushedDown (hashRel H S) key root other) : False := by
  obtain ⟨pre, ext, h, -, hp, -, -, hi, -, ha⟩ := hi
  exact K.not_absent hp.2 hi.opens_old ha

theorem not_pushed_new {other : Fr} (hi : PushedDown (hashRel H S) key other root) : False := by
  obtain ⟨pre, ext, h, -, hp, he, -, hi, -, ha⟩ := hi
  obtain ⟨path, -, h1, h2⟩ := hi.opens_new hp.2 he.2
  exact K.not_absent h1 h2 ha

end Known

theorem inserted_opens_new {leaf : Fr} (hi : InsertedLeaf (hashRel H S) key oldRoot newRoot leaf) :
    ∃ path, GoodPath path ∧ Opens (hashRel H S) key 0 path leaf newRoot := by
  obtain ⟨pre, ext, h, hp, he, hlen, hi, -, -⟩ := hi
  obtain ⟨path, h0, h1, h2⟩ := hi.opens_new hp.2 he.2
  exact ⟨path, ⟨by omega, h1⟩, h2⟩

theorem balance_inj {x y : ℕ} (hx : x < 2 ^ 248) (hy : y < 2 ^ 248) (h : (x : Fr) = (y : Fr)) : x = y :=
  natCast_inj_of_lt (lt_trans hx (lt_trans (Nat.pow_lt_pow_right (by norm_num) (by norm_num)) frModulus_gt))
    (lt_trans hy (lt_trans (Nat.pow_lt_pow_right (by norm_num) (by norm_num)) frModulus_gt)) h

/-- The empty trie stores nothing. -/
theorem stored_zero (key : Fr) (P : Account → Prop) : Stored H S key 0 P := by
  intro tr acc K
  exfalso
  refine K.not_empty ⟨[], 0, ⟨by simp, by simp⟩, rfl, .inl rfl⟩

/-! ## C27, C28 -/

/-- **C27.** An accepted AccountDoesNotExist claim has values 0 and equal roots, and no trie with that
root stores anything for the address's key; a trie whose leaves are where their keys lead has no leaf
with that key at all. -/
theorem c27_absent_from_trie (h : Accepted H n U w) (T : TablesOK w U)
    (hx : Exposes w U .AccountDoesNotExist address slotRlc oldRootRlc newRootRlc oldValue newValue) :
    oldValue = 0 ∧ newValue = 0 ∧ oldRootRlc = newRootRlc ∧
    About H w.chal address oldRootRlc newRootRlc (fun key oldRoot newRoot => oldRoot = newRoot ∧
      ∀ tr, KnownTrie H (PosInputs w U) tr oldRoot → tr.get key = none ∧
        (tr.PlacedFrom 0 → ∀ d, ¬ tr.Mem key d)) := by
  have hb := c27_account_does_not_exist h T hx
  obtain ⟨h1, h2, h3⟩ := c29_read_only_partial h T (.inl rfl) hx
  refine ⟨h2, h3, h1, about_of_backed hb ?_ ?_⟩
  all_goals
    have key : ∀ key root, EmptyPath (PR H w U) key root → ∀ tr,
        KnownTrie H (PosInputs w U) tr root →
        tr.get key = none ∧ (tr.PlacedFrom 0 → ∀ d, ¬ tr.Mem key d) := by
      rintro key root ⟨path, h, hp, ho, ha⟩ tr ⟨k1, k2, k3⟩
      have := get_none_of_opens k2 k3 hp.2 (k1 ▸ ho) ha
      exact ⟨this, fun hpl d hm => Trie.getFrom_ne_none_of_mem hpl hm this⟩
  · intro _ _ _
    exact ⟨rfl, key _ _ ⟨[], 0, ⟨by simp, by simp⟩, rfl, .inl rfl⟩⟩
  · intro k o nn hN
    exact ⟨hN.roots, key _ _ hN.empty⟩

/-- A storage trie without hash collisions. -/
structure KnownSlot (H : HashFn) (S : Fr → Fr → Fr → Prop) (tr : Trie) (acc : Account) (s : Trie)
    (x : ℕ) (key slot root : Fr) : Prop where
  account : Known H S tr acc key root
  storage : KnownTrie H S s acc.storageRoot
  range : x < 2 ^ 256
  has : s.get slot = some (Account.wordHash H x)
  word : CollisionFree H (Or3 S (fun l r d => l = ((x / 2 ^ 128 : ℕ) : Fr) ∧
    r = ((x % 2 ^ 128 : ℕ) : Fr) ∧ d = HashDomain.Pair.toFr))

/-- **C28.** An accepted StorageDoesNotExist claim has values 0 and equal roots; no trie with that root
stores an account for the address's key, or every such account's storage trie stores nothing for the
slot, which is the hash of a 256-bit storage key with the exposed RLC. -/
theorem c28_absent_from_trie (h : Accepted H n U w) (T : TablesOK w U)
    (hx : Exposes w U .StorageDoesNotExist address slotRlc oldRootRlc newRootRlc oldValue newValue) :
    oldValue = 0 ∧ newValue = 0 ∧ oldRootRlc = newRootRlc ∧
    About H w.chal address oldRootRlc newRootRlc (fun key oldRoot newRoot => oldRoot = newRoot ∧
      ((∀ tr, KnownTrie H (PosInputs w U) tr oldRoot → tr.get key = none) ∨
        ∃ slot, IsSlot (PR H w U) w.chal slot slotRlc ∧
          Stored H (PosInputs w U) key oldRoot (fun acc =>
            ∀ s, KnownTrie H (PosInputs w U) s acc.storageRoot → s.get slot = none))) := by
  have hb := c28_storage_does_not_exist h T hx
  obtain ⟨h1, h2, h3⟩ := c29_read_only_partial h T (.inr rfl) hx
  refine ⟨h2, h3, h1, about_of_backed hb ?_ ?_⟩
  · rintro (h | h) <;> cases h
  · rintro k o nn ⟨-, -, e, hN | ⟨slot, hs, hN⟩⟩
    · refine ⟨e, .inl ?_⟩
      obtain ⟨path, h, hp, ho, ha⟩ := hN
      rintro tr ⟨k1, k2, k3⟩
      exact get_none_of_opens k2 k3 hp.2 (k1 ▸ ho) ha
    · refine ⟨e, .inr ⟨slot, hs, ?_⟩⟩
      rintro tr acc K s ⟨k1, k2, k3⟩
      obtain ⟨k', left, right, pch, kh, sr, leaf, path, h1, h2, h3, h4, h5⟩ := hN
      obtain ⟨-, -, e3, -⟩ := K.account h1 h2 h3
      obtain ⟨e4, -⟩ := K.right_inputs h4 e3
      obtain ⟨path, h, hp, ho, ha⟩ := h5
      refine get_none_of_opens k2 k3 hp.2 ?_ ha
      rw [k1, ← e4]; exact ho

/-! ## C30 -/

/-- **C30, nonce.** If a trie with the exposed old (new) root stores an account for the address, the
exposed old (new) value is that account's nonce. -/
theorem c30_nonce (h : Accepted H n U w) (T : TablesOK w U)
    (hx : Exposes w U .NonceChanged address slotRlc oldRootRlc newRootRlc oldValue newValue) :
    About H w.chal address oldRootRlc newRootRlc (fun key oldRoot newRoot =>
      Stored H (PosInputs w U) key oldRoot (fun acc => oldValue = (acc.nonce : Fr)) ∧
      Stored H (PosInputs w U) key newRoot (fun acc => newValue = (acc.nonce : Fr))) := by
  refine about_of_backed (c20_nonce_partial h T hx) (fun _ _ _ => ⟨stored_zero _ _, stored_zero _ _⟩) ?_
  rintro key o nn (hN | hN | hN | ⟨-, -, hN⟩)
  · exact ⟨fun tr acc K => (K.not_empty hN.empty).elim,
      fun tr acc K => (K.not_empty (hN.roots ▸ hN.empty)).elim⟩
  · obtain ⟨k, right, pch, bal, no, nw, cs, lo, ln, leafO, leafN, r1, r2, r3, rfl, rfl, l1, l2, a1, a2,
      path, hp, o1, o2⟩ := hN
    constructor
    · intro tr acc K
      obtain ⟨-, e1, -, -⟩ := K.account hp o1 a1
      obtain ⟨e2, -⟩ := K.left_inputs l1 e1
      rw [(nonceCode_inj r1 r3 K.range.nonce K.range.codeSize e2).1]
    · intro tr acc K
      obtain ⟨-, e1, -, -⟩ := K.account hp o2 a2
      obtain ⟨e2, -⟩ := K.left_inputs l2 e1
      rw [(nonceCode_inj r2 r3 K.range.nonce K.range.codeSize e2).1]
  · obtain ⟨k, nonce, left, leaf, r1, -, rfl, l1, a1, hi⟩ := hN
    refine ⟨fun tr acc K => (K.not_inserted hi).elim, fun tr acc K => ?_⟩
    obtain ⟨path, hp, ho⟩ := inserted_opens_new hi
    obtain ⟨-, e1, -, -⟩ := K.account hp ho a1
    obtain ⟨e2, -⟩ := K.left_inputs l1 e1
    rw [(nonceCode_inj r1 (by norm_num) K.range.nonce K.range.codeSize e2).1]
  · exact ⟨fun tr acc K => (K.not_pushed_old hN).elim, fun tr acc K => (K.not_pushed_new hN).elim⟩

/-- **C30, balance.** -/
theorem c30_balance (h : Accepted H n U w) (T : TablesOK w U)
    (hx : Exposes w U .BalanceChanged address slotRlc oldRootRlc newRootRlc oldValue newValue) :
    About H w.chal address oldRootRlc newRootRlc (fun key oldRoot newRoot =>
      Stored H (PosInputs w U) key oldRoot
        (fun acc => oldValue = Spec.rlc w.chal (beBytes 31 acc.balance)) ∧
      Stored H (PosInputs w U) key newRoot
        (fun acc => newValue = Spec.rlc w.chal (beBytes 31 acc.balance))) := by
  refine about_of_backed (c21_balance_partial h T hx) (fun _ _ _ => ⟨stored_zero _ _, stored_zero _ _⟩) ?_
  rintro key o nn (hN | hN | hN | ⟨-, -, hN⟩)
  · exact ⟨fun tr acc K => (K.not_empty hN.empty).elim,
      fun tr acc K => (K.not_empty (hN.roots ▸ hN.empty)).elim⟩
  · obtain ⟨k, right, pch, nc, bo, bn, lo, ln, leafO, leafN, r1, r2, rfl, rfl, l1, l2, a1, a2,
      path, hp, o1, o2⟩ := hN
    constructor
    · intro tr acc K
      obtain ⟨-, e1, -, -⟩ := K.account hp o1 a1
      obtain ⟨-, e2⟩ := K.left_inputs l1 e1
      rw [balance_inj r1 K.range.balance e2]
    · intro tr acc K
      obtain ⟨-, e1, -, -⟩ := K.account hp o2 a2
      obtain ⟨-, e2⟩ := K.left_inputs l2 e1
      rw [balance_inj r2 K.range.balance e2]
  · obtain ⟨k, bal, left, leaf, r1, -, rfl, l1, a1, hi⟩ := hN
    refine ⟨fun tr acc K => (K.not_inserted hi).elim, fun tr acc K => ?_⟩
    obtain ⟨path, hp, ho⟩ := inserted_opens_new hi
    obtain ⟨-, e1, -, -⟩ := K.account hp ho a1
    obtain ⟨-, e2⟩ := K.left_inputs l1 e1
    rw [balance_inj r1 K.range.balance e2]
  · exact ⟨fun tr acc K => (K.not_pushed_old hN).elim, fun tr acc K => (K.not_pushed_new hN).elim⟩

/-- **C30, code size.** -/
theorem c30_code_size (h : Accepted H n U w) (T : TablesOK w U)
    (hx : Exposes w U .CodeSizeExists address slotRlc oldRootRlc newRootRlc oldValue newValue) :
    About H w.chal address oldRootRlc newRootRlc (fun key oldRoot newRoot =>
      Stored H (PosInputs w U) key oldRoot (fun acc => oldValue = (acc.codeSize : Fr)) ∧
      Stored H (PosInputs w U) key newRoot (fun acc => newValue = (acc.codeSize : Fr))) := by
  refine about_of_backed (c22_code_size h T hx) (fun _ _ _ => ⟨stored_zero _ _, stored_zero _ _⟩) ?_
  rintro key o nn (hN | hN)
  · exact ⟨fun tr acc K => (K.not_empty hN.empty).elim,
      fun tr acc K => (K.not_empty (hN.roots ▸ hN.empty)).elim⟩
  · obtain ⟨k, right, pch, bal, nonce, so, sn, lo, ln, leafO, leafN, r1, r2, r3, rfl, rfl, l1, l2, a1, a2,
      path, hp, o1, o2⟩ := hN
    constructor
    · intro tr acc K
      obtain ⟨-, e1, -, -⟩ := K.account hp o1 a1
      obtain ⟨e2, -⟩ := K.left_inputs l1 e1
      rw [(nonceCode_inj r1 r2 K.range.nonce K.range.codeSize e2).2]
    · intro tr acc K
      obtain ⟨-, e1, -, -⟩ := K.account hp o2 a2
      obtain ⟨e2, -⟩ := K.left_inputs l2 e1
      rw [(nonceCode_inj r1 r3 K.range.nonce K.range.codeSize e2).2]

/-- **C30, keccak code hash.** -/
theorem c30_code_hash (h : Accepted H n U w) (T : TablesOK w U)
    (hx : Exposes w U .CodeHashExists address slotRlc oldRootRlc newRootRlc oldValue newValue) :
    About H w.chal address oldRootRlc newRootRlc (fun key oldRoot newRoot =>
      Stored H (PosInputs w U) key oldRoot
        (fun acc => oldValue = Spec.rlc w.chal (beBytes 32 acc.keccakCodeHash)) ∧
      Stored H (PosInputs w U) key newRoot
        (fun acc => newValue = Spec.rlc w.chal (beBytes 32 acc.keccakCodeHash))) := by
  refine about_of_backed (c23_code_hash h T hx) (fun _ _ _ => ⟨stored_zero _ _, stored_zero _ _⟩) ?_
  rintro key o nn (hN | hN)
  · exact ⟨fun tr acc K => (K.not_empty hN.empty).elim,
      fun tr acc K => (K.not_empty (hN.roots ▸ hN.empty)).elim⟩
  · obtain ⟨k, left, pch, sr, xo, xn, ho, hn, ro, rn, leafO, leafN, rfl, rfl, w1, w2, l1, l2, a1, a2,
      path, hp, o1, o2⟩ := hN
    constructor
    · intro tr acc K
      obtain ⟨-, -, e1, -⟩ := K.account hp o1 a1
      obtain ⟨-, e2⟩ := K.right_inputs l1 e1
      rw [K.word w1 e2]
    · intro tr acc K
      obtain ⟨-, -, e1, -⟩ := K.account hp o2 a2
      obtain ⟨-, e2⟩ := K.right_inputs l2 e1
      rw [K.word w2 e2]

/-- **C30, Poseidon code hash.** -/
theorem c30_poseidon_code_hash (h : Accepted H n U w) (T : TablesOK w U)
    (hx : Exposes w U .PoseidonCodeHashExists address slotRlc oldRootRlc newRootRlc oldValue
      newValue) :
    About H w.chal address oldRootRlc newRootRlc (fun key oldRoot newRoot =>
      Stored H (PosInputs w U) key oldRoot (fun acc => oldValue = acc.poseidonCodeHash) ∧
      Stored H (PosInputs w U) key newRoot (fun acc => newValue = acc.poseidonCodeHash)) := by
  refine about_of_backed (c24_poseidon_code_hash h T hx)
    (fun _ _ _ => ⟨stored_zero _ _, stored_zero _ _⟩) ?_
  rintro key o nn ⟨k, f, d1, d2, leafO, leafN, h1, h2, l1, l2, path, hp, o1, o2⟩
  constructor
  · intro tr acc K
    obtain ⟨-, e1⟩ := K.leaf hp o1 l1
    exact (K.data_inputs h1 e1).2
  · intro tr acc K
    obtain ⟨-, e1⟩ := K.leaf hp o2 l2
    exact (K.data_inputs h2 e1).2

namespace KnownSlot
variable {tr s : Trie} {acc : Account} {x : ℕ} {slot root : Fr}

theorem leaf (K : KnownSlot H S tr acc s x key slot root) {k d h : Fr} {path : List Step}
    (hp : GoodPath path) (ho : Opens (hashRel H S) slot 0 path h acc.storageRoot)
    (hl : IsLeaf (hashRel H S) k d h) : k = slot ∧ d = Account.wordHash H x :=
  get_leaf_of_opens K.storage.branching K.storage.free hp.2 (K.storage.hash ▸ ho) hl K.has

theorem eq_word (K : KnownSlot H S tr acc s x key slot root) {y : ℕ} {d : Fr}
    (h : IsWord (hashRel H S) y d) (hd : d = Account.wordHash H x) : y = x := by
  obtain ⟨e1, e2, -⟩ := K.word.inj (.inl h.2.2) (.inr ⟨rfl, rfl, rfl⟩) (h.2.1.symm.trans hd)
  exact div_mod_inj (natCast_inj_of_lt (hi_lt h.1) (hi_lt K.range) e1)
    (natCast_inj_of_lt (lo_lt _) (lo_lt _) e2)

theorem not_absent (K : KnownSlot H S tr acc s x key slot root) {h : Fr} {path : List Step}
    (hp : GoodPath path) (ho : Opens (hashRel H S) slot 0 path h acc.storageRoot) {m : ℕ}
    (ha : Absent (hashRel H S) slot m h) : False := by
  have := get_none_of_opens K.storage.branching K.storage.free hp.2 (K.storage.hash ▸ ho) ha
  have h2 := K.has
  rw [this] at h2
  cases h2
end KnownSlot

/-- **C30, storage, partial.** If a trie with the exposed old root stores an account for the address
and that account's storage trie stores the word `x` for the slot, the exposed old value is the RLC of
`x`, provided the exposed new value is not 0; the same for the new root if the old value is not 0.

Missing: claims in which the other value is 0 (insertions and deletions); there the statement is false
(`c26_false`). -/
theorem c30_storage_partial (h : Accepted H n U w) (T : TablesOK w U)
    (hx : Exposes w U .StorageChanged address slotRlc oldRootRlc newRootRlc oldValue newValue) :
    About H w.chal address oldRootRlc newRootRlc (fun key oldRoot newRoot =>
      ∃ slot, IsSlot (PR H w U) w.chal slot slotRlc ∧
      (newValue ≠ 0 → ∀ tr acc s x, KnownSlot H (PosInputs w U) tr acc s x key slot oldRoot →
        oldValue = Spec.rlc w.chal (beBytes 32 x)) ∧
      (oldValue ≠ 0 → ∀ tr acc s x, KnownSlot H (PosInputs w U) tr acc s x key slot newRoot →
        newValue = Spec.rlc w.chal (beBytes 32 x))) := by
  refine about_of_backed (c26_storage_partial h T hx) (by rintro (h | h) <;> cases h) ?_
  rintro key o nn ⟨slot, hN⟩
  cases hN with
  | update so sn h1 h2 h3 =>
    refine ⟨slot, h1, ?_⟩
    obtain ⟨k, left, pch, kh, ro, rn, lo, ln, r1, r2, a1, a2, path, hp, o1, o2⟩ := h2
    obtain ⟨k', xo, xn, ho, hn, leo, len, rfl, rfl, -, -, w1, w2, l1, l2, path', hp', o1', o2'⟩ := h3
    constructor
    · intro _ tr acc s x K
      obtain ⟨-, -, e1, -⟩ := K.account.account hp o1 a1
      obtain ⟨rfl, -⟩ := K.account.right_inputs r1 e1
      obtain ⟨-, e2⟩ := K.leaf hp' o1' l1
      rw [K.eq_word w1 e2]
    · intro _ tr acc s x K
      obtain ⟨-, -, e1, -⟩ := K.account.account hp o2 a2
      obtain ⟨rfl, -⟩ := K.account.right_inputs r2 e1
      obtain ⟨-, e2⟩ := K.leaf hp' o2' l2
      rw [K.eq_word w2 e2]
  | insertion so sn h1 h2 h3 =>
    refine ⟨slot, h1, ?_⟩
    obtain ⟨k, left, pch, kh, ro, rn, lo, ln, r1, r2, a1, a2, path, hp, o1, o2⟩ := h2
    obtain ⟨k', hNew, leaf, rfl, -, -, pre, ext, hOld, g1, -, -, hi, -, ha, -⟩ := h3
    refine ⟨fun _ tr acc s x K => ?_, fun h => absurd rfl h⟩
    obtain ⟨-, -, e1, -⟩ := K.account.account hp o1 a1
    obtain ⟨rfl, -⟩ := K.account.right_inputs r1 e1
    exact (K.not_absent g1 hi.opens_old ha).elim
  | deletion so sn h1 h2 h3 =>
    refine ⟨slot, h1, ?_⟩
    obtain ⟨k, left, pch, kh, ro, rn, lo, ln, r1, r2, a1, a2, path, hp, o1, o2⟩ := h2
    obtain ⟨k', hNew, leaf, rfl, -, -, pre, ext, hOld, g1, -, -, hi, -, ha, -⟩ := h3
    refine ⟨fun h => absurd rfl h, fun _ tr acc s x K => ?_⟩
    obtain ⟨-, -, e1, -⟩ := K.account.account hp o2 a2
    obtain ⟨rfl, -⟩ := K.account.right_inputs r2 e1
    exact (K.not_absent g1 hi.opens_old ha).elim
  | creation h1 h2 =>
    refine ⟨slot, h1, ?_⟩
    obtain ⟨k, left, right, pch, kh, sr, leaf, k', hNew, sl, path, rfl, -, -, -, hi, -, -, -⟩ := h2
    exact ⟨fun _ tr acc s x K => (K.account.not_inserted hi).elim, fun h => absurd rfl h⟩

/-! ## C31, C32 -/

/-- What a claim can do to the leaf on the address's path: nothing, replace its data, insert a leaf, or
push a terminal node down. -/
inductive LeafChange (R : HashRel) (key oldRoot newRoot : Fr) : Prop
  | same : oldRoot = newRoot → LeafChange R key oldRoot newRoot
  | update (k d d' leafOld leafNew : Fr) : IsLeaf R k d leafOld → IsLeaf R k d' leafNew →
      SamePath R key oldRoot newRoot leafOld leafNew → LeafChange R key oldRoot newRoot
  | insert (k d leaf : Fr) : IsLeaf R k d leaf → InsertedLeaf R key oldRoot newRoot leaf →
      LeafChange R key oldRoot newRoot
  | push : PushedDown R key oldRoot newRoot → LeafChange R key oldRoot newRoot

theorem isLeaf_of_account {R : HashRel} {k l r p h : Fr} (ha : IsAccount R k l r p h) :
    ∃ d, IsLeaf R k d h := by
  obtain ⟨_, d, _, _, h3⟩ := ha
  exact ⟨d, h3⟩

theorem leafChange_of_accounts {R : HashRel} {k l r p h l' r' p' h' : Fr}
    (ha : IsAccount R k l r p h) (ha' : IsAccount R k l' r' p' h')
    (hs : SamePath R key oldRoot newRoot h h') : LeafChange R key oldRoot newRoot := by
  obtain ⟨d, h1⟩ := isLeaf_of_account ha
  obtain ⟨d', h2⟩ := isLeaf_of_account ha'
  exact .update k d d' h h' h1 h2 hs

theorem leafChange_of_insert {R : HashRel} {k l r p h : Fr} (ha : IsAccount R k l r p h)
    (hs : InsertedLeaf R key oldRoot newRoot h) : LeafChange R key oldRoot newRoot := by
  obtain ⟨d, h1⟩ := isLeaf_of_account ha
  exact .insert k d h h1 hs

/-- Every accepted claim is about a leaf change. -/
theorem leafChange (h : Accepted H n U w) (T : TablesOK w U)
    (hx : Exposes w U t address slotRlc oldRootRlc newRootRlc oldValue newValue) :
    Backed H w U t address slotRlc oldRootRlc newRootRlc oldValue newValue
      (fun key oldRoot newRoot => LeafChange (PR H w U) key oldRoot newRoot) := by
  have imp : ∀ {P : Fr → Fr → Fr → Prop},
      Backed H w U t address slotRlc oldRootRlc newRootRlc oldValue newValue P →
      (∀ key o nn, P key o nn → LeafChange (PR H w U) key o nn) →
      Backed H w U t address slotRlc oldRootRlc newRootRlc oldValue newValue
        (fun key oldRoot newRoot => LeafChange (PR H w U) key oldRoot newRoot) := by
    rintro P (hd | ⟨a, k, o, nn, h1, h2, h3, h4, h5⟩) hP
    · exact .inl hd
    · exact .inr ⟨a, k, o, nn, h1, h2, h3, h4, hP _ _ _ h5⟩
  cases t with
  | NonceChanged =>
    refine imp (c20_nonce_partial h T hx) ?_
    rintro key o nn (hN | ⟨k, right, pch, bal, no, nw, cs, lo, ln, leafO, leafN, -, -, -, -, -, -, -, a1, a2, hs⟩ |
      ⟨k, nonce, left, leaf, -, -, -, -, a1, hi⟩ | ⟨-, -, hN⟩)
    · exact .same hN.roots
    · exact leafChange_of_accounts a1 a2 hs
    · exact leafChange_of_insert a1 hi
    · exact .push hN
  | BalanceChanged =>
    refine imp (c21_balance_partial h T hx) ?_
    rintro key o nn (hN | ⟨k, right, pch, nc, bo, bn, lo, ln, leafO, leafN, -, -, -, -, -, -, a1, a2, hs⟩ |
      ⟨k, nonce, left, leaf, -, -, -, -, a1, hi⟩ | ⟨-, -, hN⟩)
    · exact .same hN.roots
    · exact leafChange_of_accounts a1 a2 hs
    · exact leafChange_of_insert a1 hi
    · exact .push hN
  | CodeSizeExists =>
    refine imp (c22_code_size h T hx) ?_
    rintro key o nn (hN | ⟨k, right, pch, bal, no, nw, cs, lo, ln, leafO, leafN, -, -, -, -, -, -, -, a1, a2, hs⟩)
    · exact .same hN.roots
    · exact leafChange_of_accounts a1 a2 hs
  | CodeHashExists =>
    refine imp (c23_code_hash h T hx) ?_
    rintro key o nn (hN | ⟨k, left, pch, sr, xo, xn, ho, hn, ro, rn, leafO, leafN, -, -, -, -, -, -, a1, a2, hs⟩)
    · exact .same hN.roots
    · exact leafChange_of_accounts a1 a2 hs
  | PoseidonCodeHashExists =>
    refine imp (c24_poseidon_code_hash h T hx) ?_
    rintro key o nn ⟨k, f, d1, d2, leafO, leafN, -, -, l1, l2, hs⟩
    exact .update _ _ _ _ _ l1 l2 hs
  | StorageChanged =>
    refine imp (c26_storage_partial h T hx) ?_
    have hroot : ∀ key o nn so sn, StorageRootUpdate (PR H w U) key o nn so sn →
        LeafChange (PR H w U) key o nn := by
      rintro key o nn so sn ⟨k, left, pch, kh, ro, rn, lo, ln, -, -, a1, a2, hs⟩
      exact leafChange_of_accounts a1 a2 hs
    rintro key o nn ⟨slot, hN⟩
    cases hN with
    | update so sn h1 h2 h3 => exact hroot _ _ _ _ _ h2
    | insertion so sn h1 h2 h3 => exact hroot _ _ _ _ _ h2
    | deletion so sn h1 h2 h3 => exact hroot _ _ _ _ _ h2
    | creation h1 h2 =>
      obtain ⟨k, left, right, pch, kh, sr, leaf, k', hNew, sl, path, -, -, -, a1, hi, -, -, -⟩ := h2
      exact leafChange_of_insert a1 hi
  | AccountDoesNotExist =>
    refine imp (c27_account_does_not_exist h T hx) ?_
    exact fun _ _ _ hN => .same hN.roots
  | StorageDoesNotExist =>
    refine imp (c28_storage_does_not_exist h T hx) ?_
    exact fun _ _ _ hN => .same hN.2.2.1
  | AccountDestructed => exact absurd hx (c29_no_destructed h T)

/-- The two tries store the same for all keys but those in `ks`. -/
def SameExcept (t t1 : Trie) (ks : List Fr) : Prop := ∀ key, key ∉ ks → t1.get key = t.get key

theorem follow_of_known {tr : Trie} (K : KnownTrie H S tr oldRoot) {h : Fr} {path : List Step}
    (hp : GoodPath path) (ho : Opens (hashRel H S) key 0 path h oldRoot) {k d : Fr}
    (hl : IsLeaf (hashRel H S) k d h) : tr.follow key 0 path.length = some (.leaf k d) := by
  obtain ⟨t', e1, rfl, e3, e4⟩ := (K.hash ▸ ho : Opens (hashRel H S) key 0 path h (tr.hash H)).follow
    K.branching K.free hp.2
  have C' := K.free.mono (S' := Or3 S (t'.Inputs H)) (fun x y z h => h.imp id (e4 x y z))
  rw [e1, leaf_of_rel e3 C' hl]

/-- A leaf update on a known trie. -/
theorem update_known {tr : Trie} (K : KnownTrie H S tr oldRoot) {k d d' leafOld leafNew : Fr}
    (h1 : IsLeaf (hashRel H S) k d leafOld) (h2 : IsLeaf (hashRel H S) k d' leafNew)
    (hs : SamePath (hashRel H S) key oldRoot newRoot leafOld leafNew) :
    ∃ t1 : Trie, t1.hash H = newRoot ∧ t1.Branching ∧ SameExcept tr t1 [k] ∧
      tr.get key = (if k = key then some d else none) ∧
      t1.get key = if k = key then some d' else none := by
  obtain ⟨path, hp, o1, o2⟩ := hs
  have hf := follow_of_known K hp o1 h1
  refine ⟨tr.replace key (.leaf k d') 0 path.length, ?_, Trie.replace_branching K.branching trivial,
    ?_, ?_, ?_⟩
  · refine Trie.replace_hash K.branching K.free hp.2 (t' := .leaf k d) ?_ ?_
    · rw [K.hash, show (Trie.leaf k d).hash H = leafOld from h1.1.symm]; exact o1
    · rw [show (Trie.leaf k d').hash H = leafNew from h2.1.symm]; exact o2
  · intro key' hk
    refine Trie.replace_getFrom hf ?_
    rw [List.mem_singleton] at hk
    rw [leafNone hk, leafNone hk]
  · rw [Trie.get, Trie.getFrom_follow hf]; rfl
  · rw [Trie.get, Trie.replace_get_self hf]; rfl

/-- **C32 (and C31) for accounts that are in the trie, partial.** If a trie with the exposed old root
stores something for the address, there is a trie with the exposed new root that stores something for
the address and the same as before for every other key. (So the leaf that was opened is the
address's.)

Missing: claims about an address that is not in the old trie, see `c32_any_claim_partial`. -/
theorem c32_existing_account_partial (h : Accepted H n U w) (T : TablesOK w U)
    (hx : Exposes w U t address slotRlc oldRootRlc newRootRlc oldValue newValue) :
    About H w.chal address oldRootRlc newRootRlc (fun key oldRoot newRoot =>
      ∀ tr d, KnownTrie H (PosInputs w U) tr oldRoot → tr.get key = some d →
        ∃ (t1 : Trie) (d' : Fr), t1.hash H = newRoot ∧ t1.Branching ∧ t1.get key = some d' ∧
          SameExcept tr t1 [key]) := by
  refine about_of_backed (leafChange h T hx) ?_ ?_
  · intro _ _ _ tr d K hg
    have := get_none_of_opens K.branching K.free (path := []) (h := 0) (by simp) K.hash (n := 0) (.inl rfl)
      (key := addressKey H 0)
    rw [this] at hg; cases hg
  · rintro key o nn hL tr d K hg
    have nope : ∀ (path : List Step) (x : Fr) (m : ℕ), (∀ s ∈ path, IsBranch s.domain) →
        Opens (PR H w U) key 0 path x o → ¬ Absent (PR H w U) key m x := by
      intro path x m hp ho ha
      have := get_none_of_opens K.branching K.free hp (K.hash ▸ ho) ha
      rw [this] at hg; cases hg
    cases hL with
    | same e => exact ⟨tr, d, K.hash.trans e, K.branching, hg, fun _ _ => rfl⟩
    | update k d1 d2 lo ln h1 h2 hs =>
      obtain ⟨t1, e1, e2, e3, e4, e5⟩ := update_known K h1 h2 hs
      rw [hg] at e4
      have hk : k = key := by
        by_contra hne
        rw [if_neg hne] at e4; cases e4
      subst hk
      exact ⟨t1, d2, e1, e2, by simpa using e5, e3⟩
    | insert k d' leaf h1 hi =>
      obtain ⟨pre, ext, x, hp, -, -, hi, -, ha⟩ := hi
      exact absurd ha (nope _ _ _ hp.2 hi.opens_old)
    | push hi =>
      obtain ⟨pre, ext, x, -, hp, -, -, hi, -, ha⟩ := hi
      exact absurd ha (nope _ _ _ hp.2 hi.opens_old)

/-- **C32, partial.** For every accepted claim and every trie with the exposed old root there is a trie
with the exposed new root that stores the same for all keys except at most two: the key of the changed
or inserted leaf and, for an insertion, the key of the leaf that was in its place.

Missing: that the displaced leaf keeps its value (false: `c32_false`) and that the changed leaf is the
address's (false: `c31_false`). -/
theorem c32_any_claim_partial (h : Accepted H n U w) (T : TablesOK w U)
    (hx : Exposes w U t address slotRlc oldRootRlc newRootRlc oldValue newValue) :
    About H w.chal address oldRootRlc newRootRlc (fun key oldRoot newRoot =>
      ∀ tr, KnownTrie H (PosInputs w U) tr oldRoot →
        ∃ (t1 : Trie) (ks : List Fr), ks.length ≤ 2 ∧ t1.hash H = newRoot ∧ t1.Branching ∧
          SameExcept tr t1 ks) := by
  refine about_of_backed (leafChange h T hx) ?_ ?_
  · exact fun _ _ _ tr K => ⟨tr, [], by simp, K.hash, K.branching, fun _ _ => rfl⟩
  · rintro key o nn hL tr K
    cases hL with
    | same e => exact ⟨tr, [], by simp, K.hash.trans e, K.branching, fun _ _ => rfl⟩
    | update k d1 d2 lo ln h1 h2 hs =>
      obtain ⟨t1, e1, e2, e3, -, -⟩ := update_known K h1 h2 hs
      exact ⟨t1, [k], by simp, e1, e2, e3⟩
    | insert k d' leaf h1 hi =>
      obtain ⟨pre, ext, x, hp, he, -, hi, hs, ha⟩ := hi
      obtain ⟨t1, victim, I⟩ := hi.into K.branching K.free K.hash hp.2 he.2 hs ha h1
      refine ⟨t1, k :: victim.toList, ?_, I.hash, I.branching, fun key' hk => ?_⟩
      · cases victim <;> simp
      · simp only [List.mem_cons, Option.mem_toList, not_or] at hk
        exact I.others key' hk.1 hk.2
    | push hi =>
      obtain ⟨pre, ext, x, -, hp, he, -, hi, hs, ha⟩ := hi
      obtain ⟨t', victim, hd, e1, e2, hg⟩ := hi.graft K.branching K.free K.hash hp.2 he.2 hs ha
      obtain ⟨t1, j, g1, g2, -, g4⟩ := hg t' e2 e1
      refine ⟨t1, victim.toList, ?_, g1, g2, fun key' hk => ?_⟩
      · cases victim <;> simp
      · simp only [Option.mem_toList] at hk
        exact g4 key' hk (hd.get_none hk)

end Mpt.Props
