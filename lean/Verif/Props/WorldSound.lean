import Verif.Props.Content
import Verif.Props.Operations
import Verif.Props.Util

set_option autoImplicit false

/-!
# Theorems: every accepted claim about an existing account is an operation (C53, C54)

The converse of C52. Take any accepted witness and any claim another circuit can look up in it. For every
consistent state whose root is the claimed old root and that has the account (and, for a storage write, the
slot) the claim is about, the claim describes one of the operations of `Spec.Op` on that state: the new root
is the root of the state after the operation, and the exposed values are the values before and after.
-/

namespace Mpt.Spec
open Mpt (Fr HashFn HashDomain)

/-! ## Overwriting a leaf of a zktrie -/

theorem ZkTrie.put_isNode_of_follow {t : ZkTrie} {key d d' : Fr} {i n : ℕ}
    (h : t.trie.follow key i n = some (.leaf key d)) : (t.put key d' i).isNode = t.isNode := by
  cases t with
  | empty => cases n <;> simp [ZkTrie.trie, Trie.follow] at h
  | leaf k e =>
    cases n with
    | zero =>
      simp only [ZkTrie.trie, Trie.follow, Option.some.injEq, Trie.leaf.injEq] at h
      simp [ZkTrie.put, h.1, ZkTrie.isNode]
    | succ n => simp [ZkTrie.trie, Trie.follow] at h
  | node l r =>
    rw [ZkTrie.put]
    split <;> rfl

/-- Storing under a key that a walk of `n` levels finds replaces the leaf at its end. -/
theorem ZkTrie.replace_put {t : ZkTrie} {key d d' : Fr} {i n : ℕ}
    (h : t.trie.follow key i n = some (.leaf key d)) :
    t.trie.replace key (.leaf key d') i n = (t.put key d' i).trie := by
  induction n generalizing t i with
  | zero =>
    cases t with
    | empty => simp [ZkTrie.trie, Trie.follow] at h
    | leaf k e =>
      simp only [ZkTrie.trie, Trie.follow, Option.some.injEq, Trie.leaf.injEq] at h
      simp [ZkTrie.put, h.1, ZkTrie.trie]
    | node l r => simp [ZkTrie.trie, Trie.follow] at h
  | succ n ih =>
    cases t with
    | empty => simp [ZkTrie.trie, Trie.follow] at h
    | leaf k e => simp [ZkTrie.trie, Trie.follow] at h
    | node l r =>
      simp only [ZkTrie.trie, Trie.follow] at h
      simp only [ZkTrie.trie, Trie.replace, ZkTrie.put]
      cases hb : keyBit key i
      · rw [hb] at h
        have h' : l.trie.follow key (i + 1) n = some (.leaf key d) := h
        have e := ZkTrie.put_isNode_of_follow (d' := d') h'
        simp only [Bool.false_eq_true, if_false, ZkTrie.trie, ih h', ZkTrie.domain, e]
      · rw [hb] at h
        have h' : r.trie.follow key (i + 1) n = some (.leaf key d) := h
        have e := ZkTrie.put_isNode_of_follow (d' := d') h'
        simp only [if_true, ZkTrie.trie, ih h', ZkTrie.domain, e]

theorem ZkTrie.branching (t : ZkTrie) : t.trie.Branching := by
  induction t with
  | empty => trivial
  | leaf k d => trivial
  | node l r hl hr =>
    refine ⟨?_, hl, hr⟩
    unfold ZkTrie.domain
    cases l.isNode <;> cases r.isNode <;> simp [IsBranch]

/-! ## The hash inputs of a state -/

/-- The account as it is hashed into its leaf. -/
def AcctState.account (H : HashFn) (a : AcctState) : Account :=
  ⟨a.data.nonce, a.data.codeSize, a.data.balance, a.data.codeHash, (a.data.poseidonCodeHash : Fr), a.trie.hash H⟩

/-- All hash inputs of a state: of the account trie, of the accounts, of their storage tries and of the words
in them. -/
def World.Inputs (H : HashFn) (W : World) : Fr → Fr → Fr → Prop := fun l r d =>
  W.trie.trie.Inputs H l r d ∨ ∃ k a, W.accounts k = some a ∧ ((a.account H).Inputs H l r d ∨
    a.trie.trie.Inputs H l r d ∨ ∃ k', WordInput (a.slots k') .Pair l r d)

/-- The claim `(type, address, slot RLC, root RLCs, values)` describes the operation `op` from `W` to `W'`:
the address, the roots of the two states and the values in the two states are the claimed ones, and so is the
slot if the claim is about storage. -/
structure Describes (H : HashFn) (ρ : Fr) (op : Op) (W W' : World) (t : MPTProofType)
    (address slotRlc oldRootRlc newRootRlc oldValue newValue : Fr) : Prop where
  apply : op.apply H W = some W'
  bytes : IsBytes op.address ∧ op.address.length = 20
  type : op.type = t
  address : address = (beVal op.address : Fr)
  slot : t = .StorageChanged ∨ t = .StorageDoesNotExist → slotRlc = rlc ρ (beBytes 32 op.slot)
  oldRoot : oldRootRlc = rootRlc ρ (W.trie.hash H)
  newRoot : newRootRlc = rootRlc ρ (W'.trie.hash H)
  oldValue : oldValue = Props.valueCode ρ t (Props.opValue H op W)
  newValue : newValue = Props.valueCode ρ t (Props.opValue H op W')

end Mpt.Spec

namespace Mpt.Props
open Mpt Spec Types MptUpdate Requests

variable {H : HashFn} {n U : ℕ} {w : Witness Fr} {t : MPTProofType}
variable {address slotRlc oldRootRlc newRootRlc oldValue newValue : Fr}
variable {S : Fr → Fr → Fr → Prop} {key oldRoot newRoot : Fr}

theorem known_of_world {W : World} {a : AcctState} (hW : W.OK H) (ha : W.accounts key = some a)
    (C : CollisionFree H (Or3 S (W.Inputs H))) :
    Known H S W.trie.trie (a.account H) key (W.trie.hash H) where
  hash := rfl
  branching := W.trie.branching
  range := let o := (hW.each _ _ ha).data; ⟨o.nonce, o.codeSize, o.balance, o.codeHash⟩
  has := by
    have := hW.accounts key
    rw [ha] at this
    exact this
  free := C.mono fun _ _ _ h => h.imp id fun h => h.elim .inl fun h => .inr ⟨key, a, ha, .inl h⟩

theorem knownSlot_of_world {W : World} {a : AcctState} {slot : Fr} (hW : W.OK H) (ha : W.accounts key = some a)
    (C : CollisionFree H (Or3 S (W.Inputs H))) (hs : a.slots slot ≠ 0) :
    KnownSlot H S W.trie.trie (a.account H) a.trie.trie (a.slots slot) key slot (W.trie.hash H) where
  account := known_of_world hW ha C
  storage := ⟨rfl, a.trie.branching, C.mono fun _ _ _ h => h.imp id fun h => .inr ⟨key, a, ha, .inr (.inl h)⟩⟩
  range := (hW.each _ _ ha).range slot
  has := by
    have := (hW.each _ _ ha).slots slot
    rw [if_neg hs] at this
    exact this
  word := C.mono fun _ _ _ h => h.imp id fun h => .inr ⟨key, a, ha, .inr (.inr ⟨slot, h⟩)⟩

/-- A leaf update on a known zktrie is a `put`. -/
theorem put_of_samePath {tr : ZkTrie} (K : KnownTrie H S tr.trie oldRoot) {d d' leafOld leafNew : Fr}
    (h1 : Spec.IsLeaf (hashRel H S) key d leafOld) (h2 : Spec.IsLeaf (hashRel H S) key d' leafNew)
    (hs : SamePath (hashRel H S) key oldRoot newRoot leafOld leafNew) :
    newRoot = (tr.put key d' 0).hash H := by
  obtain ⟨path, hp, o1, o2⟩ := hs
  have hf := follow_of_known K hp o1 h1
  have := Trie.replace_hash (t' := .leaf key d) (s := .leaf key d') (key := key) (i := 0) (top := newRoot)
    K.branching K.free hp.2
    (by rw [K.hash, show (Trie.leaf key d).hash H = leafOld from h1.1.symm]; exact o1)
    (by rw [show (Trie.leaf key d').hash H = leafNew from h2.1.symm]; exact o2)
  rw [ZkTrie.replace_put hf] at this
  exact this.symm

/-- An account update on a known state. -/
theorem account_update {W : World} {a : AcctState} (hW : W.OK H) (ha : W.accounts key = some a)
    (C : CollisionFree H (Or3 S (W.Inputs H))) {k left right pch leafOld left' right' pch' leafNew : Fr}
    (h1 : IsAccount (hashRel H S) k left right pch leafOld)
    (h2 : IsAccount (hashRel H S) k left' right' pch' leafNew)
    (hs : SamePath (hashRel H S) key (W.trie.hash H) newRoot leafOld leafNew) :
    left = (a.account H).left H ∧ right = (a.account H).right H ∧ pch = (a.account H).poseidonCodeHash ∧
    ∀ a' : AcctState, left' = (a'.account H).left H → right' = (a'.account H).right H →
      pch' = (a'.account H).poseidonCodeHash → newRoot = (W.set H key a').trie.hash H := by
  have K := known_of_world hW ha C
  obtain ⟨path, hp, o1, o2⟩ := hs
  obtain ⟨rfl, e1, e2, e3⟩ := K.account hp o1 h1
  refine ⟨e1, e2, e3, ?_⟩
  rintro a' rfl rfl rfl
  obtain ⟨f, d, -, -, l1⟩ := h1
  obtain ⟨f', d', g1, g2, l2⟩ := h2
  have := put_of_samePath K.trie l1 l2 ⟨path, hp, o1, o2⟩
  rw [this]
  have e : d' = a'.leafData H := by rw [g2.1, g1.1]; rfl
  rw [e]; rfl

theorem rlc_31 {x : ℕ} (h : x < 2 ^ 248) (ρ : Fr) : rlc ρ (beBytes 32 x) = rlc ρ (beBytes 31 x) := by
  rw [show (32 : ℕ) = 31 + 1 from rfl, beBytes]
  have : x / 256 ^ 31 % 256 = 0 := by
    rw [Nat.div_eq_of_lt (by rw [show (256 : ℕ) ^ 31 = 2 ^ 248 by norm_num]; exact h)]
  rw [this]
  simp [rlc]

/-! ## Roots are in the Poseidon table -/

/-- 0 or an output of the Poseidon table. -/
def TableOutput (H : HashFn) (w : Witness Fr) (U : ℕ) (x : Fr) : Prop :=
  x = 0 ∨ ∃ l r d, PosInputs w U l r d ∧ x = H l r d

theorem out_of_opens {path : List Step} {h top : Fr} {i : ℕ} (ho : Opens (PR H w U) key i path h top)
    (hh : TableOutput H w U h) : TableOutput H w U top := by
  cases path with
  | nil => exact ho ▸ hh
  | cons s path =>
    obtain ⟨h', h1, -⟩ := ho
    simp only [Spec.Node] at h1
    split at h1 <;> exact .inr ⟨_, _, _, h1.2, h1.1⟩

theorem out_of_leaf {k d h : Fr} (hl : Spec.IsLeaf (PR H w U) k d h) : TableOutput H w U h :=
  .inr ⟨_, _, _, hl.2, hl.1⟩

theorem out_of_account {k l r p h : Fr} (ha : IsAccount (PR H w U) k l r p h) : TableOutput H w U h :=
  let ⟨_, hl⟩ := isLeaf_of_account ha; out_of_leaf hl

theorem out_of_absent {h : Fr} {m : ℕ} (ha : Absent (PR H w U) key m h) : TableOutput H w U h := by
  rcases ha with rfl | ⟨k, d, -, -, -, hl⟩
  · exact .inl rfl
  · exact out_of_leaf hl

theorem out_of_empty {root : Fr} (h : EmptyPath (PR H w U) key root) : TableOutput H w U root := by
  obtain ⟨path, h, -, ho, ha⟩ := h
  exact out_of_opens ho (out_of_absent ha)

theorem out_of_inserted {pre ext : List Step} {h h' : Fr}
    (hi : Inserted (PR H w U) key ext h h' pre oldRoot newRoot) (ho : TableOutput H w U h) :
    TableOutput H w U oldRoot := out_of_opens hi.opens_old ho

/-- The old root of every claim is 0 or an output of the Poseidon table. -/
theorem oldRoot_output (hL : LeafChange (PR H w U) key oldRoot newRoot)
    (he : oldRoot = newRoot → TableOutput H w U oldRoot) : TableOutput H w U oldRoot := by
  cases hL with
  | same e => exact he e
  | update k d d' lo ln h1 h2 hs =>
    obtain ⟨path, -, o1, -⟩ := hs
    exact out_of_opens o1 (out_of_leaf h1)
  | insert k d leaf h1 hi =>
    obtain ⟨pre, ext, x, -, -, -, hi, -, ha⟩ := hi
    exact out_of_inserted hi (out_of_absent ha)
  | push hi =>
    obtain ⟨pre, ext, x, -, -, -, -, hi, -, ha⟩ := hi
    exact out_of_inserted hi (out_of_absent ha)

/-! ## C53 -/

/-- A number that the Poseidon table has as a right input or as the two halves of a word, or 0. -/
def TableWord (w : Witness Fr) (U : ℕ) (x : ℕ) : Prop :=
  x = 0 ∨ ∃ l r d, PosInputs w U l r d ∧ (x = r.val ∨ x = l.val * 2 ^ 128 + r.val)

/-- What an operation read off an accepted claim has in the Poseidon table: the new root, the slot and the
values that are looked up as words. -/
structure Recorded (H : HashFn) (w : Witness Fr) (U : ℕ) (op : Op) (W W' : World) (newRoot : Fr) : Prop where
  root : TableOutput H w U newRoot
  slot : op.type = .StorageChanged ∨ op.type = .StorageDoesNotExist → op.slot < 2 ^ 256 ∧ TableWord w U op.slot
  values : op.type = .BalanceChanged ∨ op.type = .CodeHashExists ∨ op.type = .StorageChanged →
    TableWord w U (opValue H op W) ∧ TableWord w U (opValue H op W')

/-- Everything a claim can say about an account of a known state. -/
def Sound (H : HashFn) (w : Witness Fr) (U : ℕ) (t : MPTProofType) (slotRlc oldValue newValue : Fr)
    (key oldRoot newRoot : Fr) : Prop :=
  TableOutput H w U oldRoot ∧
  ∀ (adr : List ℕ) (W : World) (a : AcctState), accountKey H adr = key → W.OK H → W.trie.hash H = oldRoot →
    W.accounts key = some a → CollisionFree H (Or3 (PosInputs w U) (W.Inputs H)) →
    (t = .StorageChanged → newValue ≠ 0 ∧ ∀ s, s < 2 ^ 256 → TableWord w U s →
      slotRlc = rlc w.chal (beBytes 32 s) → a.slots (Account.wordHash H s) ≠ 0) →
    ∃ (op : Op) (W' : World), op.address = adr ∧ op.type = t ∧ op.apply H W = some W' ∧
      (t = .StorageChanged ∨ t = .StorageDoesNotExist → slotRlc = rlc w.chal (beBytes 32 op.slot)) ∧
      newRoot = W'.trie.hash H ∧ oldValue = valueCode w.chal t (opValue H op W) ∧
      newValue = valueCode w.chal t (opValue H op W') ∧ Recorded H w U op W W' newRoot

theorem tableWord_right {x : ℕ} (hx : x < 2 ^ 248) {l d h : Fr} (hr : PR H w U l (x : Fr) d h) :
    TableWord w U x :=
  .inr ⟨_, _, _, hr.2, .inl (ZMod.val_natCast_of_lt (lt_trans hx (lt_trans (by norm_num) frModulus_gt))).symm⟩

theorem tableWord_word {x : ℕ} {h : Fr} (hr : IsWord (PR H w U) x h) : TableWord w U x := by
  have hlt : (2 : ℕ) ^ 128 < frModulus :=
    lt_trans (Nat.pow_lt_pow_right (by norm_num) (by norm_num)) frModulus_gt
  refine .inr ⟨_, _, _, hr.2.2, .inr ?_⟩
  have h1 : x / 2 ^ 128 < 2 ^ 128 := Nat.div_lt_of_lt_mul (by rw [← pow_add]; exact hr.1)
  have h2 : x % 2 ^ 128 < 2 ^ 128 := Nat.mod_lt _ (by positivity)
  rw [ZMod.val_natCast_of_lt (lt_trans h1 hlt), ZMod.val_natCast_of_lt (lt_trans h2 hlt)]
  exact (Nat.div_add_mod' _ _).symm

theorem isWord_hash {x : ℕ} {h : Fr} (hw : IsWord (hashRel H S) x h) : h = Account.wordHash H x := hw.2.1

theorem sound_nothing {t : MPTProofType} {slotRlc oldValue newValue : Fr}
    (h : EmptyPath (PR H w U) key oldRoot) : Sound H w U t slotRlc oldValue newValue key oldRoot newRoot := by
  refine ⟨out_of_empty h, ?_⟩
  rintro adr W a rfl hW rfl ha C -
  exact ((known_of_world hW ha C).not_empty h).elim

theorem sound_nonce (h : NonceUpdate (PR H w U) key oldRoot newRoot oldValue newValue) :
    Sound H w U .NonceChanged slotRlc oldValue newValue key oldRoot newRoot := by
  obtain ⟨k, right, pch, bal, no, nw, cs, lo, ln, leafO, leafN, r1, r2, r3, rfl, rfl, l1, l2, a1, a2, hs⟩ := h
  have hout : TableOutput H w U newRoot := by
    obtain ⟨path, -, -, o2⟩ := hs
    exact out_of_opens o2 (out_of_account a2)
  refine ⟨?_, ?_⟩
  · obtain ⟨path, -, o1, -⟩ := hs
    exact out_of_opens o1 (out_of_account a1)
  rintro adr W a rfl hW rfl ha C -
  obtain ⟨e1, rfl, rfl, e4⟩ := account_update hW ha C a1 a2 hs
  have K := known_of_world hW ha C
  obtain ⟨e2, rfl⟩ := K.left_inputs l1 e1
  obtain ⟨rfl, rfl⟩ := nonceCode_inj r1 r3 K.range.nonce K.range.codeSize e2
  let a' : AcctState := { a with data := { a.data with nonce := nw } }
  refine ⟨.setNonce adr nw, W.set H (accountKey H adr) a', rfl, rfl, ?_, by simp, e4 a' ?_ rfl rfl, ?_, ?_,
    ⟨hout, by simp [Op.type], by simp [Op.type]⟩⟩
  · simp only [Op.apply, Op.address]; rw [ha]; exact if_pos r2
  · rw [l2.1]; rfl
  · simp only [valueCode, opValue, Op.address, ha]; rfl
  · simp [valueCode, opValue, Op.address, World.set, a']

theorem sound_codeSize (h : CodeSizeUpdate (PR H w U) key oldRoot newRoot oldValue newValue) :
    Sound H w U .CodeSizeExists slotRlc oldValue newValue key oldRoot newRoot := by
  obtain ⟨k, right, pch, bal, nonce, so, sn, lo, ln, leafO, leafN, r1, r2, r3, rfl, rfl, l1, l2, a1, a2, hs⟩ := h
  have hout : TableOutput H w U newRoot := by
    obtain ⟨path, -, -, o2⟩ := hs
    exact out_of_opens o2 (out_of_account a2)
  refine ⟨?_, ?_⟩
  · obtain ⟨path, -, o1, -⟩ := hs
    exact out_of_opens o1 (out_of_account a1)
  rintro adr W a rfl hW rfl ha C -
  obtain ⟨e1, rfl, rfl, e4⟩ := account_update hW ha C a1 a2 hs
  have K := known_of_world hW ha C
  obtain ⟨e2, rfl⟩ := K.left_inputs l1 e1
  obtain ⟨rfl, rfl⟩ := nonceCode_inj r1 r2 K.range.nonce K.range.codeSize e2
  let a' : AcctState := { a with data := { a.data with codeSize := sn } }
  refine ⟨.setCodeSize adr sn, W.set H (accountKey H adr) a', rfl, rfl, ?_, by simp, e4 a' ?_ rfl rfl, ?_, ?_,
    ⟨hout, by simp [Op.type], by simp [Op.type]⟩⟩
  · simp only [Op.apply, Op.address]; rw [ha]; exact if_pos r3
  · rw [l2.1]; rfl
  · simp only [valueCode, opValue, Op.address, ha]; rfl
  · simp [valueCode, opValue, Op.address, World.set, a']

theorem sound_balance (h : BalanceUpdate (PR H w U) w.chal key oldRoot newRoot oldValue newValue) :
    Sound H w U .BalanceChanged slotRlc oldValue newValue key oldRoot newRoot := by
  obtain ⟨k, right, pch, nc, bo, bn, lo, ln, leafO, leafN, r1, r2, rfl, rfl, l1, l2, a1, a2, hs⟩ := h
  have hout : TableOutput H w U newRoot := by
    obtain ⟨path, -, -, o2⟩ := hs
    exact out_of_opens o2 (out_of_account a2)
  refine ⟨?_, ?_⟩
  · obtain ⟨path, -, o1, -⟩ := hs
    exact out_of_opens o1 (out_of_account a1)
  rintro adr W a rfl hW rfl ha C -
  obtain ⟨e1, rfl, rfl, e4⟩ := account_update hW ha C a1 a2 hs
  have K := known_of_world hW ha C
  obtain ⟨rfl, e2⟩ := K.left_inputs l1 e1
  obtain rfl := balance_inj r1 K.range.balance e2
  let a' : AcctState := { a with data := { a.data with balance := bn } }
  refine ⟨.setBalance adr bn, W.set H (accountKey H adr) a', rfl, rfl, ?_, by simp, e4 a' ?_ rfl rfl, ?_, ?_,
    ⟨hout, by simp [Op.type], fun _ => ⟨?_, ?_⟩⟩⟩
  · simp only [Op.apply, Op.address]; rw [ha]; exact if_pos r2
  · rw [l2.1]; rfl
  · simp only [valueCode, opValue, Op.address, ha]; exact (rlc_31 K.range.balance _).symm
  · simp only [valueCode, opValue, Op.address, World.set, a', Function.update_self]; rw [rlc_31 r2]
  · simp only [opValue, Op.address, ha]; exact tableWord_right r1 l1
  · simp only [opValue, Op.address, World.set, a', Function.update_self]; exact tableWord_right r2 l2

theorem sound_codeHash (h : CodeHashUpdate (PR H w U) w.chal key oldRoot newRoot oldValue newValue) :
    Sound H w U .CodeHashExists slotRlc oldValue newValue key oldRoot newRoot := by
  obtain ⟨k, left, pch, sr, xo, xn, ho, hn, ro, rn, leafO, leafN, rfl, rfl, w1, w2, l1, l2, a1, a2, hs⟩ := h
  have hout : TableOutput H w U newRoot := by
    obtain ⟨path, -, -, o2⟩ := hs
    exact out_of_opens o2 (out_of_account a2)
  refine ⟨?_, ?_⟩
  · obtain ⟨path, -, o1, -⟩ := hs
    exact out_of_opens o1 (out_of_account a1)
  rintro adr W a rfl hW rfl ha C -
  obtain ⟨rfl, e1, rfl, e4⟩ := account_update hW ha C a1 a2 hs
  have K := known_of_world hW ha C
  obtain ⟨rfl, e2⟩ := K.right_inputs l1 e1
  obtain rfl := K.word w1 e2
  let a' : AcctState := { a with data := { a.data with codeHash := xn } }
  refine ⟨.setCodeHash adr xn, W.set H (accountKey H adr) a', rfl, rfl, ?_, by simp, e4 a' rfl ?_ rfl, ?_, ?_,
    ⟨hout, by simp [Op.type], fun _ => ⟨?_, ?_⟩⟩⟩
  · simp only [Op.apply, Op.address]; rw [ha]; exact if_pos w2.1
  · rw [l2.1, isWord_hash w2]; rfl
  · simp only [valueCode, opValue, Op.address, ha]; rfl
  · simp [valueCode, opValue, Op.address, World.set, a']
  · simp only [opValue, Op.address, ha]; exact tableWord_word w1
  · simp only [opValue, Op.address, World.set, a', Function.update_self]; exact tableWord_word w2

theorem sound_poseidon (h : PoseidonCodeHashUpdate (PR H w U) key oldRoot newRoot oldValue newValue) :
    Sound H w U .PoseidonCodeHashExists slotRlc oldValue newValue key oldRoot newRoot := by
  obtain ⟨k, f, d1, d2, leafO, leafN, h1, h2, l1, l2, hs⟩ := h
  have hout : TableOutput H w U newRoot := by
    obtain ⟨path, -, -, o2⟩ := hs
    exact out_of_opens o2 (out_of_leaf l2)
  refine ⟨?_, ?_⟩
  · obtain ⟨path, -, o1, -⟩ := hs
    exact out_of_opens o1 (out_of_leaf l1)
  rintro adr W a rfl hW rfl ha C -
  have K := known_of_world hW ha C
  have hs' := hs
  obtain ⟨path, hp, o1, o2⟩ := hs
  obtain ⟨rfl, e1⟩ := K.leaf hp o1 l1
  obtain ⟨rfl, rfl⟩ := K.data_inputs h1 e1
  let a' : AcctState := { a with data := { a.data with poseidonCodeHash := newValue.val } }
  refine ⟨.setPoseidonCodeHash adr newValue.val, W.set H (accountKey H adr) a', rfl, rfl, ?_, by simp, ?_, ?_, ?_,
    ⟨hout, by simp [Op.type], by simp [Op.type]⟩⟩
  · simp only [Op.apply, Op.address]; rw [ha]
  · rw [put_of_samePath K.trie l1 l2 hs']
    have : d2 = a'.leafData H := by
      rw [h2.1]
      show _ = H _ ((newValue.val : ℕ) : Fr) _
      rw [ZMod.natCast_zmod_val]; rfl
    rw [this]; rfl
  · simp only [valueCode, opValue, Op.address, ha]; rfl
  · simp [valueCode, opValue, Op.address, World.set, a']

theorem sound_storage {z slot : Fr}
    (h : StorageClaim (PR H w U) w.chal z key slot slotRlc oldRoot newRoot oldValue newValue) :
    Sound H w U .StorageChanged slotRlc oldValue newValue key oldRoot newRoot := by
  have hroot : ∀ {so sn}, StorageRootUpdate (PR H w U) key oldRoot newRoot so sn → TableOutput H w U oldRoot := by
    rintro so sn ⟨k, left, pch, kh, ro, rn, lo, ln, -, -, a1, -, path, -, o1, -⟩
    exact out_of_opens o1 (out_of_account a1)
  cases h with
  | update so sn h1 h2 h3 =>
    refine ⟨hroot h2, ?_⟩
    rintro adr W a rfl hW rfl ha C hcond
    obtain ⟨-, hcond⟩ := hcond rfl
    obtain ⟨s, hws, hsl⟩ := h1
    obtain rfl := isWord_hash hws
    have hx := hcond s hws.1 (tableWord_word hws) hsl
    have K := knownSlot_of_world hW ha C hx
    obtain ⟨k, left, pch, kh, ro, rn, lo, ln, r1, r2, a1, a2, hs⟩ := h2
    obtain ⟨k', xo, xn, ho, hn, leo, len, rfl, rfl, -, hxn, w1, w2, l1, l2, hs'⟩ := h3
    have hout : TableOutput H w U newRoot := by
      obtain ⟨path, -, -, o2⟩ := hs
      exact out_of_opens o2 (out_of_account a2)
    obtain ⟨rfl, e1, rfl, e4⟩ := account_update hW ha C a1 a2 hs
    obtain ⟨rfl, rfl⟩ := K.account.right_inputs r1 e1
    have hs'' := hs'
    obtain ⟨path', hp', o1', o2'⟩ := hs'
    obtain ⟨rfl, e2⟩ := K.leaf hp' o1' l1
    obtain rfl := K.eq_word w1 e2
    have hput := put_of_samePath K.storage l1 l2 hs''
    let a' := Op.writeSlot H a s xn
    refine ⟨.setSlot adr s xn, W.set H (accountKey H adr) a', rfl, rfl, ?_, fun _ => hsl, e4 a' rfl ?_ rfl, ?_, ?_,
      ⟨hout, fun _ => ⟨hws.1, tableWord_word hws⟩, fun _ => ⟨?_, ?_⟩⟩⟩
    · simp only [Op.apply, Op.address]; rw [ha]; exact if_pos ⟨hws.1, w2.1, .inl hxn⟩
    · rw [r2.1, hput, isWord_hash w2]
      simp only [Account.right, AcctState.account, a', Op.writeSlot, if_neg hxn]
    · simp only [valueCode, opValue, Op.address, ha]
    · simp [valueCode, opValue, Op.address, World.set, a', Op.writeSlot]
    · simp only [opValue, Op.address, ha]; exact tableWord_word w1
    · simp only [opValue, Op.address, World.set, a', Op.writeSlot, Function.update_self]
      exact tableWord_word w2
  | insertion so sn h1 h2 h3 =>
    refine ⟨hroot h2, ?_⟩
    rintro adr W a rfl hW rfl ha C hcond
    obtain ⟨-, hcond⟩ := hcond rfl
    obtain ⟨s, hws, hsl⟩ := h1
    obtain rfl := isWord_hash hws
    have K := knownSlot_of_world hW ha C (hcond s hws.1 (tableWord_word hws) hsl)
    obtain ⟨k, left, pch, kh, ro, rn, lo, ln, r1, r2, a1, a2, path, hp, o1, o2⟩ := h2
    obtain ⟨k', hNew, leaf, rfl, -, -, pre, ext, hOld, g1, -, -, hi, -, hab, -⟩ := h3
    obtain ⟨-, -, e1, -⟩ := K.account.account hp o1 a1
    obtain ⟨rfl, -⟩ := K.account.right_inputs r1 e1
    exact (K.not_absent g1 hi.opens_old hab).elim
  | deletion so sn h1 h2 h3 =>
    refine ⟨hroot h2, ?_⟩
    rintro adr W a rfl hW rfl ha C hcond
    obtain ⟨k', hNew, leaf, hz, -⟩ := h3
    exact absurd hz (hcond rfl).1
  | creation h1 h2 =>
    obtain ⟨k, left, right, pch, kh, sr, leaf, k', hNew, sl, path, rfl, -, -, a1, hi, -, -, -⟩ := h2
    refine ⟨?_, ?_⟩
    · obtain ⟨pre, ext, x, -, -, -, hi, -, hab⟩ := hi
      exact out_of_inserted hi (out_of_absent hab)
    rintro adr W a rfl hW rfl ha C -
    exact ((known_of_world hW ha C).not_inserted hi).elim

theorem sound_insertedLeaf {leaf : Fr} (hi : InsertedLeaf (PR H w U) key oldRoot newRoot leaf) :
    Sound H w U t slotRlc oldValue newValue key oldRoot newRoot := by
  refine ⟨?_, ?_⟩
  · obtain ⟨pre, ext, x, -, -, -, hi, -, hab⟩ := hi
    exact out_of_inserted hi (out_of_absent hab)
  rintro adr W a rfl hW rfl ha C -
  exact ((known_of_world hW ha C).not_inserted hi).elim

theorem sound_pushed (hN : PushedDown (PR H w U) key oldRoot newRoot) :
    Sound H w U t slotRlc oldValue newValue key oldRoot newRoot := by
  refine ⟨?_, ?_⟩
  · obtain ⟨pre, ext, x, -, -, -, -, hi, -, hab⟩ := hN
    exact out_of_inserted hi (out_of_absent hab)
  rintro adr W a rfl hW rfl ha C -
  exact ((known_of_world hW ha C).not_pushed_old hN).elim

/-- What the rows of one update say. -/
theorem sound_run {s e : ℤ} (R : Run H n U w s e) (T : TablesOK w U) :
    Sound H w U (proofAt w s) (w.adv .storageKeyRlc s) (w.adv .oldValue s) (w.adv .newValue s) (w.adv .key s)
      (w.adv .oldHash s) (w.adv .newHash s) := by
  cases ht : proofAt w s with
  | NonceChanged =>
    rcases R.nonce_sound T ht with hN | hN | hN | ⟨-, -, hN⟩
    · exact sound_nothing hN.empty
    · exact sound_nonce hN
    · obtain ⟨k, nonce, left, leaf, r1, -, -, l1, a1, hi⟩ := hN
      exact sound_insertedLeaf hi
    · exact sound_pushed hN
  | BalanceChanged =>
    rcases R.balance_sound T ht with hN | hN | hN | ⟨-, -, hN⟩
    · exact sound_nothing hN.empty
    · exact sound_balance hN
    · obtain ⟨k, nonce, left, leaf, r1, -, -, l1, a1, hi⟩ := hN
      exact sound_insertedLeaf hi
    · exact sound_pushed hN
  | CodeSizeExists =>
    rcases R.codeSize_sound T ht with hN | hN
    · exact sound_nothing hN.empty
    · exact sound_codeSize hN
  | CodeHashExists =>
    rcases R.codeHash_sound T ht with hN | hN
    · exact sound_nothing hN.empty
    · exact sound_codeHash hN
  | PoseidonCodeHashExists => exact sound_poseidon (R.poseidonCodeHash_sound T ht)
  | StorageChanged =>
    obtain ⟨slot, hN⟩ := R.storage_sound T ht
    exact sound_storage hN
  | AccountDoesNotExist => exact sound_nothing (R.emptyAccount_sound T ht).empty
  | StorageDoesNotExist =>
    obtain ⟨e1, e2, e3, hN⟩ := R.emptyStorage_sound T ht
    rw [e1, e2, ← e3]
    rcases hN with hN | ⟨slot, hs, hN⟩
    · exact sound_nothing hN
    · obtain ⟨k', left, right, pch, kh, sr, leaf, path, h1, h2, h3, h4, h5⟩ := hN
      refine ⟨out_of_opens h2 (out_of_account h3), ?_⟩
      intro adr W a hk hW ho ha C _
      rw [← hk] at ha h2
      rw [← ho] at h2 ⊢
      have K := known_of_world hW ha C
      obtain ⟨-, -, e3, -⟩ := K.account h1 h2 h3
      obtain ⟨rfl, -⟩ := K.right_inputs h4 e3
      obtain ⟨s, hws, hsl⟩ := hs
      obtain rfl := isWord_hash hws
      have hnone : a.trie.get (Account.wordHash H s) = none := by
        obtain ⟨path, h, hp, ho, hab⟩ := h5
        exact get_none_of_opens a.trie.branching
          (C.mono fun _ _ _ h => h.imp id fun h => .inr ⟨_, a, ha, .inr (.inl h)⟩) hp.2 ho hab
      have hz : a.slots (Account.wordHash H s) = 0 := by
        by_contra hne
        rw [(hW.each _ _ ha).slots, if_neg hne] at hnone
        cases hnone
      refine ⟨.slotEmpty adr s, W, rfl, rfl, ?_, fun _ => hsl, rfl, rfl, rfl,
        ⟨out_of_opens h2 (out_of_account h3), fun _ => ⟨hws.1, tableWord_word hws⟩, by simp [Op.type]⟩⟩
      simp only [Op.apply, Op.address]; rw [ha]; exact if_pos ⟨hws.1, hz⟩
  | AccountDestructed => exact absurd ht R.not_destructed

theorem sound_zero (k : Fr) : Sound H w U t slotRlc oldValue newValue k 0 0 :=
  sound_nothing ⟨[], 0, ⟨by simp, by simp⟩, rfl, .inl rfl⟩

/-- What an accepted claim says. -/
theorem sound_claim (h : Accepted H n U w) (T : TablesOK w U)
    (hx : Exposes w U t address slotRlc oldRootRlc newRootRlc oldValue newValue) :
    About H w.chal address oldRootRlc newRootRlc (Sound H w U t slotRlc oldValue newValue) := by
  refine about_of_backed (backed_of_run h T hx ?_) (fun _ _ _ => sound_zero _) fun _ _ _ hP => hP
  rintro s e R rfl rfl rfl rfl
  exact sound_run R T

/-- Nothing collides with the hash inputs of the state `W`, and the RLC does not confuse the root of `W` with
another root in the Poseidon table. -/
structure SafeState (H : HashFn) (w : Witness Fr) (U : ℕ) (W : World) : Prop where
  free : CollisionFree H (Or3 (PosInputs w U) (W.Inputs H))
  rlc : ∀ x, TableOutput H w U x → rootRlc w.chal x = rootRlc w.chal (W.trie.hash H) → x = W.trie.hash H

theorem accountKey_eq_addressKey {adr : List ℕ} (h : IsBytes adr ∧ adr.length = 20) {a : ℕ} (ha : a < 2 ^ 160)
    (he : ((beVal adr : ℕ) : Fr) = (a : Fr)) : accountKey H adr = addressKey H a := by
  obtain ⟨h1, -, -, -, h2⟩ := c48_account_key H adr h.1 h.2
  have hlt : (2 : ℕ) ^ 160 < frModulus :=
    lt_trans (Nat.pow_lt_pow_right (by norm_num) (by norm_num)) frModulus_gt
  have e := natCast_inj_of_lt (lt_trans h1 hlt) (lt_trans ha hlt) he
  rw [h2, e]; rfl

/-- Every exposed address is that of 20 bytes. -/
theorem address_bytes (h : Accepted H n U w) (T : TablesOK w U)
    (hx : Exposes w U t address slotRlc oldRootRlc newRootRlc oldValue newValue) :
    ∃ adr, (IsBytes adr ∧ adr.length = 20) ∧ address = (beVal adr : Fr) := by
  obtain ⟨a, o, nn, h1, h2, -⟩ := sound_claim h T hx
  refine ⟨beBytes 20 a, ⟨isBytes_beBytes _ _, beBytes_length _ _⟩, ?_⟩
  rw [h2, beVal_beBytes 20 a (by norm_num at h1 ⊢; exact h1)]

/-- **C53.** A claim that can be looked up in an accepted witness and whose old root is that of a known
consistent state describes an operation on that state, if the account it is about exists (and, for a storage
write, the slot exists and the new value is not 0): the new root and the values are those of the state after
the operation. Without these conditions the statement is false (`c26_false`, `c31_false`, `c32_false`). -/
theorem c53_operation_partial (h : Accepted H n U w) (T : TablesOK w U)
    (hx : Exposes w U t address slotRlc oldRootRlc newRootRlc oldValue newValue)
    {W : World} (hW : W.OK H) (hs : SafeState H w U W) (hroot : oldRootRlc = rootRlc w.chal (W.trie.hash H))
    {adr : List ℕ} (hadr : IsBytes adr ∧ adr.length = 20) (haddress : address = (beVal adr : Fr))
    {a : AcctState} (ha : W.accounts (accountKey H adr) = some a)
    (hslot : t = .StorageChanged → newValue ≠ 0 ∧
      ∀ s, s < 2 ^ 256 → slotRlc = rlc w.chal (beBytes 32 s) → a.slots (Account.wordHash H s) ≠ 0) :
    ∃ (op : Op) (W' : World), op.address = adr ∧
      Describes H w.chal op W W' t address slotRlc oldRootRlc newRootRlc oldValue newValue := by
  obtain ⟨x, o, nn, h1, h2, h3, h4, h5, h6⟩ := sound_claim h T hx
  have hk : accountKey H adr = addressKey H x := accountKey_eq_addressKey hadr h1 (haddress.symm.trans h2)
  have ho : W.trie.hash H = o := (hs.rlc o h5 (h3.symm.trans hroot)).symm
  rw [hk] at ha
  obtain ⟨op, W', e1, e2, e3, e4, e5, e6, e7, -⟩ := h6 adr W a hk hW ho ha hs.free
    (fun ht => ⟨(hslot ht).1, fun s hs _ => (hslot ht).2 s hs⟩)
  refine ⟨op, W', e1, ⟨e3, ?_, e2, ?_, e4, hroot, ?_, e6, e7⟩⟩
  · rw [e1]; exact hadr
  · rw [e1]; exact haddress
  · rw [h4, e5]

/-- **C53, absence.** If the claim is AccountDoesNotExist, the state has no account at the address. -/
theorem c53_absent (h : Accepted H n U w) (T : TablesOK w U)
    (hx : Exposes w U .AccountDoesNotExist address slotRlc oldRootRlc newRootRlc oldValue newValue)
    {W : World} (hW : W.OK H) (hs : SafeState H w U W) (hroot : oldRootRlc = rootRlc w.chal (W.trie.hash H))
    {adr : List ℕ} (hadr : IsBytes adr ∧ adr.length = 20) (haddress : address = (beVal adr : Fr)) :
    W.accounts (accountKey H adr) = none ∧
      Describes H w.chal (.absent adr .AccountDoesNotExist) W W .AccountDoesNotExist address slotRlc oldRootRlc
        newRootRlc oldValue newValue := by
  obtain ⟨g1, g2, g3⟩ := c29_read_only_partial h T (.inl rfl) hx
  have hnone : W.accounts (accountKey H adr) = none := by
    cases ha : W.accounts (accountKey H adr) with
    | none => rfl
    | some a =>
      obtain ⟨op, W', e1, D⟩ := c53_operation_partial h T hx hW hs hroot hadr haddress ha (by simp)
      have h1 := D.apply
      have h2 := D.type
      cases op with
      | absent b t' =>
        simp only [Op.address] at e1
        subst e1
        simp only [Op.apply, Op.address, ha] at h1
        cases h1
      | _ => cases h2
  refine ⟨hnone, ?_, hadr, rfl, haddress, by simp, hroot, g1 ▸ hroot, g2, g3⟩
  simp only [Op.apply, Op.address]; rw [hnone]; rfl

/-! ## C54: histories -/

/-- A claim that can be looked up. -/
structure LookupClaim where
  type : MPTProofType
  address : Fr
  slotRlc : Fr
  oldRootRlc : Fr
  newRootRlc : Fr
  oldValue : Fr
  newValue : Fr

def LookupClaim.Exposed (c : LookupClaim) (w : Witness Fr) (U : ℕ) : Prop :=
  Exposes w U c.type c.address c.slotRlc c.oldRootRlc c.newRootRlc c.oldValue c.newValue

def LookupClaim.Describes (c : LookupClaim) (H : HashFn) (ρ : Fr) (op : Op) (W W' : World) : Prop :=
  Spec.Describes H ρ op W W' c.type c.address c.slotRlc c.oldRootRlc c.newRootRlc c.oldValue c.newValue

/-- The claims C53 is about, in the state `W`: claims about accounts (and, for storage writes, slots) that
exist, claims that an account does not exist, and reads of absent accounts. -/
def Covered (H : HashFn) (ρ : Fr) (W : World) (c : LookupClaim) : Prop :=
  c.type = .AccountDoesNotExist ∨
  (∀ adr, IsBytes adr ∧ adr.length = 20 → c.address = (beVal adr : Fr) →
    W.accounts (accountKey H adr) = none ∧ c.type ∈ Op.absentTypes ∧ c.oldRootRlc = c.newRootRlc ∧
      c.oldValue = 0 ∧ c.newValue = 0) ∨
  ∀ adr, IsBytes adr ∧ adr.length = 20 → c.address = (beVal adr : Fr) →
    ∃ a, W.accounts (accountKey H adr) = some a ∧ (c.type = .StorageChanged → c.newValue ≠ 0 ∧
      ∀ s, s < 2 ^ 256 → c.slotRlc = rlc ρ (beBytes 32 s) → a.slots (Account.wordHash H s) ≠ 0)

/-- The claims form a chain from the root RLC `r`: each starts with the root the previous one ended with. -/
def Chained (r : Fr) : List LookupClaim → Prop
  | [] => True
  | c :: cs => c.oldRootRlc = r ∧ Chained c.newRootRlc cs

/-- All states that the claims lead through are safe, and the claims are covered in them. -/
def SafeHistory (H : HashFn) (w : Witness Fr) (U : ℕ) : World → List LookupClaim → Prop
  | _, [] => True
  | W, c :: cs => SafeState H w U W ∧ Covered H w.chal W c ∧
      ∀ op W', c.Describes H w.chal op W W' → SafeHistory H w U W' cs

theorem valueCode_zero {ρ : Fr} {t : MPTProofType} : valueCode ρ t 0 = 0 := by
  cases t <;> simp [valueCode, rlc_zero_word]

/-- One step. -/
theorem covered_step (h : Accepted H n U w) (T : TablesOK w U) {c : LookupClaim} (hx : c.Exposed w U)
    {W : World} (hW : W.OK H) (hs : SafeState H w U W) (hroot : c.oldRootRlc = rootRlc w.chal (W.trie.hash H))
    (hc : Covered H w.chal W c) : ∃ op W', c.Describes H w.chal op W W' := by
  obtain ⟨adr, hadr, haddress⟩ := address_bytes h T hx
  rcases hc with hc | hc | hc
  · rcases c with ⟨t, address, slotRlc, o, nn, ov, nv⟩
    simp only at hc; subst hc
    exact ⟨_, _, (c53_absent h T hx hW hs hroot hadr haddress).2⟩
  · obtain ⟨e1, e2, e3, e4, e5⟩ := hc adr hadr haddress
    refine ⟨.absent adr c.type, W, ?_, hadr, rfl, haddress, ?_, hroot, e3 ▸ hroot, ?_, ?_⟩
    · simp only [Op.apply, Op.address]; rw [e1]; exact if_pos e2
    · intro ht
      exfalso
      rcases ht with ht | ht <;> rw [ht] at e2 <;> simp [Op.absentTypes] at e2
    · simp [e4, opValue, Op.address, e1, valueCode_zero]
    · simp [e5, opValue, Op.address, e1, valueCode_zero]
  · obtain ⟨a, ha, hslot⟩ := hc adr hadr haddress
    obtain ⟨op, W', -, D⟩ := c53_operation_partial h T hx hW hs hroot hadr haddress ha hslot
    exact ⟨op, W', D⟩

/-- **C54.** A chain of accepted claims that starts at the root of a known consistent state is a history of
that state: there are operations that can be performed one after the other from it, each described by its
claim; in particular the last new root is that of the final state. -/
theorem c54_history_partial (h : Accepted H n U w) (T : TablesOK w U) {cs : List LookupClaim}
    (hx : ∀ c ∈ cs, c.Exposed w U) {W : World} (hW : W.OK H)
    (hchain : Chained (rootRlc w.chal (W.trie.hash H)) cs) (hs : SafeHistory H w U W cs) :
    ∃ (ops : List Op) (W' : World) (steps : List (Op × World × World)),
      runOps H ops W = some (W', steps) ∧ W'.OK H ∧
      List.Forall₂ (fun c (s : Op × World × World) => c.Describes H w.chal s.1 s.2.1 s.2.2) cs steps ∧
      (∀ c ∈ cs.getLast?, c.newRootRlc = rootRlc w.chal (W'.trie.hash H)) := by
  induction cs generalizing W with
  | nil => exact ⟨[], W, [], rfl, hW, .nil, by simp⟩
  | cons c cs ih =>
    obtain ⟨hr, hchain⟩ := hchain
    obtain ⟨s1, s2, s3⟩ := hs
    obtain ⟨op, W1, D⟩ := covered_step h T (hx c (by simp)) hW s1 hr s2
    have D' : Spec.Describes .. := D
    rw [D'.newRoot] at hchain
    obtain ⟨ops, W', steps, e1, e2, e3, e4⟩ := ih (fun c hc => hx c (by simp [hc])) (Op.apply_ok hW D'.apply) hchain
      (s3 op W1 D)
    refine ⟨op :: ops, W', (op, W, W1) :: steps, ?_, e2, .cons D e3, ?_⟩
    · rw [runOps, D'.apply]
      simp [e1]
    · cases cs with
      | nil =>
        cases e3
        intro c' hc'
        simp only [List.getLast?_singleton, Option.mem_def, Option.some.injEq] at hc'
        subst hc'
        cases ops with
        | nil => cases e1; exact D'.newRoot
        | cons op' ops =>
          have := (runOps_steps (Op.apply_ok hW D'.apply) e1).2.1
          simp at this
      | cons c2 cs => intro c' hc'; exact e4 c' (by rwa [List.getLast?_cons_cons] at hc')

/-! ## C55: the storage key of a claim -/

/-- **C55, partial.** The storage key RLC of an accepted StorageChanged claim is that of a 256-bit word; in
what `assign` writes for a parsed proof, the storage key of a claim that is not about storage is 0.

Missing: that the circuit enforces the latter. It does not (`c55_false`). -/
theorem c55_storage_key_partial :
    (∀ {H : HashFn} {n U : ℕ} {w : Witness Fr} {address slotRlc oldRootRlc newRootRlc oldValue newValue : Fr},
      Accepted H n U w → TablesOK w U →
      Exposes w U .StorageChanged address slotRlc oldRootRlc newRootRlc oldValue newValue →
      ∃ s < 2 ^ 256, slotRlc = rlc w.chal (beBytes 32 s)) ∧
    ∀ (ρ : Fr) (c : Claim), c.kind.proofType ≠ .StorageChanged → c.kind.proofType ≠ .StorageDoesNotExist →
      (claimTuple ρ c)[2]? = some 0 := by
  constructor
  · intro H n U w address slotRlc oldRootRlc newRootRlc oldValue newValue h T hx
    rcases c26_storage_partial h T hx with ⟨hd, -⟩ | ⟨a, k, o, nn, -, -, -, -, slot, hN⟩
    · rcases hd with hd | hd <;> cases hd
    · have : IsSlot (PR H w U) w.chal slot slotRlc := by
        cases hN <;> assumption
      obtain ⟨s, hs, e⟩ := this
      exact ⟨s, hs.1, e⟩
  · rintro ρ ⟨o, nn, adr, kind⟩ h1 h2
    cases kind with
    | Storage k a b => exact absurd rfl h1
    | IsEmpty k =>
      cases k with
      | none => simp [claimTuple, Claim.storageKey, rlc_zero_word]
      | some k => exact absurd rfl h2
    | _ => simp [claimTuple, Claim.storageKey, rlc_zero_word]

end Mpt.Props
