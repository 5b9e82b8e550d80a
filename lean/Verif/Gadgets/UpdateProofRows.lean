import Verif.Gadgets.UpdateRows

set_option autoImplicit false

/-!
# Row-level meaning of the per-proof-type constraints, and of the whole update gadget
-/

set_option linter.unusedSimpArgs false

namespace Mpt
namespace MptUpdate

variable {w : Witness Fr} {U : ℕ} {r : ℤ}
variable {σ σ' : SegmentType} {pp p p' : PathType} {tp t : MPTProofType}

/-- `2^64` and its inverse in the field. /repo/src/gadgets/mpt_update.rs:1356-1568. -/
def two64 : Fr := ((2 ^ 32 : ℕ) : Fr) * ((2 ^ 32 : ℕ) : Fr)

/-- The empty-account block at the end of a run.
Meaning of /repo/src/gadgets/mpt_update/nonexistence_proof.rs:9-52. -/
def EmptyEnd (w : Witness Fr) (U : ℕ) (r : ℤ) (σ' : SegmentType) : Prop :=
  σ' = .Start → w.adv .oldHash r = w.adv .newHash r ∧ w.adv .oldValue r = w.adv .newValue r ∧
    Nonexist w U r .oldValue .oldHash (.iv 3)

/-- Meaning of `configure_nonce`. Meaning of /repo/src/gadgets/mpt_update.rs:1356-1484. -/
def NonceRel (H : HashFn) (w : Witness Fr) (U : ℕ) (r : ℤ) (σ σ' : SegmentType) (p : PathType) :
    Prop :=
  p ≠ .ExtensionOld ∧
  match σ with
  | .Start | .AccountTrie => EmptyEnd w U r σ'
  | .AccountLeaf0 => w.adv .direction r = 1
  | .AccountLeaf1 => w.adv .direction r = 0 ∧ (p = .ExtensionNew → w.adv .sibling r = 0)
  | .AccountLeaf2 => w.adv .direction r = 0 ∧
      (p = .ExtensionNew → w.adv .sibling r = zeroStorageRootKeccakCodehashHash H)
  | .AccountLeaf3 => w.adv .direction r = 0 ∧ InBytes w U (w.adv .newValue r) 7 ∧
      (p = .Common → InBytes w U (w.adv .oldValue r) 7 ∧
        (w.adv .oldHash r - w.adv .oldValue r) * two64⁻¹ =
          (w.adv .newHash r - w.adv .newValue r) * two64⁻¹ ∧
        InBytes w U ((w.adv .oldHash r - w.adv .oldValue r) * two64⁻¹) 7) ∧
      (p = .ExtensionNew → w.adv .oldValue r = 0 ∧
        (w.adv .newHash r - w.adv .newValue r) * two64⁻¹ = 0 ∧ w.adv .sibling r = 0)
  | _ => True

theorem emptyBlock_iff (h : Dec w r σ σ' pp p p' tp t) :
    Cmd.HoldsL w U r emptyAccountBlock ↔ EmptyEnd w U r σ' := by
  simp only [emptyAccountBlock, Cmd.holdsL_cons, Cmd.holdsL_nil, and_true, Cmd.holds_cond,
    h.eval_segNext [.Start] (by decide), ite_ne_zero', Cmd.holdsL_append, Cmd.holds_assertEqual,
    AdvCol.eval_cur, nonexistence_iff h, EmptyEnd, List.mem_singleton, and_assoc]

theorem eval_inv64 : inv64.eval w r = two64⁻¹ := rfl
theorem eval_shift64 : shift64.eval w r = two64 := rfl

theorem nonce_iff (h : Dec w r σ σ' pp p p' tp t) (H : HashFn) :
    Cmd.HoldsL w U r (configureNonce H) ↔ NonceRel H w U r σ σ' p := by
  rw [configureNonce, Cmd.holdsL_append, forSegments_iff h]
  have hN : Cmd.HoldsL w U r [Cmd.assert "account leafs cannot be deleted"
      (Query.bnot (pth [.ExtensionOld]))] ↔ p ≠ .ExtensionOld := by
    simp only [Cmd.holdsL_cons, Cmd.holdsL_nil, and_true, Cmd.holds_assert, Query.eval_bnot,
      h.eval_pth [.ExtensionOld] (by decide), one_sub_ite, ite_eq_one', List.mem_singleton, ne_eq]
  rw [hN]
  apply and_congr_right
  intro _
  cases σ <;> simp only [emptyBlock_iff h, directionIs0, directionIs1, Cmd.holdsL_cons,
    Cmd.holdsL_nil, and_true, Cmd.holds_assertZero, Cmd.holds_assertEqual, AdvCol.eval_cur,
    Query.eval_one, Cmd.holds_cond, h.eval_pth [.ExtensionNew] (by decide),
    h.eval_pth [.Common] (by decide), ite_ne_zero', Query.eval_fromFr, holds_bytes,
    Query.eval_natLit, Nat.cast_one, Query.eval_mul, Query.eval_sub, eval_inv64, List.mem_singleton,
    Nat.cast_ofNat]

/-- Meaning of `configure_code_size`. Meaning of /repo/src/gadgets/mpt_update.rs:1486-1568. -/
def CodeSizeRel (w : Witness Fr) (U : ℕ) (r : ℤ) (σ σ' : SegmentType) : Prop :=
  match σ with
  | .Start | .AccountTrie => EmptyEnd w U r σ'
  | .AccountLeaf0 => w.adv .direction r = 1
  | .AccountLeaf1 => w.adv .direction r = 0
  | .AccountLeaf2 => w.adv .direction r = 0
  | .AccountLeaf3 => w.adv .direction r = 0 ∧ InBytes w U (w.adv .oldValue r) 7 ∧
      InBytes w U (w.adv .newValue r) 7 ∧
      w.adv .oldHash r - w.adv .oldValue r * two64 =
        w.adv .newHash r - w.adv .newValue r * two64 ∧
      InBytes w U (w.adv .oldHash r - w.adv .oldValue r * two64) 7
  | _ => True

theorem codeSize_iff (h : Dec w r σ σ' pp p p' tp t) :
    Cmd.HoldsL w U r configureCodeSize ↔ CodeSizeRel w U r σ σ' := by
  rw [configureCodeSize, forSegments_iff h]
  cases σ <;> simp only [emptyBlock_iff h, directionIs0, directionIs1, Cmd.holdsL_cons,
    Cmd.holdsL_nil, and_true, Cmd.holds_assertZero, Cmd.holds_assertEqual, AdvCol.eval_cur,
    Query.eval_one, holds_bytes, Query.eval_natLit, Nat.cast_one, Query.eval_mul, Query.eval_sub, eval_shift64,
    Nat.cast_ofNat, CodeSizeRel]

/-- Meaning of `configure_balance`. Meaning of /repo/src/gadgets/mpt_update.rs:1570-1697. -/
def BalanceRel (H : HashFn) (w : Witness Fr) (U : ℕ) (r : ℤ) (σ σ' : SegmentType) (p : PathType) :
    Prop :=
  match σ with
  | .Start | .AccountTrie => EmptyEnd w U r σ'
  | .AccountLeaf0 => w.adv .domain r = HashDomain.Leaf.toFr ∧ w.adv .direction r = 1
  | .AccountLeaf1 => w.adv .domain r = HashDomain.AccountFields.toFr ∧ w.adv .direction r = 0 ∧
      (p = .ExtensionNew → w.adv .sibling r = 0)
  | .AccountLeaf2 => w.adv .direction r = 0 ∧
      (p = .ExtensionNew → w.adv .sibling r = zeroStorageRootKeccakCodehashHash H)
  | .AccountLeaf3 => w.adv .direction r = 1 ∧
      (p = .Common → InRlc w U (w.adv .oldHash r) 30 (w.adv .oldValue r)) ∧
      InRlc w U (w.adv .newHash r) 30 (w.adv .newValue r) ∧
      (p = .ExtensionNew → w.adv .sibling r = 0)
  | _ => True

theorem balance_iff (h : Dec w r σ σ' pp p p' tp t) (H : HashFn) :
    Cmd.HoldsL w U r (configureBalance H) ↔ BalanceRel H w U r σ σ' p := by
  rw [configureBalance, forSegments_iff h]
  cases σ <;> simp only [emptyBlock_iff h, directionIs0, directionIs1, Cmd.holdsL_cons,
    Cmd.holdsL_nil, and_true, Cmd.holds_assertZero, Cmd.holds_assertEqual, AdvCol.eval_cur,
    Query.eval_one, Cmd.holds_cond, h.eval_pth [.ExtensionNew] (by decide),
    h.eval_pth [.Common] (by decide), ite_ne_zero', Query.eval_fromFr, holds_rlc, eval_dom,
    Query.eval_natLit, Nat.cast_one, List.mem_singleton, Nat.cast_ofNat, BalanceRel, and_self]

/-- Meaning of `configure_poseidon_code_hash`. Meaning of /repo/src/gadgets/mpt_update.rs:1699-1728. -/
def PoseidonCodeHashRel (w : Witness Fr) (r : ℤ) (σ : SegmentType) : Prop :=
  match σ with
  | .AccountLeaf0 => w.adv .direction r = 1
  | .AccountLeaf1 => w.adv .direction r = 1 ∧ w.adv .oldValue r = w.adv .oldHash r ∧
      w.adv .newValue r = w.adv .newHash r
  | _ => True

theorem poseidonCodeHash_iff (h : Dec w r σ σ' pp p p' tp t) :
    Cmd.HoldsL w U r configurePoseidonCodeHash ↔ PoseidonCodeHashRel w r σ := by
  rw [configurePoseidonCodeHash, forSegments_iff h]
  cases σ <;> simp only [directionIs1, Cmd.holdsL_cons, Cmd.holdsL_nil, and_true,
    Cmd.holds_assertEqual, AdvCol.eval_cur, Query.eval_one, PoseidonCodeHashRel]

/-- The two word gadgets on old and new value.
Meaning of two calls of /repo/src/gadgets/mpt_update/word_rlc.rs:16-62. -/
def OldNewWord (w : Witness Fr) (U : ℕ) (r : ℤ) : Prop :=
  WordRel w U r .oldHash (.iv 0) (.iv 1) .oldValue (.sp 0) (.sp 1) ∧
  WordRel w U r .newHash (.iv 2) (.iv 3) .newValue (.sp 2) (.sp 3)

/-- The word gadget on the storage key. Meaning of /repo/src/gadgets/mpt_update.rs:1813-1850, 1906-1940. -/
def KeyWord (w : Witness Fr) (U : ℕ) (r : ℤ) : Prop :=
  WordRel w U r .key (.iv 0) (.iv 1) .storageKeyRlc (.sp 0) (.sp 1)

/-- Meaning of `configure_keccak_code_hash`. Meaning of /repo/src/gadgets/mpt_update.rs:1730-1811. -/
def KeccakRel (w : Witness Fr) (U : ℕ) (r : ℤ) (σ σ' : SegmentType) : Prop :=
  match σ with
  | .Start | .AccountTrie => EmptyEnd w U r σ'
  | .AccountLeaf0 => w.adv .direction r = 1
  | .AccountLeaf1 => w.adv .direction r = 0
  | .AccountLeaf2 => w.adv .direction r = 1
  | .AccountLeaf3 => w.adv .direction r = 1 ∧ OldNewWord w U r
  | _ => True

theorem keccak_iff (h : Dec w r σ σ' pp p p' tp t) :
    Cmd.HoldsL w U r configureKeccakCodeHash ↔ KeccakRel w U r σ σ' := by
  rw [configureKeccakCodeHash, forSegments_iff h]
  cases σ <;> simp only [emptyBlock_iff h, directionIs0, directionIs1, Cmd.holdsL_cons,
    Cmd.holdsL_nil, and_true, Cmd.holds_assertZero, Cmd.holds_assertEqual, AdvCol.eval_cur,
    Query.eval_one, KeccakRel, oldNewWordRlc, Cmd.holdsL_append, wordRlc_iff, OldNewWord]

/-- Meaning of `configure_storage`. Meaning of /repo/src/gadgets/mpt_update.rs:1813-1904. -/
def StorageRel (H : HashFn) (w : Witness Fr) (U : ℕ) (r : ℤ) (σ : SegmentType) (p : PathType) :
    Prop :=
  match σ with
  | .AccountLeaf0 => w.adv .direction r = 1
  | .AccountLeaf1 => w.adv .direction r = 0
  | .AccountLeaf2 => w.adv .direction r = 1
  | .AccountLeaf3 => w.adv .direction r = 0 ∧ KeyWord w U r
  | .StorageLeaf0 => w.adv .direction r = 1 ∧ (p = .Common → OldNewWord w U r) ∧
      w.adv (.izVal 0) r = w.adv .oldHash r - zeroPairHash H ∧
      w.adv (.izVal 1) r = w.adv .newHash r - zeroPairHash H ∧
      w.adv .oldHash r ≠ zeroPairHash H ∧ w.adv .newHash r ≠ zeroPairHash H
  | _ => True

theorem storage_iff (h : Dec w r σ σ' pp p p' tp t) (H : HashFn) :
    Cmd.HoldsL w U r (configureStorage H) ↔ StorageRel H w U r σ p := by
  rw [configureStorage, forSegments_iff h]
  have e0 := h.eval_isZero 0
  have e1 := h.eval_isZero 1
  cases σ <;> simp only [directionIs0, directionIs1, Cmd.holdsL_cons,
    Cmd.holdsL_nil, and_true, Cmd.holds_assertZero, Cmd.holds_assertEqual, AdvCol.eval_cur,
    Query.eval_one, StorageRel, keyWordRlc, oldNewWordRlc, Cmd.holdsL_append, wordRlc_iff,
    OldNewWord, KeyWord, Cmd.holds_cond, h.eval_pth [.Common] (by decide), ite_ne_zero',
    List.mem_singleton, Query.eval_sub, Query.eval_fromFr, Cmd.holds_assert, Query.eval_bnot,
    e0, e1, one_sub_ite, ite_eq_one']
  simp only [isZero]
  constructor
  · rintro ⟨h1, h2, h3, h4, h5, h6⟩
    rw [h3, sub_eq_zero] at h5
    rw [h4, sub_eq_zero] at h6
    exact ⟨h1, h2, h3, h4, h5, h6⟩
  · rintro ⟨h1, h2, h3, h4, h5, h6⟩
    refine ⟨h1, h2, h3, h4, ?_, ?_⟩
    · rwa [h3, sub_eq_zero]
    · rwa [h4, sub_eq_zero]

/-- Meaning of `configure_empty_storage`. Meaning of /repo/src/gadgets/mpt_update.rs:1906-1985. -/
def EmptyStorageRel (w : Witness Fr) (U : ℕ) (r : ℤ) (σ σ' : SegmentType) (p : PathType) : Prop :=
  w.adv .oldValue r = 0 ∧ w.adv .newValue r = 0 ∧ (p = .Start ∨ p = .Common) ∧
  w.adv .oldHash r = w.adv .newHash r ∧
  (σ' = .Start → Nonexist w U r .oldValue .oldHash (.iv 3)) ∧
  match σ with
  | .AccountLeaf0 => w.adv .direction r = 1
  | .AccountLeaf1 => w.adv .direction r = 0
  | .AccountLeaf2 => w.adv .direction r = 1
  | .AccountLeaf3 => w.adv .direction r = 0 ∧ KeyWord w U r
  | _ => True

theorem emptyStorage_iff (h : Dec w r σ σ' pp p p' tp t) :
    Cmd.HoldsL w U r configureEmptyStorage ↔ EmptyStorageRel w U r σ σ' p := by
  rw [configureEmptyStorage, Cmd.holdsL_append, forSegments_iff h]
  simp only [Cmd.holdsL_cons, Cmd.holdsL_nil, and_true, Cmd.holds_assertZero,
    Cmd.holds_assertEqual, AdvCol.eval_cur, Cmd.holds_assert,
    h.eval_pth [.Start, .Common] (by decide), ite_eq_one', Cmd.holds_cond,
    h.eval_segNext [.Start] (by decide), ite_ne_zero', nonexistence_iff h, EmptyStorageRel,
    List.mem_cons, List.not_mem_nil, or_false, and_assoc]
  cases σ <;> simp only [directionIs0, directionIs1, Cmd.holdsL_cons,
    Cmd.holdsL_nil, and_true, Cmd.holds_assertZero, Cmd.holds_assertEqual, AdvCol.eval_cur,
    Query.eval_one, keyWordRlc, Cmd.holdsL_append, wordRlc_iff, KeyWord]

/-- Meaning of `configure_empty_account`. Meaning of /repo/src/gadgets/mpt_update.rs:1987-2036. -/
def EmptyAccountRel (w : Witness Fr) (U : ℕ) (r : ℤ) (σ σ' : SegmentType) : Prop :=
  w.adv .oldValue r = 0 ∧ w.adv .newValue r = 0 ∧ w.adv .oldHash r = w.adv .newHash r ∧
  match σ with
  | .Start | .AccountTrie => σ' = .Start → Nonexist w U r .oldValue .newHash (.iv 3)
  | _ => True

theorem emptyAccount_iff (h : Dec w r σ σ' pp p p' tp t) :
    Cmd.HoldsL w U r configureEmptyAccount ↔ EmptyAccountRel w U r σ σ' := by
  rw [configureEmptyAccount, Cmd.holdsL_append, forSegments_iff h]
  simp only [Cmd.holdsL_cons, Cmd.holdsL_nil, and_true, Cmd.holds_assertZero,
    Cmd.holds_assertEqual, AdvCol.eval_cur, EmptyAccountRel, and_assoc]
  refine and_congr_right fun h1 => and_congr_right fun h2 => and_congr_right fun h3 => ?_
  cases σ <;> simp only [Cmd.holdsL_cons, Cmd.holdsL_nil, and_true, Cmd.holds_cond,
    h.eval_segNext [.Start] (by decide), ite_ne_zero', Cmd.holdsL_append, Cmd.holds_assertEqual,
    AdvCol.eval_cur, nonexistence_iff h, List.mem_singleton, h1, h2, h3, true_and]

/-- Meaning of the per-proof-type constraints. Meaning of /repo/src/gadgets/mpt_update.rs:300-340. -/
def ProofRel (H : HashFn) (w : Witness Fr) (U : ℕ) (r : ℤ) (σ σ' : SegmentType) (p : PathType) :
    MPTProofType → Prop
  | .NonceChanged => NonceRel H w U r σ σ' p
  | .BalanceChanged => BalanceRel H w U r σ σ' p
  | .CodeSizeExists => CodeSizeRel w U r σ σ'
  | .PoseidonCodeHashExists => PoseidonCodeHashRel w r σ
  | .AccountDoesNotExist => EmptyAccountRel w U r σ σ'
  | .CodeHashExists => KeccakRel w U r σ σ'
  | .StorageChanged => StorageRel H w U r σ p
  | .StorageDoesNotExist => EmptyStorageRel w U r σ σ' p
  | .AccountDestructed => False

theorem proofType_iff (h : Dec w r σ σ' pp p p' tp t) (H : HashFn) :
    Cmd.HoldsL w U r (configureProofType H t) ↔ ProofRel H w U r σ σ' p t := by
  cases t with
  | NonceChanged => exact nonce_iff h H
  | BalanceChanged => exact balance_iff h H
  | CodeHashExists => exact keccak_iff h
  | PoseidonCodeHashExists => exact poseidonCodeHash_iff h
  | CodeSizeExists => exact codeSize_iff h
  | AccountDoesNotExist => exact emptyAccount_iff h
  | StorageChanged => exact storage_iff h H
  | StorageDoesNotExist => exact emptyStorage_iff h
  | AccountDestructed => simp [configureProofType, ProofRel]

/-! ## Start rows and continuity -/

/-- Meaning of the constraints on Start rows. Meaning of /repo/src/gadgets/mpt_update.rs:108-346. -/
def StartRel (w : Witness Fr) (U : ℕ) (r : ℤ) : Prop :=
  P1 w U (w.adv (.iv 0) r) (w.adv (.iv 1) r * ((2 ^ 96 : ℕ) : Fr)) HashDomain.Pair.toFr
    (w.adv .key r) ∧
  InBytes w U (w.adv (.iv 0) r) 15 ∧ InBytes w U (w.adv (.iv 1) r) 3 ∧
  InFrRlc w U (w.adv .oldHash r) (w.adv (.sp 0) r) ∧
  InFrRlc w U (w.adv .newHash r) (w.adv (.sp 1) r)

theorem start_iff (h : Dec w r σ σ' pp p p' tp t) (hs : w.fix .selector r = 1) :
    Cmd.Holds w U r configureStart ↔ (σ = .Start → StartRel w U r) := by
  simp only [configureStart, Cmd.holds_cond, Query.eval_band, h.eval_seg [.Start] (by decide),
    FixCol.eval_cur, hs, mul_one, ite_ne_zero', List.mem_singleton, Cmd.holdsL_cons,
    Cmd.holdsL_nil, and_true, Cmd.holds_poseidonLookup, holds_bytes, holds_frRlc, AdvCol.eval_cur,
    Query.eval_mul, Query.eval_const, eval_dom, Query.eval_natLit, Nat.cast_ofNat, StartRel]

theorem idxOf_inj {a b : MPTProofType}
    (h : (((EnumIter.iter : List MPTProofType).idxOf a : ℕ) : Fr) =
      (((EnumIter.iter : List MPTProofType).idxOf b : ℕ) : Fr)) : a = b := by
  by_contra hne
  refine natCast_ne_of_lt ?_ ?_ ?_ h
  · cases a <;> decide
  · cases b <;> decide
  · revert hne; cases a <;> cases b <;> decide

/-- Meaning of the constraints common to all updates. Meaning of /repo/src/gadgets/mpt_update.rs:108-346. -/
structure CommonRowRel (w : Witness Fr) (U : ℕ) (r : ℤ) (σ : SegmentType) (p : PathType)
    (tp t : MPTProofType) : Prop where
  keep : σ ≠ .Start → t = tp ∧ w.adv .storageKeyRlc r = w.adv .storageKeyRlc (r - 1) ∧
    w.adv .oldValue r = w.adv .oldValue (r - 1) ∧ w.adv .newValue r = w.adv .newValue (r - 1)
  keepKey : σ ≠ .Start → σ ≠ .AccountLeaf3 → w.adv .key r = w.adv .key (r - 1) ∧
    w.adv .otherKey r = w.adv .otherKey (r - 1)
  trie : σ = .AccountTrie ∨ σ = .StorageTrie →
    InKeyBit w U (w.adv .key r) (w.adv .depth r - 1) (w.adv .direction r) ∧
    w.adv .depth r = w.adv .depth (r - 1) + 1 ∧
    (p = .Common → InKeyBit w U (w.adv .otherKey r) (w.adv .depth r - 1) (w.adv .direction r))
  notTrie : σ ≠ .AccountTrie → σ ≠ .StorageTrie → w.adv .depth r = 0

theorem common_iff (h : Dec w r σ σ' pp p p' tp t) :
    Cmd.HoldsL w U r configureCommon ↔ CommonRowRel w U r σ p tp t := by
  have i0 : (proofType.index 0 : Query Fr).eval w r = _ :=
    OneHot.eval_index _ _ _ _ t (by simpa using h.prf)
  have i1 : σ ≠ .Start → (proofType.index (-1) : Query Fr).eval w r =
      (((EnumIter.iter : List MPTProofType).idxOf tp : ℕ) : Fr) := fun hs =>
    OneHot.eval_index _ _ _ _ tp (by simpa [sub_eq_add_neg] using h.prfP hs)
  simp only [configureCommon, Cmd.holdsL_cons, Cmd.holdsL_nil, and_true, Cmd.holds_cond,
    Query.eval_bnot, h.eval_seg [.Start] (by decide), h.eval_seg [.Start, .AccountLeaf3] (by decide),
    h.eval_seg [.AccountTrie, .StorageTrie] (by decide), h.eval_pth [.Common] (by decide),
    one_sub_ite, ite_ne_zero', List.mem_cons, List.not_mem_nil, or_false, not_or,
    Cmd.holds_assertEqual, Cmd.holds_assertZero, AdvCol.eval_cur, AdvCol.eval_prev, holds_keyBit,
    Query.eval_sub, Query.eval_add, Query.eval_one, i0]
  constructor
  · rintro ⟨h1, h2, h3, h4⟩
    exact ⟨fun hs => ⟨idxOf_inj (by rw [(h1 hs).1, i1 hs]), (h1 hs).2⟩, fun a b => h2 ⟨a, b⟩, h3,
      fun a b => h4 ⟨a, b⟩⟩
  · rintro ⟨h1, h2, h3, h4⟩
    exact ⟨fun hs => ⟨by rw [(h1 hs).1, i1 hs], (h1 hs).2⟩, fun a => h2 a.1 a.2, h3,
      fun a => h4 a.1 a.2⟩

/-! ## The whole row -/

/-- Everything the update gadget says about an enabled row whose one-hots are decoded.
Meaning of /repo/src/gadgets/mpt_update.rs:108-346. -/
structure RowRel (H : HashFn) (w : Witness Fr) (U : ℕ) (r : ℤ) (σ σ' : SegmentType)
    (pp p p' : PathType) (tp t : MPTProofType) : Prop where
  startIff : σ = .Start ↔ p = .Start
  start : σ = .Start → StartRel w U r
  common : CommonRowRel w U r σ p tp t
  pathNext : p' ∈ forwardTransitions p
  path : PathRel w U r σ σ' pp p p' t
  domain : ∃ d ∈ domains σ, w.adv .domain r = d.toFr
  segNext : ∃ l, transitions t σ = some l ∧ σ' ∈ l
  proof : ProofRel H w U r σ σ' p t

/-- The constraints of the gadget on an enabled, decoded row. -/
theorem configure_iff (h : Dec w r σ σ' pp p p' tp t) (hs : w.fix .selector r = 1) (H : HashFn) :
    Cmd.HoldsL w U r (configure H) ↔ RowRel H w U r σ σ' pp p p' tp t := by
  have hi : ∀ i, Cmd.HoldsL w U r (isZero i).configure := fun i =>
    (IsZeroGadget.configure_holds _ _ _ _).2 (h.iz i)
  have hp : Cmd.HoldsL w U r proofType.configure := OneHot.holds_of_repr _ _ _ _ _ h.prf
  have hsg : Cmd.HoldsL w U r segmentType.configure := OneHot.holds_of_repr _ _ _ _ _ h.seg
  have hpt : Cmd.HoldsL w U r pathType.configure := OneHot.holds_of_repr _ _ _ _ _ h.pth
  have hse : (((if σ ∈ [SegmentType.Start] then (1 : Fr) else 0) =
      if p ∈ [PathType.Start] then 1 else 0) ↔ (σ = .Start ↔ p = .Start)) := by
    simp only [List.mem_singleton]
    by_cases a : σ = .Start <;> by_cases b : p = .Start <;> simp [a, b]
  simp only [configure, Cmd.holdsL_append, hi, hp, hsg, hpt, true_and, and_true, Cmd.holdsL_cons,
    Cmd.holdsL_nil, Cmd.holds_assertEqual, h.eval_seg [.Start] (by decide),
    h.eval_pth [.Start] (by decide), start_iff h hs, common_iff h, paths_iff h, pathType_iff h,
    domains_iff h, proofTypes_iff h, proofType_iff h, hse]
  constructor
  · rintro ⟨⟨⟨⟨⟨h1, h2⟩, h3⟩, h4, h5⟩, h6⟩, h7, h8⟩
    exact ⟨h1, h2, h3, h4, h5, h6, h7, h8⟩
  · rintro ⟨h1, h2, h3, h4, h5, h6, h7, h8⟩
    exact ⟨⟨⟨⟨⟨h1, h2⟩, h3⟩, h4, h5⟩, h6⟩, h7, h8⟩

/-- The gadget's constraints determine the one-hot decoding of an enabled row. -/
theorem decoded_of_configure (H : HashFn) (h : Cmd.HoldsL w U r (configure H)) :
    (∃ σ, segmentType.Repr w r σ) ∧ (∃ p, pathType.Repr w r p) ∧ (∃ t, proofType.Repr w r t) ∧
      ∀ i, w.adv (.izInv i) r = (w.adv (.izVal i) r)⁻¹ := by
  simp only [configure, Cmd.holdsL_append] at h
  obtain ⟨⟨⟨⟨⟨⟨⟨⟨h1, ⟨⟨hi0, hi1⟩, hi2⟩, hi3⟩, h3⟩, h4⟩, _⟩, _⟩, _⟩, _⟩, _⟩ := h
  have small : ∀ n : ℕ, n ≤ 8 → (n : Fr) = 0 → n = 0 := by
    intro n hn h0
    by_contra hne
    exact natCast_ne_of_lt (b := 0) (by omega) (by norm_num) hne (by simpa using h0)
  have small1 : ∀ n : ℕ, n ≤ 8 → (n : Fr) = 1 → n = 1 := by
    intro n hn h0
    by_contra hne
    exact natCast_ne_of_lt (b := 1) (by omega) (by norm_num) hne (by simpa using h0)
  refine ⟨?_, ?_, ?_, ?_⟩
  · exact OneHot.exists_repr _ w r (fun n hn => small n (le_trans hn (by decide)))
      (fun n hn => small1 n (le_trans hn (by decide))) ((OneHot.configure_holds _ _ _ _).1 h3)
  · exact OneHot.exists_repr _ w r (fun n hn => small n (le_trans hn (by decide)))
      (fun n hn => small1 n (le_trans hn (by decide))) ((OneHot.configure_holds _ _ _ _).1 h4)
  · exact OneHot.exists_repr _ w r (fun n hn => small n (le_trans hn (by decide)))
      (fun n hn => small1 n (le_trans hn (by decide))) ((OneHot.configure_holds _ _ _ _).1 h1)
  · intro i
    have := fun i hh => (IsZeroGadget.configure_holds (isZero i) w U r).1 hh
    fin_cases i
    · exact this 0 hi0
    · exact this 1 hi1
    · exact this 2 hi2
    · exact this 3 hi3

end MptUpdate
end Mpt
