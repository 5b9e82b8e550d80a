import Verif.Exposed

set_option autoImplicit false

/-!
# Properties C16-C29: what accepted claims mean

`Accepted H n U w`: the circuit accepts the witness `w`. `TablesOK w U`: the byte and key-bit tables
of the witness are sound; it holds when the cells at the edges of the tables are in order
(`Accepted.tablesOK`), see `Verif.Props.Tables` for C09, C11, C13 and for what goes wrong otherwise.
`Exposes w U t address slotRlc oldRootRlc newRootRlc oldValue newValue`: another circuit can look the
claim up. `PR H w U`: the graph of the hash restricted to the preimages that are in the Poseidon
table.

That the hypotheses are met, for every type of claim, is shown in `Verif.Props.ClaimsDemo` (`demo_claims`): one
circuit, assigned for seventeen operations.
-/

namespace Mpt.Props
open Mpt Spec MptUpdate

variable {H : HashFn} {n U : ℕ} {w : Witness Fr} {t : MPTProofType}
variable {address slotRlc oldRootRlc newRootRlc oldValue newValue : Fr}

/-- The claim is one of the two degenerate tuples, or it is about a 160-bit address, its key and two
roots with the exposed RLCs for which `P` holds. -/
def Backed (H : HashFn) (w : Witness Fr) (U : ℕ) (t : MPTProofType)
    (address slotRlc oldRootRlc newRootRlc oldValue newValue : Fr)
    (P : (key oldRoot newRoot : Fr) → Prop) : Prop :=
  Degenerate t address slotRlc oldRootRlc newRootRlc oldValue newValue ∨
  ∃ (a : ℕ) (key oldRoot newRoot : Fr), address = (a : Fr) ∧ IsAddressKey (PR H w U) a key ∧
    oldRootRlc = rootRlc w.chal oldRoot ∧ newRootRlc = rootRlc w.chal newRoot ∧ P key oldRoot newRoot

theorem backed_of_run (h : Accepted H n U w) (T : TablesOK w U)
    (hx : Exposes w U t address slotRlc oldRootRlc newRootRlc oldValue newValue)
    {P : (key oldRoot newRoot : Fr) → Prop}
    (hP : ∀ s e, Run H n U w s e → proofAt w s = t → slotRlc = w.adv .storageKeyRlc s →
      oldValue = w.adv .oldValue s → newValue = w.adv .newValue s →
      P (w.adv .key s) (w.adv .oldHash s) (w.adv .newHash s)) :
    Backed H w U t address slotRlc oldRootRlc newRootRlc oldValue newValue P := by
  rcases hx.run h T with hd | ⟨s, e, a, R, h1, h2, h3, h4, h5, h6, h7, h8⟩
  · exact .inl hd
  · exact .inr ⟨a, _, _, _, h2, h3, h5, h6, hP s e R h1 h4 h7 h8⟩

/-- C16: on any row on which the word gadget is active there is a 256-bit word whose halves hash to
the hash cell and whose 32-byte RLC is the RLC cell. -/
theorem c16_word_gadget (h : Accepted H n U w) (T : TablesOK w U) {r : ℤ}
    {wordHash high low rlcWord rlcHigh rlcLow : AdvCol}
    (hw : Cmd.HoldsL w U r (wordRlc wordHash high low rlcWord rlcHigh rlcLow)) :
    ∃ x : ℕ, IsWord (PR H w U) x (w.adv wordHash r) ∧
      w.adv rlcWord r = Spec.rlc w.chal (beBytes 32 x) :=
  T.word h.pos ((wordRlc_iff _ _ _ _ _ _).1 hw)

/-- C17: the rows of an update. -/
theorem c17_run_shape {s e : ℤ} (R : Run H n U w s e) :
    (∃ (m k : ℕ) (tail : List SegmentType),
      rowsOf (segAt w) s e = .Start :: List.replicate m .AccountTrie ++ tail ∧
      AllowedTail (proofAt w s) k tail) ∧
    rowsOf (w.adv .depth) s e =
      (depthOf (rowsOf (segAt w) s e) 0).map (fun d : ℕ => (d : Fr)) ∧
    (∃ (a b : ℕ) (x : PathType), (x = .ExtensionOld ∨ x = .ExtensionNew) ∧
      rowsOf (pathAt w) s e = .Start :: List.replicate a .Common ++ List.replicate b x) ∧
    (∀ r, s ≤ r → r < e → proofAt w r = proofAt w s ∧
      w.adv .storageKeyRlc r = w.adv .storageKeyRlc s ∧
      w.adv .oldValue r = w.adv .oldValue s ∧ w.adv .newValue r = w.adv .newValue s) :=
  ⟨R.segments, R.depths, R.pathTypes, fun _ h1 h2 => R.keep' h1 h2⟩

/-- C18: rows outside `1..n-1` expose selector 0; rows that are not Start rows expose the all-zero
claim; the last enabled row is a Start row exposing the padding claim; every other enabled Start row
begins a run that ends inside the enabled area. -/
theorem c18_exposed_rows (h : Accepted H n U w) (hn : 2 ≤ n) :
    (∀ r, ¬ Enabled n r → (exposed w r).head? = some 0) ∧
    (∀ r, Enabled n r → segAt w r ≠ .Start → exposed w r = [1, 0, 0, 0, 0, 0, 0, 0]) ∧
    (segAt w (n - 1) = .Start ∧ exposed w (n - 1) =
      [1, 0, 0, (MPTProofType.AccountDoesNotExist.toNat : Fr), 0, 0, 0, 0]) ∧
    (∀ s, Enabled n s → s + 1 < n → segAt w s = .Start → ∃ e, Run H n U w s e) := by
  refine ⟨fun r hr => ?_, fun r hr hs => ?_, ⟨(h.final_row hn).1, ?_⟩,
    fun s hs hlt hst => h.exists_run hs hlt hst⟩
  · simp [exposed, lookupExprs, not_enabled_selector h hr]
  · rw [h.exposed_eq hr, if_neg hs]
  · rw [(h.final_row hn).2.2]; norm_num [MPTProofType.toNat]

/-- C19: the exposed address is a 160-bit number whose key is the key of the run; the exposed root
RLCs are those of the roots of the run. -/
theorem c19_address_and_roots (h : Accepted H n U w) (T : TablesOK w U)
    (hx : Exposes w U t address slotRlc oldRootRlc newRootRlc oldValue newValue) :
    Degenerate t address slotRlc oldRootRlc newRootRlc oldValue newValue ∨
    ∃ (s e : ℤ) (a : ℕ), Run H n U w s e ∧ proofAt w s = t ∧ address = (a : Fr) ∧
      IsAddressKey (PR H w U) a (w.adv .key s) ∧ slotRlc = w.adv .storageKeyRlc s ∧
      oldRootRlc = rootRlc w.chal (w.adv .oldHash s) ∧
      newRootRlc = rootRlc w.chal (w.adv .newHash s) ∧
      oldValue = w.adv .oldValue s ∧ newValue = w.adv .newValue s :=
  hx.run h T

/-- C20 for claims that do not say `0 → 0`. (Full for those; see `c20_nonce_partial`.) -/
theorem c20_nonce_changed (h : Accepted H n U w) (T : TablesOK w U)
    (hne : oldValue ≠ 0 ∨ newValue ≠ 0)
    (hx : Exposes w U .NonceChanged address slotRlc oldRootRlc newRootRlc oldValue newValue) :
    Backed H w U .NonceChanged address slotRlc oldRootRlc newRootRlc oldValue newValue
      (fun key oldRoot newRoot =>
        NonceUpdate (PR H w U) key oldRoot newRoot oldValue newValue ∨
        NonceCreation (PR H w U) H key oldRoot newRoot oldValue newValue) := by
  refine backed_of_run h T hx ?_
  rintro s e R ht - rfl rfl
  rcases R.nonce_sound T ht with h1 | h1 | h1 | ⟨h1, h2, _⟩
  · have := h1.old; have := h1.new; tauto
  · exact .inl h1
  · exact .inr h1
  · tauto

/-- C20 without the restriction. What is missing from C20: claims `0 → 0` may be backed by
`PushedDown` (the root moves although nothing changes). -/
theorem c20_nonce_partial (h : Accepted H n U w) (T : TablesOK w U)
    (hx : Exposes w U .NonceChanged address slotRlc oldRootRlc newRootRlc oldValue newValue) :
    Backed H w U .NonceChanged address slotRlc oldRootRlc newRootRlc oldValue newValue
      (fun key oldRoot newRoot =>
        NothingThere (PR H w U) key oldRoot newRoot oldValue newValue ∨
        NonceUpdate (PR H w U) key oldRoot newRoot oldValue newValue ∨
        NonceCreation (PR H w U) H key oldRoot newRoot oldValue newValue ∨
        (oldValue = 0 ∧ newValue = 0 ∧ PushedDown (PR H w U) key oldRoot newRoot)) := by
  refine backed_of_run h T hx ?_
  rintro s e R ht - rfl rfl
  exact R.nonce_sound T ht

/-- C21 for claims that do not say `0 → 0`. -/
theorem c21_balance_changed (h : Accepted H n U w) (T : TablesOK w U)
    (hne : oldValue ≠ 0 ∨ newValue ≠ 0)
    (hx : Exposes w U .BalanceChanged address slotRlc oldRootRlc newRootRlc oldValue newValue) :
    Backed H w U .BalanceChanged address slotRlc oldRootRlc newRootRlc oldValue newValue
      (fun key oldRoot newRoot =>
        BalanceUpdate (PR H w U) w.chal key oldRoot newRoot oldValue newValue ∨
        BalanceCreation (PR H w U) w.chal H key oldRoot newRoot oldValue newValue) := by
  refine backed_of_run h T hx ?_
  rintro s e R ht - rfl rfl
  rcases R.balance_sound T ht with h1 | h1 | h1 | ⟨h1, h2, _⟩
  · have := h1.old; have := h1.new; tauto
  · exact .inl h1
  · exact .inr h1
  · tauto

/-- C21 without the restriction; missing: as for C20. -/
theorem c21_balance_partial (h : Accepted H n U w) (T : TablesOK w U)
    (hx : Exposes w U .BalanceChanged address slotRlc oldRootRlc newRootRlc oldValue newValue) :
    Backed H w U .BalanceChanged address slotRlc oldRootRlc newRootRlc oldValue newValue
      (fun key oldRoot newRoot =>
        NothingThere (PR H w U) key oldRoot newRoot oldValue newValue ∨
        BalanceUpdate (PR H w U) w.chal key oldRoot newRoot oldValue newValue ∨
        BalanceCreation (PR H w U) w.chal H key oldRoot newRoot oldValue newValue ∨
        (oldValue = 0 ∧ newValue = 0 ∧ PushedDown (PR H w U) key oldRoot newRoot)) := by
  refine backed_of_run h T hx ?_
  rintro s e R ht - rfl rfl
  exact R.balance_sound T ht

/-- C22. -/
theorem c22_code_size (h : Accepted H n U w) (T : TablesOK w U)
    (hx : Exposes w U .CodeSizeExists address slotRlc oldRootRlc newRootRlc oldValue newValue) :
    Backed H w U .CodeSizeExists address slotRlc oldRootRlc newRootRlc oldValue newValue
      (fun key oldRoot newRoot =>
        NothingThere (PR H w U) key oldRoot newRoot oldValue newValue ∨
        CodeSizeUpdate (PR H w U) key oldRoot newRoot oldValue newValue) := by
  refine backed_of_run h T hx ?_
  rintro s e R ht - rfl rfl
  exact R.codeSize_sound T ht

/-- C23. -/
theorem c23_code_hash (h : Accepted H n U w) (T : TablesOK w U)
    (hx : Exposes w U .CodeHashExists address slotRlc oldRootRlc newRootRlc oldValue newValue) :
    Backed H w U .CodeHashExists address slotRlc oldRootRlc newRootRlc oldValue newValue
      (fun key oldRoot newRoot =>
        NothingThere (PR H w U) key oldRoot newRoot oldValue newValue ∨
        CodeHashUpdate (PR H w U) w.chal key oldRoot newRoot oldValue newValue) := by
  refine backed_of_run h T hx ?_
  rintro s e R ht - rfl rfl
  exact R.codeHash_sound T ht

/-- C24. -/
theorem c24_poseidon_code_hash (h : Accepted H n U w) (T : TablesOK w U)
    (hx : Exposes w U .PoseidonCodeHashExists address slotRlc oldRootRlc newRootRlc oldValue
      newValue) :
    Backed H w U .PoseidonCodeHashExists address slotRlc oldRootRlc newRootRlc oldValue newValue
      (fun key oldRoot newRoot =>
        PoseidonCodeHashUpdate (PR H w U) key oldRoot newRoot oldValue newValue) := by
  refine backed_of_run h T hx ?_
  rintro s e R ht - rfl rfl
  exact R.poseidonCodeHash_sound T ht

/-- C25: a StorageChanged claim whose two values are non-zero is a change of an existing slot. -/
theorem c25_storage_update (h : Accepted H n U w) (T : TablesOK w U)
    (ho : oldValue ≠ 0) (hn : newValue ≠ 0)
    (hx : Exposes w U .StorageChanged address slotRlc oldRootRlc newRootRlc oldValue newValue) :
    Backed H w U .StorageChanged address slotRlc oldRootRlc newRootRlc oldValue newValue
      (fun key oldRoot newRoot => ∃ slot storageOld storageNew,
        IsSlot (PR H w U) w.chal slot slotRlc ∧
        StorageRootUpdate (PR H w U) key oldRoot newRoot storageOld storageNew ∧
        SlotUpdate (PR H w U) w.chal slot storageOld storageNew oldValue newValue) := by
  refine backed_of_run h T hx ?_
  rintro s e R ht rfl rfl rfl
  obtain ⟨slot, hc⟩ := R.storage_sound T ht
  cases hc with
  | update a b h1 h2 h3 => exact ⟨slot, a, b, h1, h2, h3⟩
  | insertion a b h1 h2 h3 => cases h3; contradiction
  | deletion a b h1 h2 h3 => cases h3; contradiction
  | creation h1 h2 => cases h2; contradiction

/-- C26, what holds: a StorageChanged claim is a change, an insertion or a deletion of a slot, or
the creation of an account with a slot; for the last three one exposed value is 0, but the other one
is not bound to the leaf. Missing: that binding (see `Verif.Props.Negative`). -/
theorem c26_storage_partial (h : Accepted H n U w) (T : TablesOK w U)
    (hx : Exposes w U .StorageChanged address slotRlc oldRootRlc newRootRlc oldValue newValue) :
    Backed H w U .StorageChanged address slotRlc oldRootRlc newRootRlc oldValue newValue
      (fun key oldRoot newRoot => ∃ slot,
        StorageClaim (PR H w U) w.chal (zeroPairHash H) key slot slotRlc oldRoot newRoot oldValue
          newValue) := by
  refine backed_of_run h T hx ?_
  rintro s e R ht rfl rfl rfl
  exact R.storage_sound T ht

/-- C27 (path level; the trie level is `c27_absent_from_trie`). -/
theorem c27_account_does_not_exist (h : Accepted H n U w) (T : TablesOK w U)
    (hx : Exposes w U .AccountDoesNotExist address slotRlc oldRootRlc newRootRlc oldValue
      newValue) :
    Backed H w U .AccountDoesNotExist address slotRlc oldRootRlc newRootRlc oldValue newValue
      (fun key oldRoot newRoot =>
        NothingThere (PR H w U) key oldRoot newRoot oldValue newValue) := by
  refine backed_of_run h T hx ?_
  rintro s e R ht - rfl rfl
  exact R.emptyAccount_sound T ht

/-- C28. -/
theorem c28_storage_does_not_exist (h : Accepted H n U w) (T : TablesOK w U)
    (hx : Exposes w U .StorageDoesNotExist address slotRlc oldRootRlc newRootRlc oldValue
      newValue) :
    Backed H w U .StorageDoesNotExist address slotRlc oldRootRlc newRootRlc oldValue newValue
      (fun key oldRoot newRoot => oldValue = 0 ∧ newValue = 0 ∧ oldRoot = newRoot ∧
        (EmptyPath (PR H w U) key oldRoot ∨
          ∃ slot, IsSlot (PR H w U) w.chal slot slotRlc ∧
            NoSlot (PR H w U) key slot oldRoot)) := by
  refine backed_of_run h T hx ?_
  rintro s e R ht rfl rfl rfl
  exact R.emptyStorage_sound T ht

/-- C29: no claim has type AccountDestructed. -/
theorem c29_no_destructed (h : Accepted H n U w) (T : TablesOK w U) :
    ¬ Exposes w U .AccountDestructed address slotRlc oldRootRlc newRootRlc oldValue newValue := by
  intro hx
  rcases hx.run h T with hd | ⟨s, e, a, R, h1, _⟩
  · rcases hd.1 with h | h <;> cases h
  · exact R.not_destructed h1

/-- C29: claims of the two non-existence types do not move the root. (Code-size and code-hash claims on an empty
path do not either: `c22_code_size`, `c23_code_hash`.) Missing: nonce and balance claims `0 → 0` may move it. -/
theorem c29_read_only_partial (h : Accepted H n U w) (T : TablesOK w U)
    (ht : t = .AccountDoesNotExist ∨ t = .StorageDoesNotExist)
    (hx : Exposes w U t address slotRlc oldRootRlc newRootRlc oldValue newValue) :
    oldRootRlc = newRootRlc ∧ oldValue = 0 ∧ newValue = 0 := by
  rcases ht with rfl | rfl
  · rcases c27_account_does_not_exist h T hx with hd | ⟨a, key, o, n, _, _, h1, h2, h3⟩
    · obtain ⟨_, _, _, h1, h2, h3, h4⟩ := hd
      exact ⟨h1.trans h2.symm, h3, h4⟩
    · exact ⟨by rw [h1, h2, h3.roots], h3.old, h3.new⟩
  · rcases c28_storage_does_not_exist h T hx with hd | ⟨a, key, o, n, _, _, h1, h2, h3⟩
    · obtain ⟨_, _, _, h1, h2, h3, h4⟩ := hd
      exact ⟨h1.trans h2.symm, h3, h4⟩
    · exact ⟨by rw [h1, h2, h3.2.2.1], h3.1, h3.2.1⟩

end Mpt.Props
