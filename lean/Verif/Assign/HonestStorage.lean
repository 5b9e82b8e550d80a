import Verif.Assign.HonestUpdate

set_option autoImplicit false

/-!
# Completeness (C35): storage changes, the rows after the first three leaf rows
-/

namespace Mpt
open Spec MptUpdate Types Requests Props

variable {H : HashFn} {w : Witness Fr} {U : ℕ}

/-! ## Requests served -/

/-- Hashes of the storage part. -/
theorem serves_storage {ρ : Fr} {p : Proof} (hS : Serves H w U ρ p) :
    ∃ l, p.storage.poseidonLookups H = some l ∧ ∀ e ∈ l, P1 w U e.1 e.2.1 e.2.2.1.toFr e.2.2.2 := by
  obtain ⟨es, q1, q2⟩ := hS.hash
  obtain ⟨a, -, q0⟩ := Option.bind_eq_some_iff.1 q1
  obtain ⟨b, hb, q⟩ := Option.bind_eq_some_iff.1 q0
  cases q
  refine ⟨b, hb, fun e he => ?_⟩
  exact q2 (toEntry e) (List.mem_append_left _ (List.mem_append_left _ (List.mem_append_left _
    (List.mem_append_left _ (List.mem_append_left _ (List.mem_append_right _
      (List.mem_map.2 ⟨e, he, rfl⟩)))))))

/-- What a storage proof needs is served. -/
structure StorageServed (H : HashFn) (w : Witness Fr) (U : ℕ) (sk : ℕ) (key ok : Fr) (rows : List TrieRow)
    (old new : StorageLeaf) : Prop where
  slot : P1 w U (((u256HiLo sk).1 : ℕ) : Fr) (((u256HiLo sk).2 : ℕ) : Fr) HashDomain.Pair.toFr key
  rows : RowsServed H w U key ok 0 rows
  old : ∀ e ∈ old.poseidonLookups H, P1 w U e.1 e.2.1 e.2.2.1.toFr e.2.2.2
  new : ∀ e ∈ new.poseidonLookups H, P1 w U e.1 e.2.1 e.2.2.1.toFr e.2.2.2

theorem storageServed_of {ρ : Fr} {p : Proof} (hS : Serves H w U ρ p) {sk : ℕ} {key : Fr}
    {rows : List TrieRow} {old new : StorageLeaf} (hst : p.storage = .Update sk key rows old new)
    {ok : Fr} (hok : ok = if key = old.key H then new.key H else old.key H)
    (hstart : ∀ row ∈ rows, row.pathType ≠ .Start) :
    StorageServed H w U sk key ok rows old new := by
  obtain ⟨l, h1, h2⟩ := serves_storage hS
  rw [hst] at h1
  obtain ⟨t, ht, h1a⟩ := Option.bind_eq_some_iff.1 h1
  cases h1a
  obtain ⟨bs, b1, b2⟩ := hS.bit
  obtain ⟨c, c1, c2⟩ := Option.bind_eq_some_iff.1 b1
  cases c2
  have hB : ∀ x ∈ trieKeyBitLookups key ok rows, InKeyBit w U x.1 ((x.2.1 : ℕ) : Fr) (bitFr x.2.2) := by
    intro x hx
    refine b2 x (List.mem_append_right _ ?_)
    rw [hst, hok] at *; exact hx
  refine ⟨h2 _ List.mem_cons_self, ?_, fun e he => ?_, fun e he => ?_⟩
  · have hP : ∀ e ∈ t, P1 w U e.1 e.2.1 e.2.2.1.toFr e.2.2.2 := fun e he =>
      h2 e (List.mem_cons_of_mem _ (List.mem_append_left _ (List.mem_append_left _ he)))
    clear h1 h2 b1 b2 c1 hst
    unfold trieKeyBitLookups at hB
    revert hB
    generalize (0 : ℕ) = i
    intro hB
    induction rows generalizing i t with
    | nil => trivial
    | cons row rows ih =>
      rw [triePoseidonLookups] at ht
      obtain ⟨a1, x1, ht0⟩ := Option.bind_eq_some_iff.1 ht
      obtain ⟨a2, x2, ht1⟩ := Option.bind_eq_some_iff.1 ht0
      cases ht1
      rw [trieKeyBitLookupsFrom] at hB
      have hkb : InKeyBit w U key (i : Fr) (bitFr row.direction) ∧
          (row.pathType = .Common → InKeyBit w U ok (i : Fr) (bitFr row.direction)) := by
        cases hp : row.pathType with
        | Start => exact absurd hp (hstart row (by simp))
        | Common =>
          rw [hp] at hB
          exact ⟨hB (key, i, row.direction) (by simp), fun _ => hB (ok, i, row.direction) (by simp)⟩
        | ExtensionNew =>
          rw [hp] at hB
          exact ⟨hB (key, i, row.direction) (by simp), fun h => by cases h⟩
        | ExtensionOld =>
          rw [hp] at hB
          exact ⟨hB (key, i, row.direction) (by simp), fun h => by cases h⟩
      refine ⟨hkb.1, hkb.2, ?_, ?_⟩
      · intro l hl e he
        rw [x1] at hl
        cases hl
        exact hP e (List.mem_append_left _ he)
      · exact ih (fun row' hm => hstart row' (List.mem_cons_of_mem _ hm)) a2 x2
          (fun e he => hP e (List.mem_append_right _ he)) (i + 1)
          (fun x hx => hB x (List.mem_append_right _ hx))
  · exact h2 e (List.mem_cons_of_mem _ (List.mem_append_left _ (List.mem_append_right _ he)))
  · exact h2 e (List.mem_cons_of_mem _ (List.mem_append_right _ he))

/-! ## The last account leaf row, storage trie rows, and what follows -/

/-- **The rows from the last account leaf row on.** -/
theorem rowsOK_storage {key ok s3 so sn : Fr} {leafP : PathType} {t : MPTProofType} {slot old new : Fr}
    {e prev : URow} {us tail : List URow} {rows : List TrieRow}
    (ht : t = .StorageChanged ∨ (t = .StorageDoesNotExist ∧ tail = [] ∧ old = 0 ∧ new = 0))
    (htail : (tail = [] ∧ leafP = .Start ∧ t = .StorageDoesNotExist) ∨
      ((tail.headD .blank).seg = .StorageLeaf0 ∧ leafP ≠ .Start))
    (hLP : (tail.headD .blank).path = leafP)
    (hnew : leafP = .ExtensionNew → old = 0) (hold : leafP = .ExtensionOld → new = 0)
    (hnil : rows = [] → (leafP = .ExtensionNew → so = 0) ∧ (leafP = .ExtensionOld → sn = 0))
    (hcp : Claims t slot old new prev) (hce : Claims t slot old new e)
    (ie : IsLeaf key ok .Common .AccountLeaf3 .AccountFields s3 so sn false e)
    (hiv : e.iv 2 = HashDomain.AccountFields.toFr)
    (ne : Node w U .AccountFields false s3 so prev.oldHash ∧ Node w U .AccountFields false s3 sn prev.newHash)
    (hI : IsTries .StorageTrie key ok 0 rows us) (hH : RowsHonest H leafP (so, sn) rows)
    (hV : RowsServed H w U key ok 0 rows) (hcl : ∀ u ∈ us, Claims t slot old new u)
    (hmid : ∀ r' u, AtRow w r' u → u ∈ e :: us → ProofRel H w U r' u.seg .StorageTrie u.path t)
    (hend : ∀ r' u, AtRow w r' u → us.getLastD e = u →
      ProofRel H w U r' u.seg (tail.headD .blank).seg u.path t)
    {r : ℤ} (hp : AtRow w (r - 1) prev) (hat : AtRows w r (e :: (us ++ tail)))
    (hok : RowsOK H w U (r + 1 + us.length) (us.getLastD e) tail) :
    RowsOK H w U r prev (e :: (us ++ tail)) := by
  obtain ⟨qe, qr⟩ := hat
  have htr : ∃ l, transitions t .AccountLeaf3 = some l ∧ SegmentType.StorageTrie ∈ l ∧
      (tail.headD .blank).seg ∈ l := by
    rcases htail with ⟨rfl, -, rfl⟩ | ⟨h, -⟩
    · exact ⟨_, rfl, by simp, by simp [URow.blank]⟩
    · rw [h]
      rcases ht with rfl | ⟨rfl, rfl, -⟩
      · exact ⟨_, rfl, by simp, by simp⟩
      · simp [URow.blank] at h
  have htr' : ∃ l, transitions t .StorageTrie = some l ∧ SegmentType.StorageTrie ∈ l ∧
      (tail.headD .blank).seg ∈ l := by
    rcases htail with ⟨rfl, -, rfl⟩ | ⟨h, -⟩
    · exact ⟨_, rfl, by simp, by simp [URow.blank]⟩
    · rw [h]
      rcases ht with rfl | ⟨rfl, rfl, -⟩
      · exact ⟨_, rfl, by simp, by simp⟩
      · simp [URow.blank] at h
  have hh : CommonHashes w U prev e false HashDomain.AccountFields.toFr HashDomain.AccountFields.toFr := by
    unfold CommonHashes
    rw [ie.sibling, ie.oldHash, ie.newHash]; exact ne
  have hne : e.seg ≠ .Start ∧ e.seg ≠ .AccountTrie ∧ e.seg ≠ .StorageTrie := by rw [ie.seg]; simp
  have hdom : HashDomain.AccountFields ∈ domains e.seg := by rw [ie.seg]; simp [domains]
  have hk3 : e.seg ≠ .AccountLeaf3 → e.key = prev.key ∧ e.otherKey = prev.otherKey :=
    fun h => absurd ie.seg h
  have hsc := hcp.same hce
  refine ⟨?_, ?_⟩
  · cases us with
    | cons v us =>
      show RowRel H w U r e.seg v.seg prev.path e.path v.path prev.proof e.proof
      cases rows with
      | nil => exact absurd hI (by simp [IsTries])
      | cons row rows =>
        have hv := hI.1
        have htr3 : ∃ l, transitions e.proof e.seg = some l ∧ v.seg ∈ l := by
          obtain ⟨l, a1, a2, -⟩ := htr
          refine ⟨l, ?_, ?_⟩
          · rw [hce.proof, ie.seg]; exact a1
          · rw [hv.seg]; exact a2
        have hpr : ProofRel H w U r e.seg v.seg .Common e.proof := by
          have := hmid r e qe (by simp)
          rw [ie.path] at this
          rw [hv.seg, hce.proof]; exact this
        have hrp := (rowsHonest_path _ _ hH row (by simp)).1
        cases hq : row.pathType with
        | Start => exact absurd hq hrp
        | Common =>
          exact rowRel_leaf_common qe hp hne ie.path (.inl (by rw [hv.path, hq])) hsc hk3 ie.depth
            ie.direction hdom ie.domain hh htr3 hpr
        | ExtensionNew =>
          exact rowRel_leaf_common_extend qe hp hne ie.path (.inr hv.seg)
            (.inl (by rw [hv.path, hq])) hsc hk3 ie.depth ie.direction hdom ie.domain hiv hh htr3 hpr
        | ExtensionOld =>
          exact rowRel_leaf_common_extend qe hp hne ie.path (.inr hv.seg)
            (.inr (by rw [hv.path, hq])) hsc hk3 ie.depth ie.direction hdom ie.domain hiv hh htr3 hpr
    | nil =>
      have hrows : rows = [] := List.length_eq_zero_iff.1 (by simpa using (isTries_length _ _ _ hI).symm)
      show RowRel H w U r e.seg (tail.headD .blank).seg prev.path e.path (tail.headD .blank).path
        prev.proof e.proof
      have htr3 : ∃ l, transitions e.proof e.seg = some l ∧ (tail.headD .blank).seg ∈ l := by
        obtain ⟨l, a1, -, a2⟩ := htr
        exact ⟨l, by rw [hce.proof, ie.seg]; exact a1, a2⟩
      have hpr : ProofRel H w U r e.seg (tail.headD .blank).seg .Common e.proof := by
        have := hend r e qe rfl
        rw [ie.path] at this
        rw [hce.proof]; exact this
      rw [hLP]
      have hleaf : leafP = .ExtensionNew ∨ leafP = .ExtensionOld →
          (tail.headD .blank).seg = .StorageLeaf0 := by
        intro h
        rcases htail with ⟨-, h', -⟩ | ⟨h', -⟩
        · rcases h with h | h <;> rw [h'] at h <;> cases h
        · exact h'
      cases hq : leafP with
      | Start =>
        exact rowRel_leaf_common qe hp hne ie.path (.inr rfl) hsc hk3 ie.depth ie.direction hdom
          ie.domain hh htr3 hpr
      | Common =>
        exact rowRel_leaf_common qe hp hne ie.path (.inl rfl) hsc hk3 ie.depth ie.direction hdom
          ie.domain hh htr3 hpr
      | ExtensionNew =>
        exact rowRel_leaf_common_insert qe hp hne ie.path (.inr (hleaf (.inl hq))) hsc hk3 ie.depth
          ie.direction hdom ie.domain (.inr (.inr (.inr rfl))) hh
          (by rw [ie.oldHash]; exact (hnil hrows).1 hq) htr3 hpr
      | ExtensionOld =>
        exact rowRel_leaf_common_delete qe hp hne ie.path (.inr (hleaf (.inr hq))) hsc hk3 ie.depth
          ie.direction hdom ie.domain (.inr (.inr (.inr rfl))) hh
          (by rw [ie.newHash]; exact (hnil hrows).2 hq) htr3 hpr
  · have hleaf : leafP = .ExtensionNew ∨ leafP = .ExtensionOld →
        (tail.headD .blank).seg = .StorageLeaf0 ∧ t = .StorageChanged := by
      intro h
      rcases htail with ⟨-, h', -⟩ | ⟨h', -⟩
      · rcases h with h | h <;> rw [h'] at h <;> cases h
      · refine ⟨h', ?_⟩
        rcases ht with h1 | ⟨-, h1, -⟩
        · exact h1
        · rw [h1] at h'; simp [URow.blank] at h'
    refine rowsOK_trie (.inr rfl) (old := old) (new := new) (slot := slot) (t := t) hLP
      (fun h => by rw [(hleaf h).1]; simp)
      (fun h => ⟨by rw [(hleaf (.inl h)).2]; simp, hnew h⟩)
      (fun h => ⟨(hleaf (.inr h)).2, hold h, rfl, (hleaf (.inr h)).1⟩) htr'
      rows us 0 (r + 1) e (so, sn) hI hH hV qe.shift qr (by rw [ie.depth]; simp) ie.key ie.otherKey
      ie.oldHash ie.newHash ?_ ?_ ?_ hok
    · intro u hu
      have : Claims t slot old new u := by
        rcases List.mem_cons.1 hu with rfl | h
        · exact hce
        · exact hcl u h
      exact ⟨this.proof, this.slot, this.old, this.new⟩
    · intro r' u hu hm
      obtain ⟨row, -, e1, -⟩ := isTries_mem _ _ _ u hI hm
      have := hmid r' u hu (by simp [hm])
      rwa [e1] at this
    · intro r' u hu hl
      obtain ⟨row, -, e1, -⟩ := isTries_last _ _ _ u hI hl
      have := hend r' u hu (by simp [List.getLastD_eq_getLast?, hl])
      rwa [e1] at this

end Mpt
