import Verif.ClaimsStorage

set_option autoImplicit false

/-!
# The shape of a run (C17)
-/

namespace Mpt
open Spec MptUpdate

variable {H : HashFn} {n U : ℕ} {w : Witness Fr} {s e r : ℤ}

namespace Spec

/-- The four rows of an account leaf. /repo/src/gadgets/mpt_update/segment.rs:19-141. -/
def leafRows : List SegmentType := [.AccountLeaf0, .AccountLeaf1, .AccountLeaf2, .AccountLeaf3]

/-- The segment types of the rows of one update, after the Start row and the account-trie rows;
`k` is the number of storage-trie rows. /repo/src/gadgets/mpt_update/segment.rs:19-141. -/
def AllowedTail (t : MPTProofType) (k : ℕ) (tail : List SegmentType) : Prop :=
  match t with
  | .NonceChanged | .BalanceChanged | .CodeSizeExists | .CodeHashExists =>
      k = 0 ∧ (tail = [] ∨ tail = leafRows)
  | .PoseidonCodeHashExists => k = 0 ∧ tail = [.AccountLeaf0, .AccountLeaf1]
  | .AccountDoesNotExist => k = 0 ∧ tail = []
  | .StorageChanged => tail = leafRows ++ List.replicate k .StorageTrie ++ [.StorageLeaf0]
  | .StorageDoesNotExist => (k = 0 ∧ tail = []) ∨ tail = leafRows ++ List.replicate k .StorageTrie
  | .AccountDestructed => False

/-- The depth column of one update: 0 on the Start row, `1..m` on the account-trie rows, 0 on leaf
rows, `1..k` on the storage-trie rows. For /repo/src/gadgets/mpt_update.rs:108-346. -/
def depthOf : List SegmentType → ℕ → List ℕ
  | [], _ => []
  | .AccountTrie :: l, d => (d + 1) :: depthOf l (d + 1)
  | .StorageTrie :: l, d => (d + 1) :: depthOf l (d + 1)
  | _ :: l, _ => 0 :: depthOf l 0

end Spec

/-- The list `f s, f (s+1), .., f (e-1)`. For /repo/src/gadgets/mpt_update/segment.rs:19-141. -/
def rowsOf {α : Type} (f : ℤ → α) (s e : ℤ) : List α :=
  (List.range (e - s).toNat).map (fun j => f (s + (j : ℕ)))

theorem rowsOf_nil {α : Type} (f : ℤ → α) (s : ℤ) : rowsOf f s s = [] := by simp [rowsOf]

theorem rowsOf_cons {α : Type} (f : ℤ → α) {s e : ℤ} (h : s < e) :
    rowsOf f s e = f s :: rowsOf f (s + 1) e := by
  obtain ⟨k, hk⟩ : ∃ k : ℕ, (e - s).toNat = k + 1 := ⟨(e - s).toNat - 1, by omega⟩
  have h2 : (e - (s + 1)).toNat = k := by omega
  rw [rowsOf, rowsOf, hk, h2, List.range_succ_eq_map]
  simp only [List.map_cons, List.map_map, Nat.cast_zero, add_zero]
  congr 1
  apply List.map_congr_left
  intro j _
  simp only [Function.comp]
  congr 1
  push_cast; ring

theorem rowsOf_append {α : Type} (f : ℤ → α) {s m e : ℤ} (h1 : s ≤ m) (h2 : m ≤ e) :
    rowsOf f s e = rowsOf f s m ++ rowsOf f m e := by
  obtain ⟨k, rfl⟩ : ∃ k : ℕ, m = s + k := ⟨(m - s).toNat, by omega⟩
  clear h1
  induction k generalizing s with
  | zero => simp [rowsOf_nil]
  | succ k ih =>
    push_cast at h2 ⊢
    rw [rowsOf_cons f (by omega : s < e), rowsOf_cons f (by omega : s < s + (↑k + 1))]
    have := @ih (s + 1) (by omega)
    rw [show s + 1 + (k : ℤ) = s + (k + 1) by ring] at this
    rw [List.cons_append, ← this]

theorem rowsOf_replicate {α : Type} (f : ℤ → α) (s : ℤ) (m : ℕ) (x : α)
    (h : ∀ j < m, f (s + (j : ℕ)) = x) : rowsOf f s (s + m) = List.replicate m x := by
  rw [rowsOf, List.eq_replicate_iff]
  simp only [add_sub_cancel_left, Int.toNat_natCast, List.length_map, List.length_range,
    List.mem_map, List.mem_range, forall_exists_index, and_imp, true_and]
  rintro b j hj rfl
  exact h j hj

namespace Run

theorem rows_leaf4 {a : ℤ} (L : Leaf4 w e a) : rowsOf (segAt w) a (a + 4) = leafRows := by
  rw [rowsOf_cons _ (by omega), rowsOf_cons _ (by omega), rowsOf_cons _ (by omega),
    rowsOf_cons _ (by omega), show a + 1 + 1 + 1 + 1 = a + 4 by ring, rowsOf_nil,
    show a + 1 + 1 + 1 = a + 3 by ring, show a + 1 + 1 = a + 2 by ring, L.l0, L.l1, L.l2, L.l3]
  rfl

/-- C17, segments: the rows of an update are Start, account-trie rows, and one of the tails allowed
for the proof type. -/
theorem segments (R : Run H n U w s e) : ∃ (m k : ℕ) (tail : List SegmentType),
    rowsOf (segAt w) s e = .Start :: List.replicate m .AccountTrie ++ tail ∧
    AllowedTail (proofAt w s) k tail := by
  obtain ⟨m, h1, h2, h3⟩ := R.acct
  have hhead : rowsOf (segAt w) s (s + m + 1) = .Start :: List.replicate m .AccountTrie := by
    rw [rowsOf_cons _ (by omega), R.start, show s + (m : ℤ) + 1 = s + 1 + m by ring,
      rowsOf_replicate _ _ _ .AccountTrie]
    intro j hj
    rw [← h2 j hj]; congr 1; ring
  have hall : rowsOf (segAt w) s e =
      (.Start :: List.replicate m .AccountTrie) ++ rowsOf (segAt w) (s + m + 1) e := by
    rw [rowsOf_append _ (show s ≤ s + m + 1 by omega) (by omega), hhead]
  refine ⟨m, ?_⟩
  rw [hall]
  have hsegm : segAt w (s + m) = .Start ∨ segAt w (s + m) = .AccountTrie := R.seg_end m h1 h2
  have hnext := R.next (r := s + m) (by omega) h1
  rcases h3 with ⟨h3, hst⟩ | ⟨h3, hl⟩
  · refine ⟨0, [], by rw [h3, rowsOf_nil], ?_⟩
    obtain ⟨l, hl, hmem⟩ := hnext
    rw [hst] at hmem
    generalize proofAt w s = t at hl
    rcases hsegm with h | h <;> rw [h] at hl <;> cases t <;> simp only [transitions] at hl <;>
      cases hl <;> simp [AllowedTail] at hmem ⊢
  · by_cases hp : proofAt w s = .PoseidonCodeHashExists
    · obtain ⟨k1, k2⟩ := R.al0_next (a := s + m + 1) (by omega) h3 hl
      have hst : segAt w (s + m + 1 + 1 + 1) = .Start := by
        obtain ⟨l, hl, hmem⟩ := R.next (r := s + m + 1 + 1) (by omega) k1
        rw [hp, k2] at hl
        cases hl
        simpa using hmem
      have he := (R.start_next_iff (r := s + m + 1 + 1) (by omega) k1).1 hst
      refine ⟨0, [.AccountLeaf0, .AccountLeaf1], ?_, by rw [hp]; exact ⟨rfl, rfl⟩⟩
      rw [rowsOf_cons _ h3, rowsOf_cons _ k1, he, rowsOf_nil, hl, k2]
    · have L := R.leaf4 (a := s + m + 1) (by omega) h3 hl hp
      have hlt := L.lt
      generalize hadef : s + (m : ℤ) + 1 = a at *
      have hsplit : rowsOf (segAt w) a e = leafRows ++ rowsOf (segAt w) (a + 4) e := by
        rw [rowsOf_append _ (show a ≤ a + 4 by omega) (by omega), rows_leaf4 L]
      by_cases hS : proofAt w s = .StorageChanged ∨ proofAt w s = .StorageDoesNotExist
      · obtain ⟨k, b1, b2, b3, b4, b5⟩ := R.storage_block (a + 3) (by omega) (by omega) L.l3
        have hrep : rowsOf (segAt w) (a + 4) (a + 4 + k) = List.replicate k .StorageTrie := by
          apply rowsOf_replicate
          intro j hj
          rw [← b2 j hj]; congr 1; ring
        rcases hS with hS | hS
        · obtain ⟨c1, c2⟩ := b4 hS
          have hst : segAt w (a + 3 + k + 1 + 1) = .Start := by
            obtain ⟨l, hl, hmem⟩ := R.next (r := a + 3 + k + 1) (by omega) c1
            rw [hS, c2] at hl
            cases hl
            simpa using hmem
          have he := (R.start_next_iff (r := a + 3 + k + 1) (by omega) c1).1 hst
          refine ⟨k, leafRows ++ List.replicate k .StorageTrie ++ [.StorageLeaf0], ?_, ?_⟩
          · rw [hsplit, rowsOf_append _ (show a + 4 ≤ a + 4 + k by omega) (by omega), hrep,
              show a + 4 + (k : ℤ) = a + 3 + k + 1 by ring, rowsOf_cons _ c1, he, rowsOf_nil, c2]
            simp
          · rw [hS]; rfl
        · obtain ⟨c1, c2⟩ := b5 hS
          refine ⟨k, leafRows ++ List.replicate k .StorageTrie, ?_, ?_⟩
          · rw [hsplit, ← c1, show a + 3 + (k : ℤ) + 1 = a + 4 + k by ring, hrep]
          · rw [hS]; exact .inr rfl
      · push Not at hS
        have hst : segAt w (a + 3 + 1) = .Start := by
          obtain ⟨l, hl, hmem⟩ := R.next (r := a + 3) (by omega) L.lt
          rw [L.l3] at hl
          obtain ⟨hS1, hS2⟩ := hS
          generalize proofAt w s = t at *
          cases t <;> simp only [transitions] at hl <;> first
            | (exact absurd rfl hS1)
            | (exact absurd rfl hS2)
            | (cases hl <;> simpa using hmem)
        have he := (R.start_next_iff (r := a + 3) (by omega) L.lt).1 hst
        refine ⟨0, leafRows, by rw [hsplit, ← he, show a + 3 + 1 = a + 4 by ring, rowsOf_nil]; simp, ?_⟩
        obtain ⟨l, hl', hmem⟩ := hnext
        rw [hl] at hmem
        obtain ⟨hS1, hS2⟩ := hS
        have hd := R.not_destructed
        generalize proofAt w s = t at *
        rcases hsegm with h | h <;> rw [h] at hl' <;> cases t <;> simp only [transitions] at hl' <;>
          first
            | (exact absurd rfl hS1)
            | (exact absurd rfl hS2)
            | (exact absurd rfl hp)
            | (exact absurd rfl hd)
            | (cases hl'; simp at hmem; done)
            | (exact ⟨rfl, .inr rfl⟩)

/-- C17, depths. -/
theorem depths (R : Run H n U w s e) : rowsOf (w.adv .depth) s e =
    (depthOf (rowsOf (segAt w) s e) 0).map (fun d : ℕ => (d : Fr)) := by
  have key : ∀ (k : ℕ) (a : ℤ) (d : ℕ), a + k = e → s ≤ a →
      ((segAt w a = .AccountTrie ∨ segAt w a = .StorageTrie) → w.adv .depth (a - 1) = (d : Fr)) →
      rowsOf (w.adv .depth) a e = (depthOf (rowsOf (segAt w) a e) d).map (fun d : ℕ => (d : Fr)) := by
    intro k
    induction k with
    | zero =>
      intro a d h1 h2 h3
      have : a = e := by simpa using h1
      subst this
      simp [rowsOf_nil, depthOf]
    | succ k ih =>
      intro a d h1 h2 h3
      have hlt : a < e := by push_cast at h1; omega
      have hr := (R.row h2 hlt).common
      rw [rowsOf_cons _ hlt, rowsOf_cons _ hlt]
      by_cases ht : segAt w a = .AccountTrie ∨ segAt w a = .StorageTrie
      · have hd : w.adv .depth a = ((d + 1 : ℕ) : Fr) := by
          rw [(hr.trie ht).2.1, h3 ht]; push_cast; ring
        have := ih (a + 1) (d + 1) (by push_cast at h1; omega) (by omega)
          (fun _ => by rw [add_sub_cancel_right]; exact hd)
        rcases ht with ht | ht <;> rw [ht] <;> simp [depthOf, this, hd]
      · push Not at ht
        have hd : w.adv .depth a = ((0 : ℕ) : Fr) := by
          rw [hr.notTrie ht.1 ht.2]; simp
        have := ih (a + 1) 0 (by push_cast at h1; omega) (by omega)
          (fun _ => by rw [add_sub_cancel_right]; exact hd)
        generalize segAt w a = x at *
        cases x <;> first
          | (exact absurd rfl ht.1)
          | (exact absurd rfl ht.2)
          | simp [depthOf, this, hd]
  have hlt := R.lt
  exact key (e - s).toNat s 0 (by omega) le_rfl (by rw [R.start]; simp)

/-- C17, path types: Common rows, then rows of one kind of extension. -/
theorem pathTypes (R : Run H n U w s e) : ∃ (a b : ℕ) (x : PathType),
    (x = .ExtensionOld ∨ x = .ExtensionNew) ∧
    rowsOf (pathAt w) s e = .Start :: List.replicate a .Common ++ List.replicate b x := by
  have ext : ∀ (x : PathType), (x = .ExtensionOld ∨ x = .ExtensionNew) → ∀ (k : ℕ) (a : ℤ),
      a + k = e → s < a → (k ≠ 0 → pathAt w a = x) →
      rowsOf (pathAt w) a e = List.replicate k x := by
    intro x hx k
    induction k with
    | zero =>
      intro a h1 h2 h3
      have : a = e := by simpa using h1
      subst this; simp [rowsOf_nil]
    | succ k ih =>
      intro a h1 h2 h3
      push_cast at h1
      have hlt : a < e := by omega
      rw [rowsOf_cons _ hlt, h3 (by omega), List.replicate_succ, ih (a + 1) (by omega) (by omega)]
      intro hk
      have hn := (R.row (r := a) (by omega) hlt).pathNext
      rw [h3 (by omega)] at hn
      have hns := R.path_ne_start (r := a + 1) (by omega) (by omega)
      rcases hx with rfl | rfl <;>
      · simp [forwardTransitions, pathTransitions] at hn
        tauto
  have com : ∀ (k : ℕ) (a : ℤ), a + k = e → s < a →
      (k ≠ 0 → pathAt w a = .Common ∨ pathAt w a = .ExtensionOld ∨ pathAt w a = .ExtensionNew) →
      ∃ (i j : ℕ) (x : PathType), (x = .ExtensionOld ∨ x = .ExtensionNew) ∧
        rowsOf (pathAt w) a e = List.replicate i .Common ++ List.replicate j x := by
    intro k
    induction k with
    | zero =>
      intro a h1 h2 h3
      have : a = e := by simpa using h1
      subst this
      exact ⟨0, 0, .ExtensionOld, .inl rfl, by simp [rowsOf_nil]⟩
    | succ k ih =>
      intro a h1 h2 h3
      have h1' := h1
      push_cast at h1
      have hlt : a < e := by omega
      rcases h3 (by omega) with h | h | h
      · obtain ⟨i, j, x, hx, hh⟩ := ih (a + 1) (by omega) (by omega) (by
          intro hk
          have hn := (R.row (r := a) (by omega) hlt).pathNext
          rw [h] at hn
          have hns := R.path_ne_start (r := a + 1) (by omega) (by omega)
          simp [forwardTransitions, pathTransitions] at hn
          tauto)
        exact ⟨i + 1, j, x, hx, by rw [rowsOf_cons _ hlt, hh, h, List.replicate_succ,
          List.cons_append]⟩
      · exact ⟨0, k + 1, .ExtensionOld, .inl rfl, by
          rw [ext .ExtensionOld (.inl rfl) (k + 1) a h1' h2 (fun _ => h)]; simp⟩
      · exact ⟨0, k + 1, .ExtensionNew, .inr rfl, by
          rw [ext .ExtensionNew (.inr rfl) (k + 1) a h1' h2 (fun _ => h)]; simp⟩
  have hlt := R.lt
  obtain ⟨i, j, x, hx, hh⟩ := com (e - (s + 1)).toNat (s + 1) (by omega) (by omega) (by
    intro hk
    have hns := R.path_ne_start (r := s + 1) (by omega) (by omega)
    generalize pathAt w (s + 1) = y at *
    cases y <;> simp at hns ⊢)
  refine ⟨i, j, x, hx, ?_⟩
  rw [rowsOf_cons _ hlt, (R.path_start_iff le_rfl (by omega)).2 R.start, hh, List.cons_append]

end Run
end Mpt
