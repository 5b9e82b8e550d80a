import Verif.SegCases
import Verif.Spec.Claims

set_option autoImplicit false

/-!
# Account rows of a run
-/

namespace Mpt
open Spec MptUpdate

variable {H : HashFn} {n U : ℕ} {w : Witness Fr} {s e r a : ℤ}

namespace Run

/-- Account-trie block of a run, and what comes after it. -/
theorem acct (R : Run H n U w s e) : ∃ m : ℕ, s + m < e ∧
    (∀ j < m, segAt w (s + (j : ℕ) + 1) = .AccountTrie) ∧
    ((s + m + 1 = e ∧ segAt w (s + m + 1) = .Start) ∨
      (s + m + 1 < e ∧ segAt w (s + m + 1) = .AccountLeaf0)) := by
  obtain ⟨m, h1, h2, h3⟩ := R.block .AccountTrie (by decide) s le_rfl R.lt
  refine ⟨m, h1, h2, ?_⟩
  have hseg : segAt w (s + m) = .Start ∨ segAt w (s + m) = .AccountTrie := by
    rcases Nat.eq_zero_or_pos m with h | h
    · left; subst h; simpa using R.start
    · right
      have := h2 (m - 1) (by omega)
      rwa [show s + ((m - 1 : ℕ) : ℤ) + 1 = s + m by omega] at this
  obtain ⟨l, hl, hmem⟩ := R.next (r := s + m) (by omega) h1
  have hst := R.start_next_iff (r := s + m) (by omega) h1
  have : segAt w (s + m + 1) = .Start ∨ segAt w (s + m + 1) = .AccountLeaf0 := by
    generalize proofAt w s = t at hl
    generalize segAt w (s + m + 1) = x at *
    rcases hseg with h | h <;> rw [h] at hl <;> cases t <;> simp only [transitions] at hl <;>
      cases hl <;> simp at hmem <;> tauto
  rcases this with h | h
  · exact .inl ⟨hst.1 h, h⟩
  · refine .inr ⟨?_, h⟩
    by_contra hne
    have : segAt w (s + m + 1) = .Start := hst.2 (by omega)
    rw [h] at this; cases this

/-- Both nodes of a Common row that is followed by a Common row or the end of the run. -/
theorem common_nodes (R : Run H n U w s e) (h1 : s < r) (h2 : r < e) (hp : pathAt w r = .Common)
    (hn : pathAt w (r + 1) = .Common ∨ pathAt w (r + 1) = .Start) :
    NodeAt .oldHash w U r (w.adv .domain r) ∧ NodeAt .newHash w U r (w.adv .domain r) := by
  have h := (R.row (by omega) h2).path
  rcases hn with hn | hn <;> rw [hp, hn] at h <;> exact h

theorem extNew_rel (R : Run H n U w s e) (h1 : s < r) (h2 : r < e)
    (hp : pathAt w r = .ExtensionNew) :
    ExtNewRel w U r (segAt w r) (segAt w (r + 1)) (pathAt w (r - 1)) (proofAt w s) := by
  have h := (R.row (by omega) h2).path
  rw [hp, (R.keep' (r := r) (by omega) h2).1] at h
  exact h

theorem extOld_rel (R : Run H n U w s e) (h1 : s < r) (h2 : r < e)
    (hp : pathAt w r = .ExtensionOld) :
    ExtOldRel w U r (segAt w r) (segAt w (r + 1)) (proofAt w s) := by
  have h := (R.row (by omega) h2).path
  rw [hp, (R.keep' (r := r) (by omega) h2).1] at h
  exact h

/-- The path stays an insertion until the end of the run. -/
theorem extNew_next (R : Run H n U w s e) (h1 : s < r) (h2 : r + 1 < e)
    (hp : pathAt w r = .ExtensionNew) : pathAt w (r + 1) = .ExtensionNew := by
  have h := (R.row (r := r) (by omega) (by omega)).pathNext
  rw [hp] at h
  have hns := R.path_ne_start (r := r + 1) (by omega) h2
  simp only [forwardTransitions, pathTransitions, List.filter] at h
  simp at h
  tauto

theorem domain_eq (R : Run H n U w s e) (h1 : s ≤ r) (h2 : r < e) :
    (segAt w r = .AccountLeaf0 ∨ segAt w r = .StorageLeaf0 →
      w.adv .domain r = HashDomain.Leaf.toFr) ∧
    (segAt w r = .AccountLeaf1 ∨ segAt w r = .AccountLeaf2 ∨ segAt w r = .AccountLeaf3 →
      w.adv .domain r = HashDomain.AccountFields.toFr) := by
  obtain ⟨d, hd, he⟩ := (R.row h1 h2).domain
  constructor
  · rintro (h | h) <;> rw [h] at hd <;> simp [domains] at hd <;> rw [he, hd]
  · rintro (h | h | h) <;> rw [h] at hd <;> simp [domains] at hd <;> rw [he, hd]

theorem not_extendable_leaf : ¬ Extendable HashDomain.Leaf.toFr := by
  simp [Extendable]

/-- A Common account-leaf row is followed by a Common row as long as the account leaf lasts. -/
theorem common_next (R : Run H n U w s e) (h1 : s < r) (h2 : r + 1 < e)
    (hp : pathAt w r = .Common)
    (hseg : segAt w r = .AccountLeaf0 ∨ (segAt w r = .AccountLeaf1 ∧ segAt w (r + 1) = .AccountLeaf2)
      ∨ (segAt w r = .AccountLeaf2 ∧ segAt w (r + 1) = .AccountLeaf3)) :
    pathAt w (r + 1) = .Common := by
  cases hq : pathAt w (r + 1) with
  | Common => rfl
  | Start => exact absurd hq (R.path_ne_start (by omega) h2)
  | ExtensionNew =>
    exfalso
    rcases hseg with h | h | h
    · have hr := (R.row (r := r) (by omega) (by omega)).path
      rw [hp, hq] at hr
      have hx := hr.1
      rw [(R.domain_eq (r := r) (by omega) (by omega)).1 (.inl h)] at hx
      exact not_extendable_leaf hx
    · have := (R.extNew_rel (by omega) h2 hq).2.2.2.2.1
      rw [add_sub_cancel_right, hp, h.2] at this
      simp at this
    · have := (R.extNew_rel (by omega) h2 hq).2.2.2.2.1
      rw [add_sub_cancel_right, hp, h.2] at this
      simp at this
  | ExtensionOld =>
    exfalso
    rcases hseg with h | h | h
    · have hr := (R.row (r := r) (by omega) (by omega)).path
      rw [hp, hq] at hr
      have hx := hr.1
      rw [(R.domain_eq (r := r) (by omega) (by omega)).1 (.inl h)] at hx
      exact not_extendable_leaf hx
    · have := (R.extOld_rel (by omega) h2 hq).2.1
      rw [h.2] at this
      simp at this
    · have := (R.extOld_rel (by omega) h2 hq).2.1
      rw [h.2] at this
      simp at this

/-- The nodes of a Common AccountLeaf3 row, whatever follows. -/
theorem al3_nodes (R : Run H n U w s e) (h1 : s < r) (h2 : r < e) (hp : pathAt w r = .Common)
    (hseg : segAt w r = .AccountLeaf3) :
    NodeAt .oldHash w U r HashDomain.AccountFields.toFr ∧
    NodeAt .newHash w U r HashDomain.AccountFields.toFr ∧
    (pathAt w (r + 1) = .ExtensionNew → segAt w (r + 1) = .StorageLeaf0 → w.adv .oldHash r = 0) ∧
    (pathAt w (r + 1) = .ExtensionOld → segAt w (r + 1) = .StorageLeaf0 → w.adv .newHash r = 0) := by
  have h := (R.row (by omega) h2).path
  have hd := (R.domain_eq (r := r) (by omega) h2).2 (.inr (.inr hseg))
  have hnd : newDomVal HashDomain.AccountFields.toFr (w.adv .direction r) =
      HashDomain.AccountFields.toFr := by simp [newDomVal]
  have hno : segAt w (r + 1) ≠ .AccountLeaf0 := by
    obtain ⟨l, hl, hmem⟩ := R.next (r := r) (by omega) h2
    rw [hseg] at hl
    intro h0
    rw [h0] at hmem
    generalize proofAt w s = t at hl
    cases t <;> simp only [transitions] at hl <;> cases hl <;> simp at hmem
  rw [hp] at h
  cases hq : pathAt w (r + 1) with
  | Common => rw [hq] at h; simp only [PathRel, CommonRel, hd] at h; exact ⟨h.1, h.2, by simp, by simp⟩
  | Start => rw [hq] at h; simp only [PathRel, CommonRel, hd] at h; exact ⟨h.1, h.2, by simp, by simp⟩
  | ExtensionNew =>
    rw [hq] at h
    simp only [PathRel, CommonRel, hd, List.mem_cons, List.not_mem_nil, or_false, hno,
      false_or] at h
    obtain ⟨_, k2, k3⟩ := h
    split at k3
    · exact ⟨k2, k3.2, fun _ _ => k3.1, by simp⟩
    · rw [hnd] at k3
      have k4 := k3.2
      rw [k3.1] at k4
      exact ⟨k2, k4, fun _ h0 => absurd h0 ‹_›, by simp⟩
  | ExtensionOld =>
    rw [hq] at h
    simp only [PathRel, CommonRel, hd, List.mem_cons, List.not_mem_nil, or_false, hno,
      false_or] at h
    obtain ⟨_, k2, k3⟩ := h
    split at k3
    · exact ⟨k3.2, k2, by simp, fun _ _ => k3.1⟩
    · rw [hnd] at k3
      have k4 := k3.2
      rw [k3.1] at k4
      exact ⟨k4, k2, by simp, fun _ h0 => absurd h0 ‹_›⟩

theorem node0 (hp : PosSound H w U) {c : AdvCol} {d : Fr} (hb : w.adv .direction r = 0)
    (h : NodeAt c w U r d) :
    PR H w U (w.adv c r) (w.adv .sibling r) d (w.adv c (r - 1)) := by
  have := nodeAt_spec hp false (by simpa [bitFr] using hb) h
  simpa [Spec.Node] using this

theorem node1 (hp : PosSound H w U) {c : AdvCol} {d : Fr} (hb : w.adv .direction r = 1)
    (h : NodeAt c w U r d) :
    PR H w U (w.adv .sibling r) (w.adv c r) d (w.adv c (r - 1)) := by
  have := nodeAt_spec hp true (by simpa [bitFr] using hb) h
  simpa [Spec.Node] using this

/-- Key and other key on the rows before the storage key appears. -/
theorem key_trie (R : Run H n U w s e) (T : TablesOK w U) (m : ℕ) (h2 : s + m < e)
    (hseg : ∀ j < m, segAt w (s + (j : ℕ) + 1) = .AccountTrie) :
    w.adv .key (s + m) = w.adv .key s ∧ w.adv .otherKey (s + m) = w.adv .otherKey s :=
  (R.trieSeg T s m le_rfl h2 (.inl hseg) (by rw [R.start]; decide)).key_eq m le_rfl

/-- Meaning of the nonexistence gadget. -/
theorem absent_of_nonexist (hp : PosSound H w U) {v h d : AdvCol} (hn : Nonexist w U r v h d)
    (k : ℕ) (hs : SharesPrefix (w.adv .otherKey r) (w.adv .key r) k) :
    Absent (PR H w U) (w.adv .key r) k (w.adv h r) := by
  obtain ⟨_, _, _, h4⟩ := hn
  rcases h4 with ⟨h1, h2, h3⟩ | ⟨_, h2⟩
  · exact .inr ⟨_, _, fun h => h1 h.symm, hs, h2, posRow_sound hp h3⟩
  · exact .inl h2

/-- A run that ends after its trie rows, all Common: the claim is that nothing is there. -/
theorem nothing_there (R : Run H n U w s e) (T : TablesOK w U) (m : ℕ) (h2 : s + m < e)
    (hseg : ∀ j < m, segAt w (s + (j : ℕ) + 1) = .AccountTrie) (hC : SegCommon H w U s m)
    (hash : AdvCol) (hh : w.adv hash (s + m) = w.adv .oldHash (s + m))
    (heq : w.adv .oldHash (s + m) = w.adv .newHash (s + m))
    (hv : w.adv .newValue s = 0) {d : AdvCol} (hn : Nonexist w U (s + m) .oldValue hash d) :
    NothingThere (PR H w U) (w.adv .key s) (w.adv .oldHash s) (w.adv .newHash s)
      (w.adv .oldValue s) (w.adv .newValue s) := by
  obtain ⟨_, path, p1, p2, p3, p4, p5⟩ := hC
  obtain ⟨k1, k2⟩ := R.key_trie T m h2 hseg
  have hab := absent_of_nonexist R.acc.pos hn path.length (by rw [k1, k2, p1]; exact p5)
  rw [k1, hh] at hab
  refine ⟨?_, hv, ?_, path, _, p2, p3, hab⟩
  · rw [← (R.keep' (r := s + m) (by omega) h2).2.2.1]; exact hn.1
  · rw [← heq] at p4
    exact opens_functional _ _ _ _ _ _ p3 p4

end Run
end Mpt
