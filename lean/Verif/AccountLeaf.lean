import Verif.AccountRows

set_option autoImplicit false

/-!
# The account leaf rows of a run
-/

namespace Mpt
open Spec MptUpdate

variable {H : HashFn} {n U : ℕ} {w : Witness Fr} {s e r a : ℤ}

namespace Run

theorem next_lt (R : Run H n U w s e) (h1 : s ≤ r) (h2 : r < e)
    (h : segAt w (r + 1) ≠ .Start) : r + 1 < e := by
  by_contra hne
  exact h ((R.start_next_iff h1 h2).2 (by omega))

theorem al0_next (R : Run H n U w s e) (h1 : s < a) (h2 : a < e)
    (h : segAt w a = .AccountLeaf0) : a + 1 < e ∧ segAt w (a + 1) = .AccountLeaf1 := by
  obtain ⟨l, hl, hmem⟩ := R.next (r := a) (by omega) h2
  have : segAt w (a + 1) = .AccountLeaf1 := by
    rw [h] at hl
    generalize proofAt w s = t at hl
    cases t <;> simp only [transitions] at hl <;> cases hl <;> simpa using hmem
  exact ⟨R.next_lt (by omega) h2 (by rw [this]; decide), this⟩

theorem al1_next (R : Run H n U w s e) (h1 : s < a) (h2 : a < e)
    (h : segAt w a = .AccountLeaf1) (ht : proofAt w s ≠ .PoseidonCodeHashExists) :
    a + 1 < e ∧ segAt w (a + 1) = .AccountLeaf2 := by
  obtain ⟨l, hl, hmem⟩ := R.next (r := a) (by omega) h2
  have : segAt w (a + 1) = .AccountLeaf2 := by
    rw [h] at hl
    generalize proofAt w s = t at hl ht
    cases t <;> simp only [transitions] at hl <;> first | (exact absurd rfl ht) | (cases hl <;> simpa using hmem)
  exact ⟨R.next_lt (by omega) h2 (by rw [this]; decide), this⟩

theorem al2_next (R : Run H n U w s e) (h1 : s < a) (h2 : a < e)
    (h : segAt w a = .AccountLeaf2) : a + 1 < e ∧ segAt w (a + 1) = .AccountLeaf3 := by
  obtain ⟨l, hl, hmem⟩ := R.next (r := a) (by omega) h2
  have : segAt w (a + 1) = .AccountLeaf3 := by
    rw [h] at hl
    generalize proofAt w s = t at hl
    cases t <;> simp only [transitions] at hl <;> cases hl <;> simpa using hmem
  exact ⟨R.next_lt (by omega) h2 (by rw [this]; decide), this⟩

/-- The four account leaf rows starting at `a`. -/
structure Leaf4 (w : Witness Fr) (e a : ℤ) : Prop where
  lt : a + 3 < e
  l0 : segAt w a = .AccountLeaf0
  l1 : segAt w (a + 1) = .AccountLeaf1
  l2 : segAt w (a + 2) = .AccountLeaf2
  l3 : segAt w (a + 3) = .AccountLeaf3

theorem leaf4 (R : Run H n U w s e) (h1 : s < a) (h2 : a < e) (h : segAt w a = .AccountLeaf0)
    (ht : proofAt w s ≠ .PoseidonCodeHashExists) : Leaf4 w e a := by
  obtain ⟨k1, k2⟩ := R.al0_next h1 h2 h
  obtain ⟨k3, k4⟩ := R.al1_next (by omega) k1 k2 ht
  obtain ⟨k5, k6⟩ := R.al2_next (by omega) k3 k4
  rw [add_assoc, show (1 + 1 : ℤ) = 2 by norm_num] at k4
  rw [add_assoc, add_assoc, show (1 + (1 + 1) : ℤ) = 3 by norm_num] at k6
  exact ⟨by omega, h, k2, k4, k6⟩

/-- The nodes of the four account leaf rows on one side. -/
structure LeafNodes (c : AdvCol) (w : Witness Fr) (U : ℕ) (a : ℤ) : Prop where
  n0 : NodeAt c w U a HashDomain.Leaf.toFr
  n1 : NodeAt c w U (a + 1) HashDomain.AccountFields.toFr
  n2 : NodeAt c w U (a + 2) HashDomain.AccountFields.toFr
  n3 : NodeAt c w U (a + 3) HashDomain.AccountFields.toFr

theorem leaf_common (R : Run H n U w s e) (h1 : s < a) (L : Leaf4 w e a)
    (hp : pathAt w a = .Common) :
    pathAt w (a + 3) = .Common ∧ LeafNodes .oldHash w U a ∧ LeafNodes .newHash w U a := by
  have hlt := L.lt
  have e1 : a + 1 + 1 = a + 2 := by ring
  have e2 : a + 2 + 1 = a + 3 := by ring
  have p1 := R.common_next h1 (by omega) hp (.inl L.l0)
  have p2 := R.common_next (r := a + 1) (by omega) (by omega) p1
    (.inr (.inl ⟨L.l1, by rw [e1]; exact L.l2⟩))
  rw [e1] at p2
  have p3 := R.common_next (r := a + 2) (by omega) (by omega) p2
    (.inr (.inr ⟨L.l2, by rw [e2]; exact L.l3⟩))
  rw [e2] at p3
  have q0 := R.common_nodes h1 (by omega) hp (.inl p1)
  have q1 := R.common_nodes (r := a + 1) (by omega) (by omega) p1 (.inl (by rw [e1]; exact p2))
  have q2 := R.common_nodes (r := a + 2) (by omega) (by omega) p2 (.inl (by rw [e2]; exact p3))
  have q3 := R.al3_nodes (r := a + 3) (by omega) (by omega) p3 L.l3
  rw [(R.domain_eq (r := a) (by omega) (by omega)).1 (.inl L.l0)] at q0
  rw [(R.domain_eq (r := a + 1) (by omega) (by omega)).2 (.inl L.l1)] at q1
  rw [(R.domain_eq (r := a + 2) (by omega) (by omega)).2 (.inr (.inl L.l2))] at q2
  exact ⟨p3, ⟨q0.1, q1.1, q2.1, q3.1⟩, ⟨q0.2, q1.2, q2.2, q3.2.1⟩⟩

theorem leaf_ext (R : Run H n U w s e) (h1 : s < a) (L : Leaf4 w e a)
    (hp : pathAt w a = .ExtensionNew) :
    (pathAt w (a + 1) = .ExtensionNew ∧ pathAt w (a + 2) = .ExtensionNew ∧
      pathAt w (a + 3) = .ExtensionNew) ∧ LeafNodes .newHash w U a ∧
    w.adv .oldHash (a + 3) = w.adv .oldHash (a - 1) ∧ w.adv .oldValue s = 0 ∧
    w.adv .oldHash a = w.adv .oldHash (a - 1) ∧
    Nonexist w U a .oldValue .oldHash (.iv 9) := by
  have hlt := L.lt
  have e1 : a + 1 + 1 = a + 2 := by ring
  have e2 : a + 2 + 1 = a + 3 := by ring
  have p1 := R.extNew_next h1 (by omega) hp
  have p2 := R.extNew_next (r := a + 1) (by omega) (by omega) p1
  rw [e1] at p2
  have p3 := R.extNew_next (r := a + 2) (by omega) (by omega) p2
  rw [e2] at p3
  have q0 := R.extNew_rel h1 (by omega) hp
  have q1 := R.extNew_rel (r := a + 1) (by omega) (by omega) p1
  have q2 := R.extNew_rel (r := a + 2) (by omega) (by omega) p2
  have q3 := R.extNew_rel (r := a + 3) (by omega) (by omega) p3
  have d0 := (R.domain_eq (r := a) (by omega) (by omega)).1 (.inl L.l0)
  have d1 := (R.domain_eq (r := a + 1) (by omega) (by omega)).2 (.inl L.l1)
  have d2 := (R.domain_eq (r := a + 2) (by omega) (by omega)).2 (.inr (.inl L.l2))
  have d3 := (R.domain_eq (r := a + 3) (by omega) (by omega)).2 (.inr (.inr L.l3))
  obtain ⟨_, v0, o0, n0, _, _, x0⟩ := q0
  obtain ⟨_, _, o1, n1, _, _, _⟩ := q1
  obtain ⟨_, _, o2, n2, _, _, _⟩ := q2
  obtain ⟨_, _, o3, n3, _, _, _⟩ := q3
  rw [d0] at n0; rw [d1] at n1; rw [d2] at n2; rw [d3] at n3
  refine ⟨⟨p1, p2, p3⟩, ⟨n0, n1, n2, n3⟩, ?_, ?_, o0, x0 (by rw [L.l0]; decide)⟩
  · rw [show a + 1 - 1 = a by ring] at o1
    rw [show a + 2 - 1 = a + 1 by ring] at o2
    rw [show a + 3 - 1 = a + 2 by ring] at o3
    rw [o3, o2, o1, o0]
  · rw [← (R.keep' (r := a) (by omega) (by omega)).2.2.1]; exact v0

/-- Account-level case analysis: the path type of the row after the trie rows. -/
theorem acct_leaf_cases (R : Run H n U w s e) (T : TablesOK w U) (m : ℕ) (h2 : s + m + 1 < e)
    (hseg : ∀ j < m, segAt w (s + (j : ℕ) + 1) = .AccountTrie)
    (hl : segAt w (s + m + 1) = .AccountLeaf0) :
    (pathAt w (s + m + 1) = .Common ∧
      ∀ lo ln, w.adv .oldHash (s + m) = lo → w.adv .newHash (s + m) = ln →
        SamePath (PR H w U) (w.adv .key s) (w.adv .oldHash s) (w.adv .newHash s) lo ln) ∨
    (pathAt w (s + m + 1) = .ExtensionNew ∧
      proofAt w s ∈ [MPTProofType.NonceChanged, .BalanceChanged, .StorageChanged] ∧
      w.adv .oldValue s = 0 ∧
      ∀ leaf, w.adv .newHash (s + m) = leaf →
        InsertedLeaf (PR H w U) (w.adv .key s) (w.adv .oldHash s) (w.adv .newHash s) leaf) := by
  have hcases := R.seg_cases T s m le_rfl (by omega) (.inl hseg) (by rw [R.start]; decide)
    (.inr (.inl hl))
  have hne := R.path_ne_start (r := s + m + 1) (by omega) h2
  rcases hcases with hC | hN | hO
  · left
    obtain ⟨hp, path, p1, p2, p3, p4, _⟩ := hC
    refine ⟨hp.resolve_right hne, ?_⟩
    rintro lo ln rfl rfl
    exact ⟨path, p2, p3, p4⟩
  · right
    obtain ⟨hp, pre, ext, e1, e2, e3, _, e5, e6, e7, -⟩ := hN
    have hp := hp.resolve_right (fun h => hne h.1)
    have hx := R.extNew_rel (r := s + m + 1) (by omega) h2 hp
    obtain ⟨t1, t2, t3, _, _, _, t7⟩ := hx
    rw [add_sub_cancel_right] at t3
    have hS := R.trieSeg T s m le_rfl (by omega) (.inl hseg) (by rw [R.start]; decide)
    have hm : m ≤ 256 := hS.len (by have := R.size; omega)
    refine ⟨hp, t1, ?_, ?_⟩
    · rw [← (R.keep' (r := s + m + 1) (by omega) h2).2.2.1]; exact t2
    · rintro leaf rfl
      refine ⟨pre, ext, _, e2, e3, by omega, e5, e6, ?_⟩
      obtain ⟨k1, k2⟩ := R.key_trie T m (by omega) hseg
      have hk := (R.row (r := s + m + 1) (by omega) h2).common.keepKey (by rw [hl]; decide)
        (by rw [hl]; decide)
      rw [add_sub_cancel_right, k1, k2] at hk
      have hab := absent_of_nonexist R.acc.pos (t7 (by rw [hl]; decide)) pre.length
        (by rw [hk.1, hk.2]; exact e7)
      rwa [hk.1, t3] at hab
  · exfalso
    obtain ⟨⟨hp, _⟩, hns⟩ := hO
    have hp := hp.resolve_right (fun h => hne h.1)
    have hx := (R.extOld_rel (r := s + m + 1) (by omega) h2 hp).2.1
    rw [hl] at hx
    simp at hx

/-- Account-level case analysis for a run that ends after its trie rows. -/
theorem acct_end_cases (R : Run H n U w s e) (T : TablesOK w U) (m : ℕ) (h2 : s + m + 1 = e)
    (hseg : ∀ j < m, segAt w (s + (j : ℕ) + 1) = .AccountTrie) :
    SegCommon H w U s m ∨
    (SegExt H w U s m .oldHash .newHash .ExtensionNew ∧ 0 < m ∧ pathAt w (s + m) = .ExtensionNew ∧
      proofAt w s ∈ [MPTProofType.NonceChanged, .BalanceChanged, .StorageChanged]) := by
  have hst : segAt w (s + m + 1) = .Start := by rw [h2]; exact R.stop
  have hcases := R.seg_cases T s m le_rfl (by omega) (.inl hseg) (by rw [R.start]; decide)
    (.inl hst)
  have hps := (R.path_start_iff (r := s + m + 1) (by omega) (by omega)).2 hst
  rcases hcases with hC | hN | hO
  · exact .inl hC
  · right
    obtain ⟨hp, hrest⟩ := hN
    have hp' := hp.resolve_left (by rw [hps]; decide)
    refine ⟨⟨hp, hrest⟩, hp'.2.1, hp'.2.2, ?_⟩
    exact (R.extNew_rel (r := s + m) (by omega) (by omega) hp'.2.2).1
  · exact absurd hps hO.2

/-- The root moves although the run claims that nothing is there. -/
theorem pushed_down (R : Run H n U w s e) (T : TablesOK w U) (m : ℕ) (h2 : s + m + 1 = e)
    (hseg : ∀ j < m, segAt w (s + (j : ℕ) + 1) = .AccountTrie)
    (hE : SegExt H w U s m .oldHash .newHash .ExtensionNew)
    (heq : w.adv .oldHash (s + m) = w.adv .newHash (s + m)) {d : AdvCol}
    (hn : Nonexist w U (s + m) .oldValue .oldHash d) :
    PushedDown (PR H w U) (w.adv .key s) (w.adv .oldHash s) (w.adv .newHash s) := by
  have hst : segAt w (s + m + 1) = .Start := by rw [h2]; exact R.stop
  have hps := (R.path_start_iff (r := s + m + 1) (by omega) (by omega)).2 hst
  obtain ⟨_, pre, ext, e1, e2, e3, e4, e5, e6, e7, -⟩ := hE
  have hS := R.trieSeg T s m le_rfl (by omega) (.inl hseg) (by rw [R.start]; decide)
  have hm : m ≤ 256 := hS.len (by have := R.size; omega)
  obtain ⟨k1, k2⟩ := R.key_trie T m (by omega) hseg
  have hab := absent_of_nonexist R.acc.pos hn pre.length (by rw [k1, k2]; exact e7)
  rw [k1] at hab
  rw [← heq] at e5
  exact ⟨pre, ext, _, e4 hps, e2, e3, by omega, e5, e6, hab⟩

end Run
end Mpt
