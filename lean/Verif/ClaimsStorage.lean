import Verif.ClaimsAccount

set_option autoImplicit false

/-!
# Soundness of the storage claims (C25, C26 in part, C28)
-/

namespace Mpt
open Spec MptUpdate

variable {H : HashFn} {n U : ℕ} {w : Witness Fr} {s e r a : ℤ}

namespace Run

/-- The storage-trie block after an AccountLeaf3 row of a storage run. -/
theorem storage_block (R : Run H n U w s e) (b : ℤ) (h1 : s < b) (h2 : b < e)
    (hb : segAt w b = .AccountLeaf3) :
    ∃ m : ℕ, b + m < e ∧ (∀ j < m, segAt w (b + (j : ℕ) + 1) = .StorageTrie) ∧
      (segAt w (b + m) = .AccountLeaf3 ∨ segAt w (b + m) = .StorageTrie) ∧
      (proofAt w s = .StorageChanged → b + m + 1 < e ∧ segAt w (b + m + 1) = .StorageLeaf0) ∧
      (proofAt w s = .StorageDoesNotExist → b + m + 1 = e ∧ segAt w (b + m + 1) = .Start) := by
  obtain ⟨m, k1, k2, k3⟩ := R.block .StorageTrie (by decide) b (by omega) h2
  have hs : segAt w (b + m) = .AccountLeaf3 ∨ segAt w (b + m) = .StorageTrie := by
    rcases Nat.eq_zero_or_pos m with h | h
    · left; subst h; simpa using hb
    · right
      have := k2 (m - 1) (by omega)
      rwa [show b + ((m - 1 : ℕ) : ℤ) + 1 = b + m by omega] at this
  refine ⟨m, k1, k2, hs, ?_, ?_⟩
  · intro ht
    have : segAt w (b + m + 1) = .StorageLeaf0 := by
      obtain ⟨l, hl, hmem⟩ := R.next (r := b + m) (by omega) k1
      rw [ht] at hl
      rcases hs with h | h <;> rw [h] at hl <;> cases hl <;> simp at hmem <;>
        exact hmem.resolve_left k3
    exact ⟨R.next_lt (by omega) k1 (by rw [this]; decide), this⟩
  · intro ht
    have : segAt w (b + m + 1) = .Start := by
      obtain ⟨l, hl, hmem⟩ := R.next (r := b + m) (by omega) k1
      rw [ht] at hl
      rcases hs with h | h <;> rw [h] at hl <;> cases hl <;> simp at hmem <;>
        exact hmem.resolve_left k3
    exact ⟨(R.start_next_iff (by omega) k1).1 this, this⟩

theorem word_ne_zero {x : ℕ} {h : Fr} (hw : IsWord (PR H w U) x h) (hne : h ≠ zeroPairHash H) :
    x ≠ 0 := by
  rintro rfl
  apply hne
  have := hw.2.1
  simpa [zeroPairHash] using this

/-- C25, C26 (what holds). -/
theorem storage_sound (R : Run H n U w s e) (T : TablesOK w U)
    (ht : proofAt w s = .StorageChanged) :
    ∃ slot, StorageClaim (PR H w U) w.chal (zeroPairHash H) (w.adv .key s) slot
      (w.adv .storageKeyRlc s) (w.adv .oldHash s) (w.adv .newHash s) (w.adv .oldValue s)
      (w.adv .newValue s) := by
  obtain ⟨m, h1, h2, h3⟩ := R.acct
  have pr : ∀ r, s ≤ r → r < e → StorageRel H w U r (segAt w r) (pathAt w r) := by
    intro r h1 h2
    have := R.proof_rel h1 h2
    rwa [ht] at this
  rcases h3 with ⟨h3, hst⟩ | ⟨h3, hl⟩
  · exfalso
    obtain ⟨l, hl, hmem⟩ := R.next (r := s + m) (by omega) h1
    rw [ht] at hl
    rw [hst] at hmem
    rcases R.seg_end m h1 h2 with h | h <;> rw [h] at hl <;> cases hl <;> simp at hmem
  · have L := R.leaf4 (a := s + m + 1) (by omega) h3 hl (by rw [ht]; decide)
    have hlt := L.lt
    have ha1 : s + m + 1 - 1 = s + m := by omega
    generalize hadef : s + m + 1 = a at *
    have q0 := pr a (by omega) (by omega)
    have q1 := pr (a + 1) (by omega) (by omega)
    have q2 := pr (a + 2) (by omega) (by omega)
    have q3 := pr (a + 3) (by omega) (by omega)
    rw [L.l0] at q0; rw [L.l1] at q1; rw [L.l2] at q2; rw [L.l3] at q3
    obtain ⟨d3, hkw⟩ := q3
    obtain ⟨x, hx, hxr⟩ := T.word R.acc.pos hkw
    have kp3 := R.keep' (r := a + 3) (by omega) (by omega)
    have hslot : IsSlot (PR H w U) w.chal (w.adv .key (a + 3)) (w.adv .storageKeyRlc s) :=
      ⟨x, hx, by rw [← hxr, kp3.2.1]⟩
    refine ⟨w.adv .key (a + 3), ?_⟩
    -- the storage block
    obtain ⟨m', b1, b2, _, b4, _⟩ := R.storage_block (a + 3) (by omega) (by omega) L.l3
    obtain ⟨b5, b6⟩ := b4 ht
    have hcases := R.seg_cases T (a + 3) m' (by omega) b1 (.inr b2) (by rw [L.l3]; decide)
      (.inr (.inr b6))
    have hS := R.trieSeg T (a + 3) m' (by omega) b1 (.inr b2) (by rw [L.l3]; decide)
    have hm : m' ≤ 256 := hS.len (by have := R.size; omega)
    have hne := R.path_ne_start (r := a + 3 + m' + 1) (by omega) b5
    have ql := pr (a + 3 + m' + 1) (by omega) b5
    rw [b6] at ql
    obtain ⟨g1, g2, _, _, g5, g6⟩ := ql
    have kl := R.keep' (r := a + 3 + m' + 1) (by omega) b5
    have hkey := (R.row (r := a + 3 + m' + 1) (by omega) b5).common.keepKey (by rw [b6]; decide)
      (by rw [b6]; decide)
    have hkb := hS.key_eq m' le_rfl
    have el : a + 3 + (m' : ℤ) + 1 - 1 = a + 3 + m' := by ring
    rw [el, hkb.1, hkb.2] at hkey
    have dl := (R.domain_eq (r := a + 3 + m' + 1) (by omega) (by omega)).1 (.inr b6)
    generalize hldef : a + 3 + (m' : ℤ) + 1 = l at *
    rcases R.acct_leaf_cases T m (by omega) h2 (by rw [hadef]; exact hl) with
      ⟨hp, hsame⟩ | ⟨hp, _, hov, hins⟩
    · rw [hadef] at hp
      obtain ⟨p3, NO, NN⟩ := R.leaf_common (by omega) L hp
      have lo := node0 R.acc.pos d3 NO.n3
      have ln := node0 R.acc.pos d3 NN.n3
      rw [show a + 3 - 1 = a + 2 by ring] at lo ln
      have hacct : StorageRootUpdate (PR H w U) (w.adv .key s) (w.adv .oldHash s) (w.adv .newHash s)
          (w.adv .oldHash (a + 3)) (w.adv .newHash (a + 3)) :=
        ⟨_, _, _, _, _, _, _, _, lo, ln, account_right R.acc.pos _ NO q0 q1 q2,
          account_right R.acc.pos _ NN q0 q1 q2, hsame _ _ (by rw [ha1]) (by rw [ha1])⟩
      have hal3 := R.al3_nodes (r := a + 3) (by omega) (by omega) p3 L.l3
      rcases hcases with hC | hN | hO
      · obtain ⟨hpl, path, p1, p2, p3', p4, _⟩ := hC
        rw [hldef] at hpl
        have hpl := hpl.resolve_right hne
        have hst : pathAt w (l + 1) = .Common ∨ pathAt w (l + 1) = .Start := by
          right
          rw [R.path_start_iff (by omega) (by omega)]
          obtain ⟨ll, hll, hmem⟩ := R.next (r := l) (by omega) b5
          rw [ht, b6] at hll
          cases hll
          simpa using hmem
        obtain ⟨o, nn⟩ := R.common_nodes (r := l) (by omega) b5 hpl hst
        rw [dl] at o nn
        have o1 := node1 R.acc.pos g1 o
        have n1 := node1 R.acc.pos g1 nn
        rw [el] at o1 n1
        obtain ⟨xo, hxo, hov⟩ := T.word R.acc.pos (g2 hpl).1
        obtain ⟨xn, hxn, hnv⟩ := T.word R.acc.pos (g2 hpl).2
        exact .update _ _ hslot hacct ⟨_, xo, xn, _, _, _, _, by rw [← hov, kl.2.2.1],
          by rw [← hnv, kl.2.2.2], word_ne_zero hxo g5, word_ne_zero hxn g6, hxo, hxn, o1, n1,
          path, p2, p3', p4⟩
      · obtain ⟨hpl, pre, ext, e1, e2, e3, _, e5, e6, e7, -⟩ := hN
        rw [hldef] at hpl
        replace hpl := hpl.resolve_right (fun h => hne h.1)
        obtain ⟨_, t2, t3, t4, _, _, t7⟩ := R.extNew_rel (r := l) (by omega) b5 hpl
        rw [dl] at t4
        have n1 := node1 R.acc.pos g1 t4
        rw [el] at n1 t3
        have hab := absent_of_nonexist R.acc.pos (t7 (by rw [b6]; decide)) pre.length
          (by rw [hkey.1, hkey.2]; exact e7)
        rw [hkey.1, t3] at hab
        refine .insertion _ _ hslot hacct ⟨_, _, _, by rw [← kl.2.2.1]; exact t2, g6, n1,
          pre, ext, _, e2, e3, by omega, e5, e6, hab, ?_⟩
        intro hext
        subst hext
        revert e5
        generalize hA : w.adv .oldHash (a + 3 + m') = A
        generalize w.adv .newHash (a + 3 + m') = B
        intro e5
        cases e5 with
        | root h =>
          have hm0 : m' = 0 := by simpa using e1.symm
          subst hm0
          have hl4 : a + 3 + 1 = l := by simpa using hldef
          have := hal3.2.2.1 (by rw [hl4]; exact hpl) (by rw [hl4]; exact b6)
          simpa using this
        | below _ _ _ _ _ h => rw [if_pos rfl] at h; exact h.2
      · obtain ⟨⟨hpl, pre, ext, e1, e2, e3, _, e5, e6, e7, -⟩, _⟩ := hO
        rw [hldef] at hpl
        replace hpl := hpl.resolve_right (fun h => hne h.1)
        obtain ⟨_, _, t2, t3, t4, _, t7⟩ := R.extOld_rel (r := l) (by omega) b5 hpl
        rw [dl] at t4
        have n1 := node1 R.acc.pos g1 t4
        rw [el] at n1 t3
        have hab := absent_of_nonexist R.acc.pos (t7 b6) pre.length
          (by rw [hkey.1, hkey.2]; exact e7)
        rw [hkey.1, t3] at hab
        refine .deletion _ _ hslot hacct ⟨_, _, _, by rw [← kl.2.2.2]; exact t2, g5, n1,
          pre, ext, _, e2, e3, by omega, e5, e6, hab, ?_⟩
        intro hext
        subst hext
        revert e5
        generalize hA : w.adv .newHash (a + 3 + m') = A
        generalize w.adv .oldHash (a + 3 + m') = B
        intro e5
        cases e5 with
        | root h =>
          have hm0 : m' = 0 := by simpa using e1.symm
          subst hm0
          have hl4 : a + 3 + 1 = l := by simpa using hldef
          have := hal3.2.2.2 (by rw [hl4]; exact hpl) (by rw [hl4]; exact b6)
          simpa using this
        | below _ _ _ _ _ h => rw [if_pos rfl] at h; exact h.2
    · rw [hadef] at hp
      obtain ⟨⟨p1, p2, p3⟩, NN, _⟩ := R.leaf_ext (by omega) L hp
      have ln := node0 R.acc.pos d3 NN.n3
      rw [show a + 3 - 1 = a + 2 by ring] at ln
      have hacc := account_right R.acc.pos _ NN q0 q1 q2
      -- the path type stays ExtensionNew
      have hstay : ∀ j : ℕ, a + 3 + j < e → pathAt w (a + 3 + j) = .ExtensionNew := by
        intro j
        induction j with
        | zero => intro _; simpa using p3
        | succ j ih =>
          intro hj
          have ej : a + 3 + ((j + 1 : ℕ) : ℤ) = a + 3 + j + 1 := by push_cast; ring
          rw [ej] at hj ⊢
          exact R.extNew_next (by omega) hj (ih (by omega))
      have hpl : pathAt w l = .ExtensionNew := by
        have := hstay (m' + 1) (by push_cast; omega)
        rwa [show a + 3 + ((m' + 1 : ℕ) : ℤ) = l by push_cast; omega] at this
      rcases hcases with hC | hN | hO
      · exfalso
        have := hC.1
        rw [hldef, hpl] at this
        simp at this
      · obtain ⟨_, pre, ext, e1, e2, e3, _, e5, e6, e7, -⟩ := hN
        obtain ⟨_, t2, t3, t4, _, _, t7⟩ := R.extNew_rel (r := l) (by omega) b5 hpl
        rw [dl] at t4
        have n1 := node1 R.acc.pos g1 t4
        rw [el] at n1 t3
        obtain ⟨path, f1, f2, f3⟩ := e5.opens_new e2.2 e3.2
        exact .creation hslot ⟨_, _, _, _, _, _, _, _, _, _, path, hov, g6, ln, hacc,
          hins _ (by rw [ha1]), ⟨by omega, f2⟩, f3, n1⟩
      · exfalso
        obtain ⟨⟨h, _⟩, _⟩ := hO
        rw [hldef, hpl] at h
        simp at h

/-- C28 (path level). -/
theorem emptyStorage_sound (R : Run H n U w s e) (T : TablesOK w U)
    (ht : proofAt w s = .StorageDoesNotExist) :
    w.adv .oldValue s = 0 ∧ w.adv .newValue s = 0 ∧ w.adv .oldHash s = w.adv .newHash s ∧
    (EmptyPath (PR H w U) (w.adv .key s) (w.adv .oldHash s) ∨
      ∃ slot, IsSlot (PR H w U) w.chal slot (w.adv .storageKeyRlc s) ∧
        NoSlot (PR H w U) (w.adv .key s) slot (w.adv .oldHash s)) := by
  obtain ⟨m, h1, h2, h3⟩ := R.acct
  have pr : ∀ r, s ≤ r → r < e →
      EmptyStorageRel w U r (segAt w r) (segAt w (r + 1)) (pathAt w r) := by
    intro r h1 h2
    have := R.proof_rel h1 h2
    rwa [ht] at this
  have ps := pr s le_rfl R.lt
  refine ⟨ps.1, ps.2.1, ps.2.2.2.1, ?_⟩
  rcases h3 with ⟨h3, hst⟩ | ⟨h3, hl⟩
  · left
    have q := pr (s + m) (by omega) h1
    rcases R.acct_end_cases T m h3 h2 with hC | ⟨_, _, _, ht2⟩
    · exact (R.nothing_there T m h1 h2 hC .oldHash rfl q.2.2.2.1 ps.2.1 (q.2.2.2.2.1 hst)).empty
    · rw [ht] at ht2; simp at ht2
  · right
    have L := R.leaf4 (a := s + m + 1) (by omega) h3 hl (by rw [ht]; decide)
    have hlt := L.lt
    have ha1 : s + m + 1 - 1 = s + m := by omega
    generalize hadef : s + m + 1 = a at *
    have q0 := (pr a (by omega) (by omega)).2.2.2.2.2
    have q1 := (pr (a + 1) (by omega) (by omega)).2.2.2.2.2
    have q2 := (pr (a + 2) (by omega) (by omega)).2.2.2.2.2
    have q3 := (pr (a + 3) (by omega) (by omega)).2.2.2.2.2
    rw [L.l0] at q0; rw [L.l1] at q1; rw [L.l2] at q2; rw [L.l3] at q3
    obtain ⟨d3, hkw⟩ := q3
    obtain ⟨x, hx, hxr⟩ := T.word R.acc.pos hkw
    have kp3 := R.keep' (r := a + 3) (by omega) (by omega)
    refine ⟨w.adv .key (a + 3), ⟨x, hx, by rw [← hxr, kp3.2.1]⟩, ?_⟩
    obtain ⟨m', b1, b2, _, _, b4⟩ := R.storage_block (a + 3) (by omega) (by omega) L.l3
    obtain ⟨b5, b6⟩ := b4 ht
    have hcases := R.seg_cases T (a + 3) m' (by omega) b1 (.inr b2) (by rw [L.l3]; decide)
      (.inl b6)
    have hS := R.trieSeg T (a + 3) m' (by omega) b1 (.inr b2) (by rw [L.l3]; decide)
    have hkb := hS.key_eq m' le_rfl
    rcases R.acct_leaf_cases T m (by omega) h2 (by rw [hadef]; exact hl) with
      ⟨hp, hsame⟩ | ⟨_, ht2, _⟩
    · rw [hadef] at hp
      obtain ⟨p3, NO, NN⟩ := R.leaf_common (by omega) L hp
      have lo := node0 R.acc.pos d3 NO.n3
      rw [show a + 3 - 1 = a + 2 by ring] at lo
      obtain ⟨path, f1, f2, _⟩ := hsame _ _ rfl rfl
      have hnon := (pr (a + 3 + m') (by omega) b1).2.2.2.2.1 b6
      rcases hcases with hC | hN | hO
      · obtain ⟨_, path', p1, p2, p3', p4, p5⟩ := hC
        have hab := absent_of_nonexist R.acc.pos hnon path'.length
          (by rw [hkb.1, hkb.2, p1]; exact p5)
        rw [hkb.1] at hab
        have hacct := account_right R.acc.pos _ NO q0 q1 q2
        rw [ha1] at hacct
        exact ⟨_, _, _, _, _, _, _, path, f1, f2, hacct, lo, path', _, p2, p3', hab⟩
      · exfalso
        obtain ⟨hpl, _⟩ := hN
        rcases hpl with h | ⟨_, h0, h⟩
        · rw [(R.path_start_iff (by omega) (by omega)).2 b6] at h; cases h
        · have := (R.extNew_rel (r := a + 3 + m') (by omega) b1 h).1
          rw [ht] at this; simp at this
      · exact absurd ((R.path_start_iff (by omega) (by omega)).2 b6) hO.2
    · rw [ht] at ht2; simp at ht2

end Run
end Mpt
