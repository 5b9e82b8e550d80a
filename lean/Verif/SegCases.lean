import Verif.Runs

set_option autoImplicit false

/-!
# Case analysis of a trie segment within a run
-/

namespace Mpt
open Spec MptUpdate

variable {H : HashFn} {n U : ℕ} {w : Witness Fr} {s e r : ℤ}

namespace Run

/-- The block is common to both sides. -/
def SegCommon (H : HashFn) (w : Witness Fr) (U : ℕ) (b : ℤ) (m : ℕ) : Prop :=
  (pathAt w (b + m + 1) = .Common ∨ pathAt w (b + m + 1) = .Start) ∧
  ∃ path, path.length = m ∧ GoodPath path ∧
    Opens (PR H w U) (w.adv .key b) 0 path (w.adv .oldHash (b + m)) (w.adv .oldHash b) ∧
    Opens (PR H w U) (w.adv .key b) 0 path (w.adv .newHash (b + m)) (w.adv .newHash b) ∧
    SharesPrefix (w.adv .otherKey b) (w.adv .key b) m

/-- The block, or the leaf after it, is extended on side `B` only (path type `q`). -/
def SegExt (H : HashFn) (w : Witness Fr) (U : ℕ) (b : ℤ) (m : ℕ) (A B : AdvCol) (q : PathType) :
    Prop :=
  (pathAt w (b + m + 1) = q ∨
    (pathAt w (b + m + 1) = .Start ∧ 0 < m ∧ pathAt w (b + m) = q)) ∧
  ∃ pre ext, pre.length + ext.length = m ∧ GoodPath pre ∧ GoodPath ext ∧
    (pathAt w (b + m + 1) = .Start → ext ≠ []) ∧
    Inserted (PR H w U) (w.adv .key b) ext (w.adv A (b + m)) (w.adv B (b + m)) pre
      (w.adv A b) (w.adv B b) ∧ ExtSiblings ext (w.adv A (b + m)) ∧
    SharesPrefix (w.adv .otherKey b) (w.adv .key b) pre.length ∧
    ∃ c ≤ m, pre = stepsFrom w b c ∧ ext = stepsFrom w (b + (c : ℕ)) (m - c) ∧
      (∀ j < c, pathAt w (b + (j : ℕ) + 1) = .Common) ∧
      ∀ j, c ≤ j → j < m → pathAt w (b + (j : ℕ) + 1) = q

theorem seg_cases (R : Run H n U w s e) (T : TablesOK w U) (b : ℤ) (m : ℕ) (h1 : s ≤ b)
    (h2 : b + m < e)
    (hseg : (∀ j < m, segAt w (b + (j : ℕ) + 1) = .AccountTrie) ∨
      ∀ j < m, segAt w (b + (j : ℕ) + 1) = .StorageTrie)
    (hb : segAt w b ≠ .AccountTrie ∧ segAt w b ≠ .StorageTrie)
    (hlast : segAt w (b + m + 1) = .Start ∨ segAt w (b + m + 1) = .AccountLeaf0 ∨
      segAt w (b + m + 1) = .StorageLeaf0) :
    SegCommon H w U b m ∨ SegExt H w U b m .oldHash .newHash .ExtensionNew ∨
      (SegExt H w U b m .newHash .oldHash .ExtensionOld ∧ pathAt w (b + m + 1) ≠ .Start) := by
  have S := R.trieSeg T b m h1 h2 hseg hb
  have hm : m < 2 ^ 64 := by have := R.size; omega
  have hstart : pathAt w (b + m + 1) = .Start ↔ segAt w (b + m + 1) = .Start :=
    R.path_start_iff (by omega) (by omega)
  obtain ⟨c, hc, q, hq, hcom, hext⟩ := S.paths (fun j hj => R.path_ne_start (by omega) (by omega))
  have hpre : ∀ k ≤ c, SharesPrefix (w.adv .otherKey b) (w.adv .key b) k := by
    intro k hk i hi
    have := S.bit (j := i) (by omega) hm
    exact TrieSeg.bitFr_inj (by rw [← this.2.2 (hcom i (by omega)), this.1])
  have htrie : ∀ j < m, segAt w (b + (j : ℕ) + 1) ∈ [SegmentType.AccountTrie, .StorageTrie] := by
    intro j hj
    rcases S.trie j hj with h | h <;> rw [h] <;> decide
  have hnextTrie : ∀ j, j + 1 < m →
      segAt w (b + (j : ℕ) + 1 + 1) ∈ [SegmentType.AccountTrie, .StorageTrie] := by
    intro j hj
    have := htrie (j + 1) hj
    push_cast at this
    rwa [← add_assoc] at this
  have hlastNot : segAt w (b + m + 1) ∉ [SegmentType.AccountTrie, .StorageTrie] := by
    rcases hlast with h | h | h <;> rw [h] <;> decide
  -- nodes of the rows before the last common one
  have hcomN : ∀ j, j + 1 < c →
      NodeAt .oldHash w U (b + (j : ℕ) + 1) (w.adv .domain (b + (j : ℕ) + 1)) ∧
      NodeAt .newHash w U (b + (j : ℕ) + 1) (w.adv .domain (b + (j : ℕ) + 1)) := by
    intro j hj
    have h := (S.rows j (by omega)).path
    have hp' := hcom (j + 1) hj
    push_cast at hp'
    rw [← add_assoc] at hp'
    rw [hcom j (by omega), hp'] at h
    exact h
  -- extension facts
  have extNew : ∀ q', q' = PathType.ExtensionNew → (∀ j, c ≤ j → j < m →
      pathAt w (b + (j : ℕ) + 1) = q') → ∀ j, c ≤ j → j < m →
      w.adv .oldHash (b + (j : ℕ) + 1) = w.adv .oldHash (b + (j : ℕ)) ∧
      NodeAt .newHash w U (b + (j : ℕ) + 1) (w.adv .domain (b + (j : ℕ) + 1)) ∧
      w.adv .sibling (b + (j : ℕ) + 1) =
        if j + 1 < m then 0 else w.adv .oldHash (b + (j : ℕ) + 1) := by
    rintro q' rfl hx j hj1 hj2
    have h := (S.rows j hj2).path
    rw [hx j hj1 hj2] at h
    obtain ⟨_, _, h3, h4, _, h6, _⟩ := h
    rw [add_sub_cancel_right] at h3
    refine ⟨h3, h4, ?_⟩
    rw [h6 (htrie j hj2)]
    by_cases hjm : j + 1 < m
    · rw [if_pos hjm, if_pos (hnextTrie j hjm)]
    · rw [if_neg hjm, if_neg]
      rwa [show b + (j : ℤ) + 1 + 1 = b + m + 1 by omega]
  have extOld : ∀ q', q' = PathType.ExtensionOld → (∀ j, c ≤ j → j < m →
      pathAt w (b + (j : ℕ) + 1) = q') → ∀ j, c ≤ j → j < m →
      w.adv .newHash (b + (j : ℕ) + 1) = w.adv .newHash (b + (j : ℕ)) ∧
      NodeAt .oldHash w U (b + (j : ℕ) + 1) (w.adv .domain (b + (j : ℕ) + 1)) ∧
      w.adv .sibling (b + (j : ℕ) + 1) =
        if j + 1 < m then 0 else w.adv .newHash (b + (j : ℕ) + 1) := by
    rintro q' rfl hx j hj1 hj2
    have h := (S.rows j hj2).path
    rw [hx j hj1 hj2] at h
    obtain ⟨ht, hst, _, h3, h4, h5, _⟩ := h
    rw [add_sub_cancel_right] at h3
    refine ⟨h3, h4, ?_⟩
    have hsg : segAt w (b + (j : ℕ) + 1) = .StorageTrie := by
      rcases hst with h | h
      · exact h
      · have := htrie j hj2; rw [h] at this; simp at this
    rw [h5 hsg, add_sub_cancel_right]
    by_cases hjm : j + 1 < m
    · rw [if_pos hjm, if_neg]
      have := hnextTrie j hjm
      intro h0; rw [h0] at this; simp at this
    · rw [if_neg hjm, if_pos, h3]
      obtain ⟨l, hl, hmem⟩ := R.next (r := b + j + 1) (by omega) (by omega)
      rw [(R.keep' (r := b + j + 1) (by omega) (by omega)).1] at ht
      rw [ht, hsg] at hl
      cases hl
      have hbm : b + (j : ℤ) + 1 + 1 = b + m + 1 := by omega
      rw [hbm] at hmem ⊢
      simp only [List.mem_cons, List.not_mem_nil, or_false] at hmem
      rcases hmem with h | h
      · rw [h] at hlastNot; simp at hlastNot
      · exact h
  rcases Nat.eq_or_lt_of_le hc with hcm | hcm
  · -- all rows of the block are common
    subst hcm
    have splitNew : pathAt w (b + c + 1) = .ExtensionNew → ∀ j, j + 1 = c →
        Extendable (w.adv .domain (b + (j : ℕ) + 1)) ∧
        NodeAt .oldHash w U (b + (j : ℕ) + 1) (w.adv .domain (b + (j : ℕ) + 1)) ∧
        w.adv .oldHash (b + (j : ℕ) + 1) = 0 ∧
        NodeAt .newHash w U (b + (j : ℕ) + 1) (w.adv .domain (b + (j : ℕ) + 1)) := by
      intro hp j hj
      have h := (S.rows j (by omega)).path
      have hbm : b + (j : ℤ) + 1 + 1 = b + c + 1 := by omega
      rw [hcom j (by omega), hbm, hp] at h
      obtain ⟨k1, k2, k3⟩ := h
      rw [if_pos (by
        rcases hlast with h | h | h
        · rw [hstart.2 h] at hp; cases hp
        · rw [h]; simp
        · rw [h]; simp)] at k3
      exact ⟨k1, k2, k3⟩
    have splitOld : pathAt w (b + c + 1) = .ExtensionOld → ∀ j, j + 1 = c →
        Extendable (w.adv .domain (b + (j : ℕ) + 1)) ∧
        NodeAt .newHash w U (b + (j : ℕ) + 1) (w.adv .domain (b + (j : ℕ) + 1)) ∧
        w.adv .newHash (b + (j : ℕ) + 1) = 0 ∧
        NodeAt .oldHash w U (b + (j : ℕ) + 1) (w.adv .domain (b + (j : ℕ) + 1)) := by
      intro hp j hj
      have h := (S.rows j (by omega)).path
      have hbm : b + (j : ℤ) + 1 + 1 = b + c + 1 := by omega
      rw [hcom j (by omega), hbm, hp] at h
      obtain ⟨k1, k2, k3⟩ := h
      rw [if_pos (by
        rcases hlast with h | h | h
        · rw [hstart.2 h] at hp; cases hp
        · rw [h]; simp
        · rw [h]; simp)] at k3
      exact ⟨k1, k2, k3⟩
    cases hp : pathAt w (b + c + 1) with
    | Start => exact .inl ⟨.inr hp, S.common hm hcom (.inr (.inl hp))⟩
    | Common => exact .inl ⟨.inl hp, S.common hm hcom (.inl hp)⟩
    | ExtensionNew =>
      right; left
      refine ⟨.inl hp, ?_⟩
      obtain ⟨pre, ext, e1, e2, e3, e4, e5, e6, e8, e9⟩ := S.inserted hm .oldHash .newHash c le_rfl hcomN
        (fun j hj => by
          obtain ⟨k1, k2, k3⟩ := splitNew hp j hj
          exact ⟨k1, k2, by rw [if_pos rfl]; exact k3⟩) (by omega)
      exact ⟨pre, ext, e2, e3, e4, (by rw [hp]; intro h; cases h), e5, e6, hpre _ (by omega), c, le_rfl, e8, e9, hcom,
        fun j h1 h2 => absurd h2 (by omega)⟩
    | ExtensionOld =>
      right; right
      refine ⟨⟨.inl hp, ?_⟩, by simp⟩
      obtain ⟨pre, ext, e1, e2, e3, e4, e5, e6, e8, e9⟩ := S.inserted hm .newHash .oldHash c le_rfl
        (fun j hj => ⟨(hcomN j hj).2, (hcomN j hj).1⟩)
        (fun j hj => by
          obtain ⟨k1, k2, k3⟩ := splitOld hp j hj
          exact ⟨k1, k2, by rw [if_pos rfl]; exact k3⟩) (by omega)
      exact ⟨pre, ext, e2, e3, e4, (by rw [hp]; intro h; cases h), e5, e6, hpre _ (by omega), c, le_rfl, e8, e9, hcom,
        fun j h1 h2 => absurd h2 (by omega)⟩
  · -- the block ends with extension rows
    have hlastP : pathAt w (b + m) = q := by
      have := hext (m - 1) (by omega) (by omega)
      rwa [show b + ((m - 1 : ℕ) : ℤ) + 1 = b + m by omega] at this
    have hfirstP : pathAt w (b + c + 1) = q := hext c le_rfl hcm
    have hnx : pathAt w (b + m + 1) = q ∨ pathAt w (b + m + 1) = .Start := by
      have h := (S.rows (m - 1) (by omega)).pathNext
      rw [show b + ((m - 1 : ℕ) : ℤ) + 1 = b + m by omega, hlastP] at h
      rcases hq with rfl | rfl <;>
        simp only [forwardTransitions, pathTransitions, List.filter] at h <;>
        simpa using h
    have hleafNot : ∀ j, j + 1 = c →
        segAt w (b + (j : ℕ) + 1 + 1) ∉ [SegmentType.AccountLeaf0, .StorageLeaf0] := by
      intro j hj
      have := hnextTrie j (by omega)
      intro h0
      simp only [List.mem_cons, List.not_mem_nil, or_false] at this h0
      rcases this with h | h <;> rw [h] at h0 <;> simp at h0
    have hP : ∀ q', q = q' → (pathAt w (b + m + 1) = q' ∨
        (pathAt w (b + m + 1) = .Start ∧ 0 < m ∧ pathAt w (b + m) = q')) := by
      rintro q' rfl
      rcases hnx with h | h
      · exact .inl h
      · exact .inr ⟨h, by omega, hlastP⟩
    rcases hq with rfl | rfl
    · right; left
      refine ⟨hP _ rfl, ?_⟩
      obtain ⟨pre, ext, e1, e2, e3, e4, e5, e6, e8, e9⟩ := S.inserted hm .oldHash .newHash c hc hcomN
        (fun j hj => by
          have h := (S.rows j (by omega)).path
          have hbm : b + (j : ℤ) + 1 + 1 = b + c + 1 := by omega
          have hl := hleafNot j hj
          rw [hbm] at hl
          rw [hcom j (by omega), hbm, hfirstP] at h
          obtain ⟨k1, k2, k3⟩ := h
          rw [if_neg hl] at k3
          refine ⟨k1, k2, ?_⟩
          rw [if_neg (by omega), ← k3.1]
          exact k3.2) (extNew _ rfl hext)
      refine ⟨pre, ext, e2, e3, e4, fun _ h0 => ?_, e5, e6, hpre _ (by omega), c, hc, e8, e9, hcom, hext⟩
      rw [h0] at e2; simp at e2; omega
    · right; right
      obtain ⟨pre, ext, e1, e2, e3, e4, e5, e6, e8, e9⟩ := S.inserted hm .newHash .oldHash c hc
        (fun j hj => ⟨(hcomN j hj).2, (hcomN j hj).1⟩)
        (fun j hj => by
          have h := (S.rows j (by omega)).path
          have hbm : b + (j : ℤ) + 1 + 1 = b + c + 1 := by omega
          have hl := hleafNot j hj
          rw [hbm] at hl
          rw [hcom j (by omega), hbm, hfirstP] at h
          obtain ⟨k1, k2, k3⟩ := h
          rw [if_neg hl] at k3
          refine ⟨k1, k2, ?_⟩
          rw [if_neg (by omega), ← k3.1]
          exact k3.2) (extOld _ rfl hext)
      refine ⟨⟨hP _ rfl, pre, ext, e2, e3, e4, fun _ h0 => ?_, e5, e6, hpre _ (by omega), c, hc, e8, e9, hcom, hext⟩, ?_⟩
      · rw [h0] at e2; simp at e2; omega
      · intro hS
        have h := (S.rows (m - 1) (by omega)).path
        rw [show b + ((m - 1 : ℕ) : ℤ) + 1 = b + m by omega, hlastP] at h
        obtain ⟨ht, hst, _⟩ := h
        have hsg : segAt w (b + m) = .StorageTrie := by
          rcases hst with h | h
          · exact h
          · have := htrie (m - 1) (by omega)
            rw [show b + ((m - 1 : ℕ) : ℤ) + 1 = b + m by omega, h] at this; simp at this
        obtain ⟨l, hl, hmem⟩ := R.next (r := b + m) (by omega) (by omega)
        rw [(R.keep' (r := b + m) (by omega) (by omega)).1] at ht
        rw [ht, hsg] at hl
        cases hl
        rw [hstart.1 hS] at hmem
        simp at hmem

end Run
end Mpt
