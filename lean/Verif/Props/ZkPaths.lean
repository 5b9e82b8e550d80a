import Verif.Spec.Zktrie
import Verif.Props.HonestInput

set_option autoImplicit false

/-!
# Paths in zktries

The path of a key in a zktrie, and the pairs of paths before and after a leaf is stored or removed: they
are honest pairs of paths (`LevelHonest`, `SameSiblings`, `EndPlaced`).
-/

namespace Mpt.Spec.ZkTrie
open Mpt Mpt.Props

/-- The internal nodes on the path of `key`, from the top. -/
def path (H : HashFn) (key : Fr) : ℕ → ZkTrie → List PathNode
  | i, node l r =>
    if keyBit key i then ⟨r.hash H, l.hash H, domain l r⟩ :: path H key (i + 1) r
    else ⟨l.hash H, r.hash H, domain l r⟩ :: path H key (i + 1) l
  | _, empty => []
  | _, leaf _ _ => []

/-- What stands at the end of the path of `key`. -/
def endOf (key : Fr) : ℕ → ZkTrie → PathEnd
  | i, node l r => if keyBit key i then endOf key (i + 1) r else endOf key (i + 1) l
  | _, empty => none
  | _, leaf k d => some (k, d)

/-- Induction along the path of a key. -/
theorem pathInduction (key : Fr) {P : ZkTrie → ℕ → Prop} (h0 : ∀ i, P empty i)
    (h1 : ∀ i k d, P (leaf k d) i) (h2 : ∀ i x s, P x (i + 1) → P (join (keyBit key i) x s) i) :
    ∀ (t : ZkTrie) (i : ℕ), P t i := by
  intro t
  induction t with
  | empty => exact h0
  | leaf k d => exact fun i => h1 i k d
  | node l r hl hr =>
    intro i
    cases hb : keyBit key i
    · have := h2 i l r (hl _); rw [hb] at this; exact this
    · have := h2 i r l (hr _); rw [hb] at this; exact this

section
variable {H : HashFn} {key : Fr}

theorem childIsBranch_domain (l r : ZkTrie) (b : Bool) :
    childIsBranch (domain l r) b = (if b then r else l).isNode := by
  cases b <;> cases hl : l.isNode <;> cases hr : r.isNode <;> simp [domain, hl, hr, childIsBranch]

theorem branchDomain_domain (l r : ZkTrie) : branchDomain (domain l r) := by
  cases hl : l.isNode <;> cases hr : r.isNode <;> simp [domain, hl, hr, branchDomain]

/-- The domain of `join b x s`. -/
def jdomain (b : Bool) (x s : ZkTrie) : HashDomain := if b then domain s x else domain x s

theorem jdomain_child (b : Bool) (x s : ZkTrie) : childIsBranch (jdomain b x s) b = x.isNode := by
  cases b <;> simp [jdomain, childIsBranch_domain]

theorem jdomain_sibling (b : Bool) (x s : ZkTrie) : childIsBranch (jdomain b x s) (!b) = s.isNode := by
  cases b <;> simp [jdomain, childIsBranch_domain]

theorem jdomain_branch (b : Bool) (x s : ZkTrie) : branchDomain (jdomain b x s) := by
  cases b <;> exact branchDomain_domain _ _

theorem path_join (i : ℕ) (x s : ZkTrie) : path H key i (join (keyBit key i) x s) =
    ⟨x.hash H, s.hash H, jdomain (keyBit key i) x s⟩ :: path H key (i + 1) x := by
  cases hb : keyBit key i <;> simp [join, path, hb, jdomain]

theorem endOf_join (i : ℕ) (x s : ZkTrie) :
    endOf key i (join (keyBit key i) x s) = endOf key (i + 1) x := by
  cases hb : keyBit key i <;> simp [join, endOf, hb]

theorem put_join (d : Fr) (i : ℕ) (x s : ZkTrie) : (join (keyBit key i) x s).put key d i =
    join (keyBit key i) (x.put key d (i + 1)) s := by
  cases hb : keyBit key i <;> simp [join, put, hb]

/-- `collapse` with the changed child in direction `b`. -/
def jcollapse (b : Bool) (x s : ZkTrie) : ZkTrie := if b then collapse s x else collapse x s

theorem remove_join (i : ℕ) (x s : ZkTrie) : (join (keyBit key i) x s).remove key i =
    jcollapse (keyBit key i) (x.remove key (i + 1)) s := by
  cases hb : keyBit key i <;> simp [join, remove, hb, jcollapse]

theorem getFrom_join_self (i : ℕ) (x s : ZkTrie) :
    getFrom key i (join (keyBit key i) x s) = getFrom key (i + 1) x := by
  rw [getFrom_join, if_pos rfl]

theorem hash_join (b : Bool) (x s : ZkTrie) : (join b x s).hash H =
    PathNode.hash H b ⟨x.hash H, s.hash H, jdomain b x s⟩ := by
  cases b <;> rfl

theorem isNode_join (b : Bool) (x s : ZkTrie) : (join b x s).isNode = true := by cases b <;> rfl

theorem wf_of_join {b : Bool} {i : ℕ} {x s : ZkTrie} (h : (join b x s).WFFrom i) :
    i < 256 ∧ (x = empty → s.isNode = true) ∧ (s = empty → x.isNode = true) ∧
      (∀ k d, x.Mem k d → keyBit k i = b) ∧ (∀ k d, s.Mem k d → keyBit k i = !b) ∧
      x.WFFrom (i + 1) ∧ s.WFFrom (i + 1) := by
  cases b
  · exact h
  · obtain ⟨h0, h1, h2, h3, h4, h5, h6⟩ := h
    exact ⟨h0, h2, h1, h4, h3, h6, h5⟩

theorem path_nil_iff (i : ℕ) (t : ZkTrie) : path H key i t ≠ [] ↔ t.isNode = true := by
  cases t with
  | empty => simp [path, isNode]
  | leaf => simp [path, isNode]
  | node l r => rw [path]; split <;> simp [isNode]

/-! ## One path -/

theorem path_ok (t : ZkTrie) (i : ℕ) : PathOK H key i (t.path H key i) (endHash H (t.endOf key i)) (t.hash H) := by
  induction t, i using pathInduction key with
  | h0 i => rfl
  | h1 i k d => rfl
  | h2 i x s ih => rw [path_join, endOf_join]; exact ⟨hash_join _ _ _, ih⟩

theorem path_truthful (t : ZkTrie) (i : ℕ) : Truthful key i (t.path H key i) := by
  induction t, i using pathInduction key with
  | h0 i => exact trivial
  | h1 i k d => exact trivial
  | h2 i x s ih =>
    rw [path_join]
    exact ⟨jdomain_branch _ _ _, by rw [jdomain_child, path_nil_iff], ih⟩

theorem path_length (t : ZkTrie) (i : ℕ) (hw : t.WFFrom i) (hi : i ≤ 256) :
    (t.path H key i).length + i ≤ 256 := by
  induction t, i using pathInduction key with
  | h0 i => simpa [path] using hi
  | h1 i k d => simpa [path] using hi
  | h2 i x s ih =>
    obtain ⟨h0, -, -, -, -, h5, -⟩ := wf_of_join hw
    have := ih h5 h0
    rw [path_join, List.length_cons]; omega

theorem endOf_mem (t : ZkTrie) (i : ℕ) {k d : Fr} (h : t.endOf key i = some (k, d)) : t.Mem k d := by
  induction t, i using pathInduction key with
  | h0 i => simp [endOf] at h
  | h1 i k' d' => simpa [endOf] using h
  | h2 i x s ih => rw [endOf_join] at h; exact mem_join.2 (.inl (ih h))

theorem endOf_placed (t : ZkTrie) (i : ℕ) (hw : t.WFFrom i) {k d : Fr} (h : t.endOf key i = some (k, d)) :
    ∀ j, i ≤ j → j < i + (t.path H key i).length → keyBit k j = keyBit key j := by
  induction t, i using pathInduction key with
  | h0 i => intro j h1 h2; simp [path] at h2; omega
  | h1 i k' d' => intro j h1 h2; simp [path] at h2; omega
  | h2 i x s ih =>
    obtain ⟨-, -, -, h3, -, h5, -⟩ := wf_of_join hw
    rw [endOf_join] at h
    intro j h1 h2
    rw [path_join, List.length_cons] at h2
    rcases Nat.eq_or_lt_of_le h1 with rfl | h1
    · exact h3 _ _ (endOf_mem _ _ h)
    · exact ih h5 h j (by omega) (by omega)

theorem getFrom_endOf (t : ZkTrie) (i : ℕ) : t.getFrom key i =
    match t.endOf key i with
    | some (k, d) => if k = key then some d else none
    | none => none := by
  induction t, i using pathInduction key with
  | h0 i => rfl
  | h1 i k' d' => rfl
  | h2 i x s ih => rw [getFrom_join_self, endOf_join]; exact ih

theorem endOf_of_get {t : ZkTrie} {i : ℕ} {d : Fr} (h : t.getFrom key i = some d) :
    t.endOf key i = some (key, d) := by
  rw [getFrom_endOf] at h
  split at h
  · rename_i k e he
    split at h
    · rename_i hk; subst hk; cases h; exact he
    · cases h
  · cases h

theorem endOf_of_none {t : ZkTrie} {i : ℕ} (h : t.getFrom key i = none) {k e : Fr}
    (he : t.endOf key i = some (k, e)) : k ≠ key := by
  rintro rfl
  rw [getFrom_endOf, he] at h
  simp at h

/-! ## Two paths -/

/-- A pair of paths with the shape for the change `c`, the same siblings and the end `en` of the second. -/
structure Pair (H : HashFn) (key : Fr) (c : Change) (i : ℕ) (t t' : ZkTrie) : Prop where
  shape : PathShape c (endHash H (t.endOf key i)) (endHash H (t'.endOf key i)) (t.path H key i) (t'.path H key i)
  siblings : SameSiblings key i (t.path H key i) (t'.path H key i)

theorem Pair.join {c : Change} {i : ℕ} {x x' : ZkTrie} (h : Pair H key c (i + 1) x x') (s : ZkTrie) :
    Pair H key c i (join (keyBit key i) x s) (ZkTrie.join (keyBit key i) x' s) := by
  constructor
  · rw [path_join, path_join, endOf_join, endOf_join]; exact h.shape
  · rw [path_join, path_join]
    exact ⟨rfl, by rw [jdomain_sibling, jdomain_sibling], h.siblings⟩

/-- The path is not changed when nothing is changed. -/
theorem pair_refl (t : ZkTrie) (i : ℕ) : Pair H key .same i t t := by
  induction t, i using pathInduction key with
  | h0 i => exact ⟨⟨by simp, by simp⟩, trivial⟩
  | h1 i k d => exact ⟨⟨by simp, by simp⟩, trivial⟩
  | h2 i x s ih => exact ih.join s

theorem endOf_put (d : Fr) (t : ZkTrie) (i : ℕ) (hw : t.WFFrom i) (hu : Under key i t) :
    (t.put key d i).endOf key i = some (key, d) := by
  refine endOf_of_get ?_
  rw [put_getFrom hw hu, if_pos rfl]

/-- Replacing the data of a leaf. -/
theorem pair_put_same {d e : Fr} (t : ZkTrie) (i : ℕ) (h : t.getFrom key i = some e) :
    Pair H key .same i t (t.put key d i) := by
  induction t, i using pathInduction key with
  | h0 i => simp at h
  | h1 i k' d' =>
    have hk : k' = key := by
      rw [getFrom_leaf] at h; by_contra hc; simp [hc] at h
    subst hk
    rw [put, if_pos rfl]
    exact ⟨⟨by simp, by simp⟩, trivial⟩
  | h2 i x s ih =>
    rw [getFrom_join_self] at h
    rw [put_join]
    exact (ih h).join s

theorem split_levels {d k e : Fr} (f i : ℕ) (hf : ∃ j, i ≤ j ∧ j < i + f ∧ keyBit key j ≠ keyBit k j) :
    ∃ q qs, path H key i (split key d k e f i) = q :: qs ∧
      SplitLevels (H k e HashDomain.Leaf.toFr) (q :: qs) := by
  induction f generalizing i with
  | zero => obtain ⟨j, h1, h2, -⟩ := hf; omega
  | succ f ih =>
    obtain ⟨j, h1, h2, h3⟩ := hf
    rw [split]
    split
    · rename_i hb
      have hj : i ≠ j := by rintro rfl; exact h3 hb
      obtain ⟨q, qs, h4, h5⟩ := ih (i + 1) ⟨j, by omega, by omega, h3⟩
      rw [path_join, h4]
      exact ⟨_, _, rfl, rfl, h5⟩
    · rw [path_join]
      exact ⟨_, _, rfl, rfl, trivial⟩

/-- Inserting a leaf. -/
theorem pair_put_insert {d : Fr} (t : ZkTrie) (i : ℕ) (hw : t.WFFrom i) (hu : Under key i t)
    (h : t.getFrom key i = none) : Pair H key .insert i t (t.put key d i) := by
  induction t, i using pathInduction key with
  | h0 i => exact ⟨⟨fun _ => rfl, by simp⟩, trivial⟩
  | h1 i k e =>
    have hk : k ≠ key := by rintro rfl; simp at h
    rw [put, if_neg hk]
    obtain ⟨j, h1, h2, h3⟩ := differ hk (hu k e ⟨rfl, rfl⟩)
    obtain ⟨q, qs, h4, h5⟩ := split_levels (H := H) (d := d) (e := e) (256 - i) i ⟨j, h1, by omega, h3⟩
    constructor
    · rw [h4]; exact ⟨rfl, h5⟩
    · rw [h4]; exact trivial
  | h2 i x s ih =>
    obtain ⟨-, -, -, h3, -, h5, -⟩ := wf_of_join hw
    rw [getFrom_join_self] at h
    rw [put_join]
    have hx : Under key i x := fun k d hm => hu k d (mem_join.2 (.inl hm))
    exact (ih h5 (under_succ hx h3) h).join s

theorem remove_ne (t : ZkTrie) (i : ℕ) (hw : t.WFFrom i) (hn : t.isNode = true) : t.remove key i ≠ empty := by
  induction t, i using pathInduction key with
  | h0 i => cases hn
  | h1 i k d => cases hn
  | h2 i x s ih =>
    obtain ⟨-, h1, h2, -, -, h5, -⟩ := wf_of_join hw
    rw [remove_join]
    intro hc
    have : s = empty ∧ x.remove key (i + 1) = empty := by
      generalize x.remove key (i + 1) = y at hc
      unfold jcollapse at hc
      split at hc <;> cases s <;> cases y <;> simp_all [collapse]
    exact ih h5 (h2 this.1) this.2

theorem jcollapse_cases (b : Bool) (y s : ZkTrie) :
    jcollapse b y s = join b y s ∨ (y = empty ∧ s = empty) ∨
      (∃ k d, y = leaf k d ∧ s = empty ∧ jcollapse b y s = leaf k d) ∨
      ∃ k d, y = empty ∧ s = leaf k d ∧ jcollapse b y s = leaf k d := by
  cases b <;> cases y <;> cases s <;> simp [jcollapse, join, collapse]

/-- Removing a leaf. -/
theorem pair_remove {e : Fr} (t : ZkTrie) (i : ℕ) (hw : t.WFFrom i) (h : t.getFrom key i = some e) :
    Pair H key .delete i t (t.remove key i) := by
  induction t, i using pathInduction key with
  | h0 i => simp at h
  | h1 i k' d' =>
    have hk : k' = key := by
      rw [getFrom_leaf] at h; by_contra hc; simp [hc] at h
    subst hk
    rw [remove, if_pos rfl]
    exact ⟨⟨by simp, fun _ => rfl⟩, trivial⟩
  | h2 i x s ih =>
    obtain ⟨-, h1, h2, -, -, h5, -⟩ := wf_of_join hw
    rw [getFrom_join_self] at h
    have ih := ih h5 h
    rw [remove_join]
    rcases jcollapse_cases (keyBit key i) (x.remove key (i + 1)) s with hc | ⟨hy, hs⟩ | ⟨k, d, hy, hs, hc⟩ |
      ⟨k, d, hy, hs, hc⟩
    · rw [hc]; exact ih.join s
    · exact absurd hy (remove_ne x _ h5 (h2 hs))
    · rw [hc]
      rw [hy] at ih
      have hx := (path_nil_iff (H := H) (key := key) (i + 1) x).2 (h2 hs)
      constructor
      · rw [path_join]
        refine ⟨rfl, ?_⟩
        have := ih.shape
        revert hx this
        cases hp : path H key (i + 1) x with
        | nil => intro hx; exact absurd rfl hx
        | cons p ps =>
          intro _ this
          exact ⟨by rw [hs]; rfl, this.2⟩
      · rw [path_join]; exact trivial
    · rw [hc]
      have hx : x.isNode = false := by
        cases hx : x.isNode
        · rfl
        · exact absurd hy (remove_ne x _ h5 hx)
      have hp : path H key (i + 1) x = [] := by
        by_contra hc
        rw [(path_nil_iff _ _).1 hc] at hx
        cases hx
      constructor
      · rw [path_join, hp]
        exact ⟨rfl, by rw [hs]; rfl, trivial⟩
      · rw [path_join]; exact trivial

end
end Mpt.Spec.ZkTrie
