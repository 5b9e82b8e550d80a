import Verif.Props.TrieOps

set_option autoImplicit false

/-!
# Paths before and after an insertion or a removal, in full (for C65)

`LevelHonest` says that two paths belong together; here is what more is true of the paths of a trie before and
after `put` and `remove`: the levels an insertion adds end where the two keys differ, and their siblings are no
branch nodes; after a removal the last node that is kept has something else below it.
-/

namespace Mpt.Spec
open Mpt

/-- The levels added next to the leaf of the key `other`. -/
def ExtStrict (key other : Fr) : ℕ → List PathNode → Prop
  | _, [] => True
  | i, p :: ps => childIsBranch p.domain (!keyBit key i) = false ∧ (keyBit key i = keyBit other i ↔ ps ≠ []) ∧
      ExtStrict key other (i + 1) ps

/-- The levels that only the second path has. -/
def InsStrict (key other : Fr) : ℕ → List PathNode → List PathNode → Prop
  | i, _ :: ps, _ :: qs => InsStrict key other (i + 1) ps qs
  | i, [], qs => ExtStrict key other i qs
  | _, _ :: _, [] => True

/-- The last node of the second path has another node next to the place where something was removed, and not
nothing next to the leaf that moved up. -/
def RemStrict (key : Fr) : ℕ → List PathNode → List PathNode → Prop
  | i, _ :: ps, q :: qs => (qs = [] → if ps = [] then childIsBranch q.domain (!keyBit key i) = true
      else q.sibling ≠ 0) ∧ RemStrict key (i + 1) ps qs
  | _, _, _ => True

namespace ZkTrie
variable {H : HashFn} {key : Fr} {S : Fr → Fr → Fr → Prop}

theorem insStrict_refl {other : Fr} (i : ℕ) (ps qs : List PathNode) (h : ps.length = qs.length) :
    InsStrict key other i ps qs := by
  induction ps generalizing i qs with
  | nil => cases qs with
    | nil => trivial
    | cons q qs => cases h
  | cons p ps ih => cases qs with
    | nil => trivial
    | cons q qs => exact ih (i + 1) qs (by simpa using h)

theorem split_strict {d k e : Fr} (f i : ℕ) (hf : ∃ j, i ≤ j ∧ j < i + f ∧ keyBit key j ≠ keyBit k j) :
    ExtStrict key k i (path H key i (split key d k e f i)) := by
  induction f generalizing i with
  | zero => obtain ⟨j, h1, h2, -⟩ := hf; omega
  | succ f ih =>
    obtain ⟨j, h1, h2, h3⟩ := hf
    rw [split]
    split
    · rename_i hb
      have hj : i ≠ j := by rintro rfl; exact h3 hb
      have hf : ∃ j, i + 1 ≤ j ∧ j < i + 1 + f ∧ keyBit key j ≠ keyBit k j := ⟨j, by omega, by omega, h3⟩
      rw [path_join]
      refine ⟨by rw [jdomain_sibling]; rfl, ?_, ih (i + 1) hf⟩
      refine iff_of_true hb ((path_nil_iff _ _).2 (split_isNode ?_))
      omega
    · rename_i hb
      rw [path_join]
      refine ⟨by rw [jdomain_sibling]; rfl, ?_, trivial⟩
      exact iff_of_false hb (by simp [path])

/-- Inserting a leaf. -/
theorem insStrict_put {d other : Fr} (t : ZkTrie) (i : ℕ) (hw : t.WFFrom i) (hu : Under key i t)
    (h : t.getFrom key i = none) (ho : ∀ k e, t.endOf key i = some (k, e) → other = k) :
    InsStrict key other i (t.path H key i) ((t.put key d i).path H key i) := by
  induction t, i using pathInduction key with
  | h0 i => trivial
  | h1 i k e =>
    have hk : k ≠ key := by rintro rfl; simp at h
    rw [put, if_neg hk]
    obtain ⟨j, h1, h2, h3⟩ := differ hk (hu k e ⟨rfl, rfl⟩)
    rw [ho k e rfl]
    exact split_strict (256 - i) i ⟨j, h1, by omega, h3⟩
  | h2 i x s ih =>
    obtain ⟨-, -, -, h3, -, h5, -⟩ := wf_of_join hw
    rw [getFrom_join_self] at h
    rw [put_join, path_join, path_join]
    have hx : Under key i x := fun k d hm => hu k d (mem_join.2 (.inl hm))
    rw [endOf_join] at ho
    exact ih h5 (under_succ hx h3) h ho

theorem inputs_join {b : Bool} {x s : ZkTrie} {l r d : Fr} (h : x.trie.Inputs H l r d ∨ s.trie.Inputs H l r d) :
    (join b x s).trie.Inputs H l r d := by
  cases b <;> simp only [join, trie, Bool.false_eq_true, if_false, if_true, Trie.Inputs]
  · exact .inr h
  · exact .inr h.symm

/-- Removing a leaf. -/
theorem remStrict_remove {e : Fr} (t : ZkTrie) (i : ℕ) (hw : t.WFFrom i) (h : t.getFrom key i = some e)
    (C : CollisionFree H (Or3 S (t.trie.Inputs H))) :
    RemStrict key i (t.path H key i) ((t.remove key i).path H key i) := by
  induction t, i using pathInduction key with
  | h0 i => trivial
  | h1 i k' d' => trivial
  | h2 i x s ih =>
    obtain ⟨-, h1, h2, -, -, h5, -⟩ := wf_of_join hw
    rw [getFrom_join_self] at h
    have Cx : CollisionFree H (Or3 S (x.trie.Inputs H)) :=
      C.mono fun _ _ _ h => h.imp id fun h => inputs_join (.inl h)
    have Cs : CollisionFree H (Or3 S (s.trie.Inputs H)) :=
      C.mono fun _ _ _ h => h.imp id fun h => inputs_join (.inr h)
    have ih := ih h5 h Cx
    rw [remove_join]
    rcases jcollapse_cases (keyBit key i) (x.remove key (i + 1)) s with hc | ⟨hy, hs⟩ | ⟨k, d, hy, hs, hc⟩ |
      ⟨k, d, hy, hs, hc⟩
    · rw [hc, path_join, path_join]
      refine ⟨fun hq => ?_, ih⟩
      have hy : (x.remove key (i + 1)).isNode = false := by
        by_contra hn
        exact (path_nil_iff (H := H) (key := key) _ _).2 (by simpa using hn) hq
      split
      · rename_i hp
        have hx : x.isNode = false := by
          by_contra hn
          exact (path_nil_iff (H := H) (key := key) _ _).2 (by simpa using hn) hp
        dsimp only
        rw [jdomain_sibling]
        have he : x.remove key (i + 1) = empty := by
          cases x with
          | empty => rfl
          | leaf k d =>
            have hk : k = key := by
              rw [getFrom_leaf] at h; by_contra hc; simp [hc] at h
            rw [remove, if_pos hk]
          | node l r => cases hx
        rw [he] at hc
        cases s with
        | node l r => rfl
        | empty => cases hb : keyBit key i <;> simp [hb, jcollapse, collapse, join] at hc
        | leaf k d => cases hb : keyBit key i <;> simp [hb, jcollapse, collapse, join] at hc
      · rename_i hp
        have hx : x.isNode = true := (path_nil_iff _ _).1 hp
        dsimp only
        intro h0
        have hs := eq_empty Cs h0
        subst hs
        have hne := remove_ne (key := key) x (i + 1) h5 hx
        generalize x.remove key (i + 1) = y at hc hy hne
        cases y with
        | empty => exact absurd rfl hne
        | node l r => cases hy
        | leaf k d => cases hb : keyBit key i <;> simp [hb, jcollapse, collapse, join] at hc
    · exact absurd hy (remove_ne x _ h5 (h2 hs))
    · rw [hc, path_join]; trivial
    · rw [hc, path_join]; trivial

end ZkTrie
end Mpt.Spec
