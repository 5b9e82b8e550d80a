import Verif.Spec.Tries
import Verif.Spec.Honest

set_option autoImplicit false

/-!
# Specification: zktries and their updates

The tries the circuit is about, as a data structure of their own: the domain of an internal node is
determined by which of its children are internal nodes. Insertion, replacement and removal of a leaf are
defined here as functions on tries, with theorems on what the result stores. Nothing here mentions the code.
-/

namespace Mpt.Spec
open Mpt (Fr HashFn HashDomain)

inductive ZkTrie
  | empty
  | leaf (key data : Fr)
  | node (left right : ZkTrie)

namespace ZkTrie

def isNode : ZkTrie → Bool
  | node _ _ => true
  | _ => false

/-- The domain of the node with children `l` and `r`. -/
def domain (l r : ZkTrie) : HashDomain :=
  match l.isNode, r.isNode with
  | false, false => .Branch0
  | false, true => .Branch1
  | true, false => .Branch2
  | true, true => .Branch3

/-- The same trie with the domains written down. -/
def trie : ZkTrie → Trie
  | empty => .empty
  | leaf k d => .leaf k d
  | node l r => .node (domain l r).toFr l.trie r.trie

/-- The hash of a trie, 0 for the empty one. -/
def hash (H : HashFn) (t : ZkTrie) : Fr := t.trie.hash H

/-- What a trie at depth `i` stores for `key`. -/
def getFrom (key : Fr) (i : ℕ) (t : ZkTrie) : Option Fr := t.trie.getFrom key i

/-- What a trie stores for `key`. -/
def get (t : ZkTrie) (key : Fr) : Option Fr := t.getFrom key 0

/-- Some leaf has this key and data. -/
def Mem (key data : Fr) (t : ZkTrie) : Prop := t.trie.Mem key data

/-- The node with child `x` in direction `bit` and the other child `s`. -/
def join (bit : Bool) (x s : ZkTrie) : ZkTrie := if bit then node s x else node x s

/-- The two leaves `key ↦ d`, `k ↦ e` below the first bit, from depth `i` on, where the keys differ. -/
def split (key d k e : Fr) : ℕ → ℕ → ZkTrie
  | 0, _ => leaf key d
  | f + 1, i =>
    if keyBit key i = keyBit k i then join (keyBit key i) (split key d k e f (i + 1)) empty
    else join (keyBit key i) (leaf key d) (leaf k e)

/-- Stores `key ↦ d`. -/
def put (key d : Fr) : ℕ → ZkTrie → ZkTrie
  | _, empty => leaf key d
  | i, leaf k e => if k = key then leaf key d else split key d k e (256 - i) i
  | i, node l r => if keyBit key i then node l (put key d (i + 1) r) else node (put key d (i + 1) l) r

/-- The node with these children; a single leaf needs no node. -/
def collapse : ZkTrie → ZkTrie → ZkTrie
  | empty, empty => empty
  | empty, leaf k d => leaf k d
  | leaf k d, empty => leaf k d
  | l, r => node l r

/-- Removes the leaf of `key`. -/
def remove (key : Fr) : ℕ → ZkTrie → ZkTrie
  | _, empty => empty
  | _, leaf k e => if k = key then empty else leaf k e
  | i, node l r =>
    if keyBit key i then collapse l (remove key (i + 1) r) else collapse (remove key (i + 1) l) r

/-- At depth `i`: every leaf is where the bits of its key lead, below every node there are at least two
leaves, and there are at most 256 levels. -/
def WFFrom : ℕ → ZkTrie → Prop
  | _, empty => True
  | _, leaf _ _ => True
  | i, node l r => i < 256 ∧ (l = empty → r.isNode = true) ∧ (r = empty → l.isNode = true) ∧
      (∀ k d, l.Mem k d → keyBit k i = false) ∧ (∀ k d, r.Mem k d → keyBit k i = true) ∧
      l.WFFrom (i + 1) ∧ r.WFFrom (i + 1)

/-- A well-formed trie. -/
def WF (t : ZkTrie) : Prop := t.WFFrom 0

/-- All leaves agree with `key` on the first `i` bits. -/
def Under (key : Fr) (i : ℕ) (t : ZkTrie) : Prop := ∀ k d, t.Mem k d → ∀ j < i, keyBit k j = keyBit key j

@[simp] theorem mem_empty {k d : Fr} : ¬ Mem k d empty := id
@[simp] theorem mem_leaf {k d k' d' : Fr} : Mem k d (leaf k' d') ↔ k' = k ∧ d' = d := Iff.rfl
@[simp] theorem mem_node {k d : Fr} {l r : ZkTrie} : Mem k d (node l r) ↔ l.Mem k d ∨ r.Mem k d := Iff.rfl
@[simp] theorem mem_join {k d : Fr} {b : Bool} {x s : ZkTrie} :
    Mem k d (join b x s) ↔ x.Mem k d ∨ s.Mem k d := by
  cases b <;> simp [join, or_comm]

@[simp] theorem getFrom_empty {key : Fr} {i : ℕ} : getFrom key i empty = none := rfl
@[simp] theorem getFrom_leaf {key k d : Fr} {i : ℕ} :
    getFrom key i (leaf k d) = if k = key then some d else none := rfl
theorem getFrom_node {key : Fr} {i : ℕ} {l r : ZkTrie} :
    getFrom key i (node l r) = bif keyBit key i then r.getFrom key (i + 1) else l.getFrom key (i + 1) := rfl
theorem getFrom_join {key : Fr} {i : ℕ} {b : Bool} {x s : ZkTrie} :
    getFrom key i (join b x s) =
      if keyBit key i = b then x.getFrom key (i + 1) else s.getFrom key (i + 1) := by
  cases b <;> cases h : keyBit key i <;> simp [join, getFrom_node, h]

/-- Different keys differ in one of the first 256 bits. -/
theorem differ {k key : Fr} (h : k ≠ key) {i : ℕ} (ha : ∀ j < i, keyBit k j = keyBit key j) :
    ∃ j, i ≤ j ∧ j < 256 ∧ keyBit key j ≠ keyBit k j := by
  by_contra hc
  push Not at hc
  refine h (ZMod.val_injective _ (Nat.eq_of_testBit_eq fun j => ?_))
  by_cases hj : j < 256
  · rcases Nat.lt_or_ge j i with hi | hi
    · exact ha j hi
    · exact (hc j hi hj).symm
  · have hlt : ∀ x : Fr, x.val < 2 ^ j := fun x =>
      lt_of_lt_of_le (lt_trans (ZMod.val_lt x) (by decide : Mpt.frModulus < 2 ^ 256))
        (Nat.pow_le_pow_right (by norm_num) (by omega))
    rw [Nat.testBit_lt_two_pow (hlt k), Nat.testBit_lt_two_pow (hlt key)]

/-! ## Splitting -/

theorem split_mem {key d k e : Fr} {f i : ℕ} {k' d' : Fr} (h : Mem k' d' (split key d k e f i)) :
    k' = key ∧ d' = d ∨ k' = k ∧ d' = e := by
  induction f generalizing i with
  | zero => exact .inl ⟨h.1.symm, h.2.symm⟩
  | succ f ih =>
    rw [split] at h
    split at h
    · rcases mem_join.1 h with h | h
      · exact ih h
      · exact absurd h mem_empty
    · rcases mem_join.1 h with h | h
      · exact .inl ⟨h.1.symm, h.2.symm⟩
      · exact .inr ⟨h.1.symm, h.2.symm⟩

theorem split_get {key d k e : Fr} {f i : ℕ} (hf : ∃ j, i ≤ j ∧ j < i + f ∧ keyBit key j ≠ keyBit k j)
    (k' : Fr) : getFrom k' i (split key d k e f i) =
      if k' = key then some d else if k' = k then some e else none := by
  induction f generalizing i with
  | zero => obtain ⟨j, h1, h2, -⟩ := hf; omega
  | succ f ih =>
    have hne : key ≠ k := by rintro rfl; obtain ⟨j, -, -, h⟩ := hf; exact h rfl
    rw [split]
    split
    · rename_i hb
      obtain ⟨j, h1, h2, h3⟩ := hf
      have hj : i ≠ j := by rintro rfl; exact h3 hb
      rw [getFrom_join, ih ⟨j, by omega, by omega, h3⟩]
      split
      · rfl
      · rename_i hb'
        have n1 : k' ≠ key := by rintro rfl; exact hb' rfl
        have n2 : k' ≠ k := by rintro rfl; exact hb' hb.symm
        simp [n1, n2]
    · rename_i hb
      rw [getFrom_join]
      split
      · rename_i hb'
        have n2 : k' ≠ k := by rintro rfl; exact hb hb'.symm
        simp [n2, eq_comm]
      · rename_i hb'
        have n1 : k' ≠ key := by rintro rfl; exact hb' rfl
        simp [n1, eq_comm]

theorem split_ne {key d k e : Fr} {f i : ℕ} : split key d k e f i ≠ empty := by
  cases f with
  | zero => simp [split]
  | succ f => rw [split]; split <;> cases keyBit key i <;> simp [join]

theorem split_isNode {key d k e : Fr} {f i : ℕ} (hf : 0 < f) : (split key d k e f i).isNode = true := by
  cases f with
  | zero => omega
  | succ f => rw [split]; split <;> cases keyBit key i <;> simp [join, isNode]

theorem wf_join {b : Bool} {x s : ZkTrie} {i : ℕ} (hi : i < 256) (h1 : x = empty → s.isNode = true)
    (h2 : s = empty → x.isNode = true) (hx : ∀ k d, x.Mem k d → keyBit k i = b)
    (hs : ∀ k d, s.Mem k d → keyBit k i = !b) (wx : x.WFFrom (i + 1)) (ws : s.WFFrom (i + 1)) :
    (join b x s).WFFrom i := by
  cases b
  · exact ⟨hi, h1, h2, hx, hs, wx, ws⟩
  · exact ⟨hi, h2, h1, hs, hx, ws, wx⟩

theorem split_wf {key d k e : Fr} {f i : ℕ} (hi : i + f ≤ 256)
    (hf : ∃ j, i ≤ j ∧ j < i + f ∧ keyBit key j ≠ keyBit k j) :
    (split key d k e f i).WFFrom i := by
  induction f generalizing i with
  | zero => exact trivial
  | succ f ih =>
    obtain ⟨j, h1, h2, h3⟩ := hf
    rw [split]
    split
    · rename_i hb
      have hj : i ≠ j := by rintro rfl; exact h3 hb
      have hf0 : 0 < f := by omega
      refine wf_join (by omega) (fun h => absurd h split_ne) (fun _ => split_isNode hf0) ?_ ?_
        (ih (by omega) ⟨j, by omega, by omega, h3⟩) trivial
      · intro k' d' h
        rcases split_mem h with ⟨rfl, -⟩ | ⟨rfl, -⟩
        · rfl
        · exact hb.symm
      · intro k' d' h; exact absurd h mem_empty
    · rename_i hb
      refine wf_join (by omega) (by simp) (by simp) ?_ ?_ trivial trivial
      · rintro k' d' ⟨rfl, -⟩; rfl
      · rintro k' d' ⟨rfl, -⟩
        cases h1 : keyBit key i <;> cases h2 : keyBit k i <;> simp_all

/-! ## Storing a leaf -/

theorem under_node {key : Fr} {i : ℕ} {l r : ZkTrie} (h : Under key i (node l r)) :
    Under key i l ∧ Under key i r :=
  ⟨fun k d hm => h k d (.inl hm), fun k d hm => h k d (.inr hm)⟩

theorem under_succ {key : Fr} {i : ℕ} {t : ZkTrie} (h : Under key i t)
    (hb : ∀ k d, t.Mem k d → keyBit k i = keyBit key i) : Under key (i + 1) t := by
  intro k d hm j hj
  rcases Nat.lt_succ_iff_lt_or_eq.1 hj with hj | rfl
  · exact h k d hm j hj
  · exact hb k d hm

theorem put_ne {key d : Fr} {i : ℕ} {t : ZkTrie} : t.put key d i ≠ empty := by
  cases t with
  | empty => simp [put]
  | leaf k e => rw [put]; split <;> simp [split_ne]
  | node l r => rw [put]; split <;> simp

theorem put_isNode {key d : Fr} {i : ℕ} {t : ZkTrie} (h : t.isNode = true) :
    (t.put key d i).isNode = true := by
  cases t with
  | empty => cases h
  | leaf k e => cases h
  | node l r => rw [put]; split <;> rfl

theorem put_mem {key d : Fr} {i : ℕ} {t : ZkTrie} {k' d' : Fr} (h : Mem k' d' (t.put key d i)) :
    k' = key ∧ d' = d ∨ Mem k' d' t := by
  induction t generalizing i with
  | empty => exact .inl ⟨h.1.symm, h.2.symm⟩
  | leaf k e =>
    rw [put] at h
    split at h
    · exact .inl ⟨h.1.symm, h.2.symm⟩
    · rcases split_mem h with h | ⟨rfl, rfl⟩
      · exact .inl h
      · exact .inr ⟨rfl, rfl⟩
  | node l r hl hr =>
    rw [put] at h
    split at h
    · rcases h with h | h
      · exact .inr (.inl h)
      · rcases hr h with h | h
        · exact .inl h
        · exact .inr (.inr h)
    · rcases h with h | h
      · rcases hl h with h | h
        · exact .inl h
        · exact .inr (.inl h)
      · exact .inr (.inr h)

theorem put_wf {key d : Fr} {i : ℕ} {t : ZkTrie} (hw : t.WFFrom i) (hu : Under key i t) :
    (t.put key d i).WFFrom i := by
  induction t generalizing i with
  | empty => exact trivial
  | leaf k e =>
    rw [put]
    split
    · exact trivial
    · rename_i hne
      obtain ⟨j, h1, h2, h3⟩ := differ hne (hu k e ⟨rfl, rfl⟩)
      exact split_wf (by omega) ⟨j, h1, by omega, h3⟩
  | node l r hl hr =>
    obtain ⟨w0, w1, w2, w3, w4, w5, w6⟩ := hw
    obtain ⟨ul, ur⟩ := under_node hu
    rw [put]
    split
    · rename_i hb
      refine ⟨w0, fun h => put_isNode (w1 h), fun h => absurd h put_ne, w3, ?_, w5,
        hr w6 (under_succ ur fun k e hm => (w4 k e hm).trans hb.symm)⟩
      intro k' d' h
      rcases put_mem h with ⟨rfl, -⟩ | h
      · exact hb
      · exact w4 _ _ h
    · rename_i hb
      simp only [Bool.not_eq_true] at hb
      refine ⟨w0, fun h => absurd h put_ne, fun h => put_isNode (w2 h), ?_, w4,
        hl w5 (under_succ ul fun k e hm => (w3 k e hm).trans hb.symm), w6⟩
      intro k' d' h
      rcases put_mem h with ⟨rfl, -⟩ | h
      · exact hb
      · exact w3 _ _ h

theorem put_getFrom {key d : Fr} {i : ℕ} {t : ZkTrie} (hw : t.WFFrom i) (hu : Under key i t) (k' : Fr) :
    getFrom k' i (t.put key d i) = if k' = key then some d else t.getFrom k' i := by
  induction t generalizing i with
  | empty => simp [put, eq_comm]
  | leaf k e =>
    rw [put]
    split
    · rename_i h; subst h; by_cases h : k' = k <;> simp [h, eq_comm]
    · rename_i hne
      obtain ⟨j, h1, h2, h3⟩ := differ hne (hu k e ⟨rfl, rfl⟩)
      rw [split_get ⟨j, h1, by omega, h3⟩]
      simp [eq_comm]
  | node l r hl hr =>
    obtain ⟨w0, w1, w2, w3, w4, w5, w6⟩ := hw
    obtain ⟨ul, ur⟩ := under_node hu
    rw [put]
    split
    · rename_i hb
      have := hr w6 (under_succ ur fun k e hm => (w4 k e hm).trans hb.symm)
      simp only [getFrom_node, this]
      cases hb' : keyBit k' i
      · have : k' ≠ key := by rintro rfl; simp [hb] at hb'
        simp [this]
      · simp
    · rename_i hb
      simp only [Bool.not_eq_true] at hb
      have := hl w5 (under_succ ul fun k e hm => (w3 k e hm).trans hb.symm)
      simp only [getFrom_node, this]
      cases hb' : keyBit k' i
      · simp
      · have : k' ≠ key := by rintro rfl; simp [hb] at hb'
        simp [this]

/-! ## Removing a leaf -/

theorem collapse_mem {l r : ZkTrie} {k d : Fr} : Mem k d (collapse l r) ↔ l.Mem k d ∨ r.Mem k d := by
  cases l <;> cases r <;> simp [collapse]

theorem remove_mem {key : Fr} {i : ℕ} {t : ZkTrie} {k d : Fr} (h : Mem k d (t.remove key i)) : Mem k d t := by
  induction t generalizing i with
  | empty => exact h
  | leaf k' e =>
    rw [remove] at h
    split at h
    · exact absurd h mem_empty
    · exact h
  | node l r hl hr =>
    rw [remove] at h
    split at h
    · rcases collapse_mem.1 h with h | h
      · exact .inl h
      · exact .inr (hr h)
    · rcases collapse_mem.1 h with h | h
      · exact .inl (hl h)
      · exact .inr h

theorem collapse_wf {l r : ZkTrie} {i : ℕ} (hi : i < 256) (w3 : ∀ k d, l.Mem k d → keyBit k i = false)
    (w4 : ∀ k d, r.Mem k d → keyBit k i = true) (wl : l.WFFrom (i + 1)) (wr : r.WFFrom (i + 1)) :
    (collapse l r).WFFrom i := by
  cases l <;> cases r <;>
    first
    | exact trivial
    | exact ⟨hi, by simp [isNode], by simp [isNode], w3, w4, wl, wr⟩

theorem remove_wf {key : Fr} {i : ℕ} {t : ZkTrie} (hw : t.WFFrom i) : (t.remove key i).WFFrom i := by
  induction t generalizing i with
  | empty => exact trivial
  | leaf k e => rw [remove]; split <;> exact trivial
  | node l r hl hr =>
    obtain ⟨w0, w1, w2, w3, w4, w5, w6⟩ := hw
    rw [remove]
    split
    · exact collapse_wf w0 w3 (fun k d h => w4 k d (remove_mem h)) w5 (hr w6)
    · exact collapse_wf w0 (fun k d h => w3 k d (remove_mem h)) w4 (hl w5) w6

theorem collapse_getFrom {l r : ZkTrie} {i : ℕ} (w3 : ∀ k d, l.Mem k d → keyBit k i = false)
    (w4 : ∀ k d, r.Mem k d → keyBit k i = true) (k' : Fr) :
    getFrom k' i (collapse l r) = getFrom k' i (node l r) := by
  cases l with
  | node => rfl
  | empty =>
    cases r with
    | empty => simp [collapse, getFrom_node]
    | node => rfl
    | leaf k d =>
      have := w4 k d ⟨rfl, rfl⟩
      simp only [collapse, getFrom_node, getFrom_leaf, getFrom_empty]
      by_cases h : k = k'
      · subst h; simp [this]
      · simp [h]
  | leaf k d =>
    cases r with
    | leaf => rfl
    | node => rfl
    | empty =>
      have := w3 k d ⟨rfl, rfl⟩
      simp only [collapse, getFrom_node, getFrom_leaf, getFrom_empty]
      by_cases h : k = k'
      · subst h; simp [this]
      · simp [h]

theorem remove_getFrom {key : Fr} {i : ℕ} {t : ZkTrie} (hw : t.WFFrom i) (k' : Fr) :
    getFrom k' i (t.remove key i) = if k' = key then none else t.getFrom k' i := by
  induction t generalizing i with
  | empty => simp [remove]
  | leaf k e =>
    rw [remove]
    split
    · rename_i h; subst h; by_cases h : k' = k <;> simp [h, eq_comm]
    · rename_i h
      by_cases h' : k' = key
      · subst h'; simp [h]
      · simp [h']
  | node l r hl hr =>
    obtain ⟨w0, w1, w2, w3, w4, w5, w6⟩ := hw
    rw [remove]
    split
    · rename_i hb
      rw [collapse_getFrom w3 (fun k d h => w4 k d (remove_mem h)), getFrom_node, getFrom_node, hr w6]
      cases hb' : keyBit k' i
      · have : k' ≠ key := by rintro rfl; simp [hb] at hb'
        simp [this]
      · simp
    · rename_i hb
      simp only [Bool.not_eq_true] at hb
      rw [collapse_getFrom (fun k d h => w3 k d (remove_mem h)) w4, getFrom_node, getFrom_node, hl w5]
      cases hb' : keyBit k' i
      · simp
      · have : k' ≠ key := by rintro rfl; simp [hb] at hb'
        simp [this]

/-! ## What the operations do, at the root -/

theorem under_zero (key : Fr) (t : ZkTrie) : Under key 0 t := fun _ _ _ _ h => absurd h (by omega)

/-- Storing a leaf: the trie stays well-formed, stores the new data for the key and is otherwise
unchanged. -/
theorem put_spec {t : ZkTrie} (h : t.WF) (key d : Fr) :
    (t.put key d 0).WF ∧ ∀ k, (t.put key d 0).get k = if k = key then some d else t.get k :=
  ⟨put_wf h (under_zero _ _), put_getFrom h (under_zero _ _)⟩

/-- Removing a leaf: the trie stays well-formed, stores nothing for the key and is otherwise
unchanged. -/
theorem remove_spec {t : ZkTrie} (h : t.WF) (key : Fr) :
    (t.remove key 0).WF ∧ ∀ k, (t.remove key 0).get k = if k = key then none else t.get k :=
  ⟨remove_wf h, remove_getFrom h⟩

end ZkTrie
end Mpt.Spec
