import Verif.Spec.Tries

set_option autoImplicit false

/-!
# Specification: insertions seen from a known trie
-/

namespace Mpt.Spec
open Mpt (Fr HashFn HashDomain)

/-- The new levels of an insertion at depth `i`: along the bits of `key`, with empty siblings except
the deepest, whose sibling is the displaced subtree; `bottom` is at the end. -/
def Trie.graft (key : Fr) (displaced bottom : Trie) : ℕ → List Step → Trie
  | _, [] => bottom
  | i, s :: rest =>
    if keyBit key i then .node s.domain (if rest = [] then displaced else .empty)
      (graft key displaced bottom (i + 1) rest)
    else .node s.domain (graft key displaced bottom (i + 1) rest)
      (if rest = [] then displaced else .empty)

section
variable {H : HashFn} {S : Fr → Fr → Fr → Prop} {key : Fr}

theorem ExtSiblings.cons {s : Step} {ext : List Step} {h : Fr} (hs : ExtSiblings (s :: ext) h) :
    (ext = [] ∧ s.sibling = h) ∨ (ext ≠ [] ∧ s.sibling = 0 ∧ ExtSiblings ext h) := by
  rcases hs with hs | ⟨e, he⟩
  · cases hs
  · cases e with
    | zero =>
      simp only [List.map_cons, List.replicate_zero, List.nil_append, List.cons.injEq,
        List.map_eq_nil_iff] at he
      exact .inl ⟨he.2, he.1⟩
    | succ e =>
      simp only [List.map_cons, List.replicate_succ, List.cons_append, List.cons.injEq] at he
      refine .inr ⟨?_, he.1, .inr ⟨e, he.2⟩⟩
      rintro rfl
      simp at he

theorem graft_hash {displaced bottom : Trie} {i : ℕ} {ext : List Step} {top : Fr}
    (hs : ExtSiblings ext (displaced.hash H))
    (ho : Opens (hashRel H S) key i ext (bottom.hash H) top) :
    (Trie.graft key displaced bottom i ext).hash H = top := by
  induction ext generalizing i top with
  | nil => exact ho.symm
  | cons s ext ih =>
    obtain ⟨h', h1, h2⟩ := ho
    have e : (Trie.graft key displaced bottom (i + 1) ext).hash H = h' := by
      rcases hs.cons with ⟨rfl, -⟩ | ⟨-, -, hs'⟩
      · exact h2.symm
      · exact ih hs' h2
    have e2 : (if ext = [] then displaced else Trie.empty).hash H = s.sibling := by
      rcases hs.cons with ⟨rfl, h⟩ | ⟨hne, h, -⟩
      · simp [h]
      · rw [if_neg hne, h]; rfl
    simp only [Node] at h1
    simp only [Trie.graft]
    split at h1
    · rw [if_pos ‹_›, Trie.hash, e, e2]; exact h1.1.symm
    · rw [if_neg ‹_›, Trie.hash, e, e2]; exact h1.1.symm

theorem graft_branching {displaced bottom : Trie} {i : ℕ} {ext : List Step}
    (h1 : displaced.Branching) (h2 : bottom.Branching) (hp : ∀ s ∈ ext, IsBranch s.domain) :
    (Trie.graft key displaced bottom i ext).Branching := by
  induction ext generalizing i with
  | nil => exact h2
  | cons s ext ih =>
    have e := ih (i := i + 1) (fun s' h => hp s' (List.mem_cons_of_mem _ h))
    have e2 : (if ext = [] then displaced else Trie.empty).Branching := by
      split
      · exact h1
      · trivial
    simp only [Trie.graft]
    split
    · exact ⟨hp s (List.mem_cons_self ..), e2, e⟩
    · exact ⟨hp s (List.mem_cons_self ..), e, e2⟩

/-- The grafted levels lead to the bottom along `key`. -/
theorem graft_get_self {displaced bottom : Trie} {i : ℕ} {ext : List Step} :
    (Trie.graft key displaced bottom i ext).getFrom key i = bottom.getFrom key (i + ext.length) := by
  induction ext generalizing i with
  | nil => rfl
  | cons s ext ih =>
    simp only [Trie.graft, List.length_cons]
    split
    · rename_i hk
      simp only [Trie.getFrom, hk, cond_true]
      rw [ih, show i + 1 + ext.length = i + (ext.length + 1) by omega]
    · rename_i hk
      simp only [Trie.getFrom, eq_false_of_ne_true hk, cond_false]
      rw [ih, show i + 1 + ext.length = i + (ext.length + 1) by omega]

/-- A key that is neither in the displaced subtree nor in the bottom is not in the graft. -/
theorem graft_get_none {displaced bottom : Trie} {i : ℕ} {ext : List Step} {key' : Fr}
    (h1 : ∀ j, displaced.getFrom key' j = none) (h2 : ∀ j, bottom.getFrom key' j = none) :
    (Trie.graft key displaced bottom i ext).getFrom key' i = none := by
  induction ext generalizing i with
  | nil => exact h2 i
  | cons s ext ih =>
    have e2 : ∀ j, (if ext = [] then displaced else Trie.empty).getFrom key' j = none := by
      intro j
      split
      · exact h1 j
      · rfl
    simp only [Trie.graft]
    split <;> simp only [Trie.getFrom] <;> cases keyBit key' i <;> simp [ih, e2]

/-- `t'` is empty or a leaf of a key other than `key`; `victim` is that key. -/
def Displaced (t' : Trie) (victim : Option Fr) (key : Fr) : Prop :=
  (t' = .empty ∧ victim = none) ∨ ∃ k d, t' = .leaf k d ∧ victim = some k ∧ k ≠ key

theorem Displaced.get_none {t' : Trie} {victim : Option Fr} (h : Displaced t' victim key) {key' : Fr}
    (hv : victim ≠ some key') (j : ℕ) : t'.getFrom key' j = none := by
  rcases h with ⟨rfl, -⟩ | ⟨k, d, rfl, rfl, -⟩
  · rfl
  · rw [Trie.getFrom_leaf, if_neg (fun h => hv (by rw [h]))]

theorem displaced_of_absent {t' : Trie} (hb : t'.Branching)
    (C : CollisionFree H (Or3 S (t'.Inputs H))) {n : ℕ}
    (ha : Absent (hashRel H S) key n (t'.hash H)) :
    ∃ victim, Displaced t' victim key := by
  rcases ha with ha | ⟨k, d, hk, -, -, hl⟩
  · exact ⟨none, .inl ⟨empty_of_zero C ha, rfl⟩⟩
  · exact ⟨some k, .inr ⟨k, d, leaf_of_rel hb C hl, rfl, hk⟩⟩

/-- What an insertion does to a known trie: there is a trie with the new root, in which the path of
`key` leads to the new leaf, and which stores the same as the old one for every key other than the new
leaf's and one displaced leaf's. -/
structure InsertedInto (H : HashFn) (key k d : Fr) (t t1 : Trie) (victim : Option Fr) (newRoot : Fr) :
    Prop where
  hash : t1.hash H = newRoot
  branching : t1.Branching
  self : t1.get key = if k = key then some d else none
  others : ∀ key', key' ≠ k → victim ≠ some key' → t1.get key' = t.get key'
  absent : t.get key = none
  victim_ne : victim ≠ some key

theorem leafNone {k d key' : Fr} (h : key' ≠ k) (j : ℕ) : (Trie.leaf k d).getFrom key' j = none := by
  rw [Trie.getFrom_leaf, if_neg (fun e => h e.symm)]

theorem Displaced.victim_ne {t' : Trie} {victim : Option Fr} (h : Displaced t' victim key) :
    victim ≠ some key := by
  rcases h with ⟨-, rfl⟩ | ⟨k, d, -, rfl, hk⟩
  · simp
  · simpa using hk

/-- A known trie after an accepted insertion of any subtree `bottom`. -/
theorem Inserted.graft {t : Trie} (hb : t.Branching) (C : CollisionFree H (Or3 S (t.Inputs H)))
    {ext pre : List Step} {hOld leaf oldRoot newRoot : Fr} (hroot : t.hash H = oldRoot) (hp : ∀ s ∈ pre, IsBranch s.domain)
    (he : ∀ s ∈ ext, IsBranch s.domain)
    (hi : Inserted (hashRel H S) key ext hOld leaf pre oldRoot newRoot)
    (hs : ExtSiblings ext hOld) (ha : Absent (hashRel H S) key pre.length hOld)
    :
    ∃ (t' : Trie) (victim : Option Fr), Displaced t' victim key ∧ t'.hash H = hOld ∧ t'.Branching ∧
      ∀ bottom : Trie, bottom.Branching → bottom.hash H = leaf →
      ∃ (t1 : Trie) (j : ℕ), t1.hash H = newRoot ∧ t1.Branching ∧ t1.get key = bottom.getFrom key j ∧
        ∀ key', victim ≠ some key' → (∀ j, bottom.getFrom key' j = none) → t1.get key' = t.get key' := by
  have ho : Opens (hashRel H S) key 0 pre hOld (t.hash H) := hroot ▸ hi.opens_old
  obtain ⟨t', hf, hh, hb', hsub⟩ := ho.follow hb C hp
  have C' := C.mono (S' := Or3 S (t'.Inputs H)) (fun x y z h => h.imp id (hsub x y z))
  obtain ⟨victim, hd⟩ := displaced_of_absent hb' C' (hh ▸ ha)
  rw [← hh] at hs
  refine ⟨t', victim, hd, hh, hb', fun bottom hbot hleaf => ?_⟩
  have key1 : ∀ (t1 : Trie) (i : ℕ), t.follow key 0 i = some t' →
      t1 = t.replace key (Trie.graft key t' bottom i ext) 0 i → t1.hash H = newRoot →
      ∃ (t1 : Trie) (j : ℕ), t1.hash H = newRoot ∧ t1.Branching ∧ t1.get key = bottom.getFrom key j ∧
        ∀ key', victim ≠ some key' → (∀ j, bottom.getFrom key' j = none) →
          t1.get key' = t.get key' := by
    rintro t1 i hf rfl hh
    refine ⟨_, i + ext.length, hh, Trie.replace_branching hb (graft_branching hb' hbot he), ?_, ?_⟩
    · rw [Trie.get, Trie.replace_get_self hf, Nat.zero_add, graft_get_self]
    · intro key' h2 h1
      refine Trie.replace_getFrom hf ?_
      rw [hd.get_none h2, Nat.zero_add, graft_get_none (hd.get_none h2) h1]
  cases hi with
  | root h =>
    exact key1 _ 0 hf rfl (by
      rw [Trie.replace_zero]
      exact graft_hash hs (by rw [hleaf]; exact h))
  | @below pre last domain' y xo xn _ _ o1 o2 n1 n2 o3 hdom =>
    rw [← hroot] at o1
    have hlast : IsBranch last.domain := hp last (by simp)
    have hpre : ∀ s ∈ pre, IsBranch s.domain := fun s h => hp s (by simp [h])
    by_cases hext : ext = []
    · subst hext
      rw [if_pos rfl] at hdom
      refine key1 _ _ hf rfl ?_
      refine Trie.replace_hash hb C hp (t' := t') (by rw [hh]; exact ho) ?_
      rw [show Trie.graft key t' bottom (pre ++ [last]).length [] = bottom from rfl, hleaf]
      have e : y = leaf := o3
      subst e
      refine opens_snoc _ _ _ _ _ _ _ _ o2 ?_
      rw [Nat.zero_add]
      rw [show (⟨last.sibling, domain'⟩ : Step) = last by rw [hdom.1]] at n2
      exact n2
    · rw [if_neg hext] at hdom
      -- the node above the displaced leaf changes its domain
      obtain ⟨t0, f0, h0, b0, s0⟩ := o1.follow hb C hpre
      have C0 := C.mono (S' := Or3 S (t0.Inputs H)) (fun x y z h => h.imp id (s0 x y z))
      subst h0
      set g := Trie.graft key t' bottom (pre.length + 1) ext with hg
      have hgh : g.hash H = y := graft_hash hs (by rw [hleaf]; exact o3)
      have hgb : g.Branching := graft_branching hb' hbot he
      have hdb : IsBranch domain' := isBranch_next hdom
      -- the old node
      have hnode : ∃ l r, t0 = .node last.domain l r ∧ Trie.child (keyBit key pre.length) l r = t' ∧
          (Trie.child (!keyBit key pre.length) l r).hash H = last.sibling := by
        simp only [Node] at n1
        rw [List.length_append, List.length_singleton] at hf
        have hf2 : t0.follow key pre.length 1 = some t' := by
          have : ∀ (i n : ℕ) (a b c : Trie), a.follow key i n = some b → a.follow key i (n + 1) = some c →
              b.follow key (i + n) 1 = some c := by
            intro i n
            induction n generalizing i with
            | zero =>
              intro a b c h1 h2
              simp only [Trie.follow, Option.some.injEq] at h1
              subst h1; exact h2
            | succ n ih =>
              intro a b c h1 h2
              cases a with
              | empty => simp [Trie.follow] at h1
              | leaf k d => simp [Trie.follow] at h1
              | node d l r =>
                simp only [Trie.follow] at h1 h2
                have := ih (i + 1) _ _ _ h1 h2
                rwa [show i + 1 + n = i + (n + 1) by omega] at this
          have := this 0 pre.length t t0 t' f0 hf
          rwa [Nat.zero_add] at this
        split at n1
        · rename_i hk
          obtain ⟨l, r, rfl, e1, e2⟩ := node_of_rel b0 C0 hlast n1
          simp only [Trie.follow, Option.some.injEq] at hf2
          exact ⟨l, r, rfl, hf2, by simp [Trie.child, hk, e1]⟩
        · rename_i hk
          obtain ⟨l, r, rfl, e1, e2⟩ := node_of_rel b0 C0 hlast n1
          simp only [Trie.follow, Option.some.injEq] at hf2
          exact ⟨l, r, rfl, hf2, by simp [Trie.child, hk, e2]⟩
      obtain ⟨l, r, rfl, hch, hsib⟩ := hnode
      cases hk : keyBit key pre.length with
      | true =>
        simp only [hk, Trie.child, if_true, Bool.not_true, Bool.false_eq_true, if_false] at hch hsib
        subst hch
        refine ⟨t.replace key (.node domain' l g) 0 pre.length, pre.length + 1 + ext.length, ?_, ?_, ?_, ?_⟩
        · refine Trie.replace_hash hb C hpre o1 ?_
          have : (Trie.node domain' l g).hash H = xn := by
            rw [hk] at n2
            rw [Trie.hash, hgh, hsib]; exact n2.1.symm
          rw [this]; exact o2
        · exact Trie.replace_branching hb ⟨hdb, b0.2.1, hgb⟩
        · rw [Trie.get, Trie.replace_get_self f0, Nat.zero_add, Trie.getFrom, hk, cond_true, hg,
            graft_get_self]
        · intro key' h2 h1
          refine Trie.replace_getFrom f0 ?_
          rw [Nat.zero_add]
          simp only [Trie.getFrom]
          rw [hd.get_none h2, hg, graft_get_none (hd.get_none h2) h1]
      | false =>
        simp only [hk, Trie.child, if_true, Bool.not_false, Bool.false_eq_true, if_false] at hch hsib
        subst hch
        refine ⟨t.replace key (.node domain' g r) 0 pre.length, pre.length + 1 + ext.length, ?_, ?_, ?_, ?_⟩
        · refine Trie.replace_hash hb C hpre o1 ?_
          have : (Trie.node domain' g r).hash H = xn := by
            rw [hk] at n2
            rw [Trie.hash, hgh, hsib]; exact n2.1.symm
          rw [this]; exact o2
        · exact Trie.replace_branching hb ⟨hdb, hgb, b0.2.2⟩
        · rw [Trie.get, Trie.replace_get_self f0, Nat.zero_add, Trie.getFrom, hk, cond_false, hg,
            graft_get_self]
        · intro key' h2 h1
          refine Trie.replace_getFrom f0 ?_
          rw [Nat.zero_add]
          simp only [Trie.getFrom]
          rw [hd.get_none h2, hg, graft_get_none (hd.get_none h2) h1]

/-- A known trie after an accepted insertion of a leaf. -/
theorem Inserted.into {t : Trie} (hb : t.Branching) (C : CollisionFree H (Or3 S (t.Inputs H)))
    {ext pre : List Step} {hOld leaf oldRoot newRoot k d : Fr} (hroot : t.hash H = oldRoot)
    (hp : ∀ s ∈ pre, IsBranch s.domain) (he : ∀ s ∈ ext, IsBranch s.domain)
    (hi : Inserted (hashRel H S) key ext hOld leaf pre oldRoot newRoot)
    (hs : ExtSiblings ext hOld) (ha : Absent (hashRel H S) key pre.length hOld)
    (hl : IsLeaf (hashRel H S) k d leaf) :
    ∃ t1 victim, InsertedInto H key k d t t1 victim newRoot := by
  obtain ⟨t', victim, hd, -, -, h⟩ := hi.graft hb C hroot hp he hs ha
  obtain ⟨t1, j, h1, h2, h3, h4⟩ := h (.leaf k d) trivial hl.1.symm
  exact ⟨t1, victim, h1, h2, h3, fun key' a b => h4 key' b (leafNone a),
    get_none_of_opens hb C hp (hroot ▸ hi.opens_old) ha, hd.victim_ne⟩

end
end Mpt.Spec
