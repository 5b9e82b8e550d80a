import Verif.Props.WorldSound

set_option autoImplicit false

/-!
# Insertions and removals, opened in a known zktrie

`Spec.Inserted` says that two roots open to the same levels, except that new levels and a leaf take the place
of a terminal node. Here: which further conditions on the levels make this the insertion (`ZkTrie.put`), or,
read backwards, the removal (`ZkTrie.remove`) of a leaf. The circuit does not enforce all of them (findings B4,
B5, B13 to B15).
-/

namespace Mpt.Spec
open Mpt (Fr HashFn HashDomain)

/-- The new levels, from depth `i` on, below which two leaves separate after `e` common bits: empty siblings,
then the other leaf, whose hash is `h`. -/
def splitLevels (key h : Fr) : ℕ → ℕ → List Step
  | _, 0 => [⟨h, HashDomain.Branch0.toFr⟩]
  | i, e + 1 => ⟨0, if keyBit key i then HashDomain.Branch1.toFr else HashDomain.Branch2.toFr⟩ ::
      splitLevels key h (i + 1) e

/-- The new levels `ext` of an insertion at depth `i` are the ones that are needed: none if nothing is there;
if a leaf of another key is there, those down to the first bit in which the keys differ. -/
def ProperLevels (R : HashRel) (key : Fr) (i : ℕ) (hOld : Fr) (ext : List Step) : Prop :=
  (ext = [] ∧ hOld = 0) ∨ ∃ k d e, IsLeaf R k d hOld ∧ SharesPrefix k key (i + e) ∧
    keyBit k (i + e) ≠ keyBit key (i + e) ∧ ext = splitLevels key hOld i e

/-- `newRoot` is `oldRoot` with the leaf `leaf` inserted properly along the bits of `key`. -/
def ProperInsertion (R : HashRel) (key oldRoot newRoot leaf : Fr) : Prop :=
  ∃ pre ext hOld, GoodPath pre ∧ Inserted R key ext hOld leaf pre oldRoot newRoot ∧
    Absent R key pre.length hOld ∧ ProperLevels R key pre.length hOld ext

/-- The level `last`, at depth `i`, above a removed leaf need not be removed as well, and its new domain is that
of a node with no internal node in direction `keyBit key i`. `ext` are the levels removed with the leaf. -/
def ProperLast (key : Fr) (i : ℕ) (last : Step) (ext : List Step) : Prop :=
  (ext = [] → last.domain ≠ HashDomain.Branch0.toFr) ∧
  (ext ≠ [] → last.sibling ≠ 0 ∧ (last.domain = HashDomain.Branch1.toFr → keyBit key i = false) ∧
    (last.domain = HashDomain.Branch2.toFr → keyBit key i = true))

/-- `newRoot` is `oldRoot` with the leaf `leaf` removed properly along the bits of `key`. -/
def ProperRemoval (R : HashRel) (key oldRoot newRoot leaf : Fr) : Prop :=
  ∃ pre ext hNew, GoodPath pre ∧ GoodPath ext ∧ Inserted R key ext hNew leaf pre newRoot oldRoot ∧
    ExtSiblings ext hNew ∧ Absent R key pre.length hNew ∧ (ext = [] → hNew = 0) ∧
    ∀ pre' last, pre = pre' ++ [last] → ProperLast key pre'.length last ext

/-- Following the bits of `key` from `root` leads to a leaf of this key. -/
def Present (R : HashRel) (key root : Fr) : Prop :=
  ∃ path d leaf, GoodPath path ∧ Opens R key 0 path leaf root ∧ IsLeaf R key d leaf

theorem branch_inj {a b : HashDomain} (h : a.toFr = b.toFr) : a = b := Mpt.MptUpdate.toFr_inj h

namespace ZkTrie

variable {H : HashFn} {S : Fr → Fr → Fr → Prop}

theorem isNode_empty : isNode .empty = false := rfl
theorem isNode_leaf {k d : Fr} : isNode (.leaf k d) = false := rfl

/-- The domain of `join bit c o`. -/
def joinDomain (bit : Bool) (c o : ZkTrie) : HashDomain := if bit then domain o c else domain c o

theorem join_hash {b : Bool} {c o : ZkTrie} : (join b c o).hash H =
    if b then H (o.hash H) (c.hash H) (joinDomain b c o).toFr else H (c.hash H) (o.hash H) (joinDomain b c o).toFr := by
  cases b <;> rfl

theorem join_isNode {b : Bool} {c o : ZkTrie} : (join b c o).isNode = true := by cases b <;> rfl

theorem joinDomain_congr {b : Bool} {c c' o : ZkTrie} (h : c'.isNode = c.isNode) : joinDomain b c' o = joinDomain b c o := by
  cases b <;> simp [joinDomain, domain, h]

theorem trie_leaf {t : ZkTrie} {k d : Fr} (h : t.trie = .leaf k d) : t = .leaf k d := by
  cases t with
  | empty => cases h
  | leaf k' d' => simp only [trie, Trie.leaf.injEq] at h; rw [h.1, h.2]
  | node l r => cases h

theorem eq_empty {t : ZkTrie} (C : CollisionFree H (Or3 S (t.trie.Inputs H))) (h : t.hash H = 0) : t = .empty := by
  cases t with
  | empty => rfl
  | leaf k d => exact absurd h (C.ne_zero (.inr ⟨rfl, rfl, rfl⟩))
  | node l r => exact absurd h (C.ne_zero (.inr (.inl ⟨rfl, rfl, rfl⟩)))

theorem eq_leaf {t : ZkTrie} (C : CollisionFree H (Or3 S (t.trie.Inputs H))) {k d : Fr}
    (h : IsLeaf (hashRel H S) k d (t.hash H)) : t = .leaf k d :=
  trie_leaf (leaf_of_rel t.branching C h)

/-- A node hash relation on the hash of a known trie: the trie is this node. -/
theorem node_inv {t : ZkTrie} (C : CollisionFree H (Or3 S (t.trie.Inputs H))) {bit : Bool} {s : Step} {x : Fr}
    (hd : IsBranch s.domain) (h : Node (hashRel H S) bit s x (t.hash H)) :
    ∃ c o, t = join bit c o ∧ c.hash H = x ∧ o.hash H = s.sibling ∧ s.domain = (joinDomain bit c o).toFr ∧
      CollisionFree H (Or3 S (c.trie.Inputs H)) ∧ CollisionFree H (Or3 S (o.trie.Inputs H)) := by
  have key : ∀ {x y : Fr}, hashRel H S x y s.domain (t.hash H) → ∃ l r, t = node l r ∧ x = l.hash H ∧
      y = r.hash H ∧ s.domain = (domain l r).toFr := by
    intro x y h
    obtain ⟨l, r, e, e1, e2⟩ := node_of_rel t.branching C hd h
    cases t with
    | empty => cases e
    | leaf k d => cases e
    | node zl zr =>
      simp only [trie, Trie.node.injEq] at e
      obtain ⟨e3, rfl, rfl⟩ := e
      exact ⟨zl, zr, rfl, e1, e2, e3.symm⟩
  cases bit with
  | false =>
    obtain ⟨l, r, rfl, e1, e2, e3⟩ := key h
    exact ⟨l, r, rfl, e1.symm, e2.symm, e3, C.mono fun _ _ _ h => h.imp id (fun h => .inr (.inl h)),
      C.mono fun _ _ _ h => h.imp id (fun h => .inr (.inr h))⟩
  | true =>
    obtain ⟨l, r, rfl, e1, e2, e3⟩ := key h
    exact ⟨r, l, rfl, e2.symm, e1.symm, e3, C.mono fun _ _ _ h => h.imp id (fun h => .inr (.inr h)),
      C.mono fun _ _ _ h => h.imp id (fun h => .inr (.inl h))⟩

/-- The subtree reached from depth `i` by `n` bits of `key`. -/
def sub (key : Fr) : ℕ → ℕ → ZkTrie → Option ZkTrie
  | _, 0, t => some t
  | i, n + 1, node l r => sub key (i + 1) n (if keyBit key i then r else l)
  | _, _ + 1, _ => none

/-- The trie with that subtree replaced by `s`. -/
def setSub (key : Fr) (s : ZkTrie) : ℕ → ℕ → ZkTrie → ZkTrie
  | _, 0, _ => s
  | i, n + 1, node l r =>
    if keyBit key i then node l (setSub key s (i + 1) n r) else node (setSub key s (i + 1) n l) r
  | _, _ + 1, t => t

theorem sub_join {key : Fr} {i n : ℕ} {c o : ZkTrie} :
    sub key i (n + 1) (join (keyBit key i) c o) = sub key (i + 1) n c := by
  cases h : keyBit key i <;> simp [join, sub, h]

theorem setSub_join {key : Fr} {i n : ℕ} {c o s : ZkTrie} :
    setSub key s i (n + 1) (join (keyBit key i) c o) = join (keyBit key i) (setSub key s (i + 1) n c) o := by
  cases h : keyBit key i <;> simp [join, setSub, h]

theorem join_put {key d : Fr} {i : ℕ} {c o : ZkTrie} :
    (join (keyBit key i) c o).put key d i = join (keyBit key i) (c.put key d (i + 1)) o := by
  cases h : keyBit key i <;> simp [join, put, h]

/-- The node with child `x` in direction `bit`, collapsed. -/
def cjoin (bit : Bool) (x s : ZkTrie) : ZkTrie := if bit then collapse s x else collapse x s

theorem join_remove {key : Fr} {i : ℕ} {c o : ZkTrie} :
    (join (keyBit key i) c o).remove key i = cjoin (keyBit key i) (c.remove key (i + 1)) o := by
  cases h : keyBit key i <;> simp [join, cjoin, remove, h]

theorem cjoin_node {b : Bool} {c o : ZkTrie} (h : c.isNode = true ∨ o.isNode = true) : cjoin b c o = join b c o := by
  cases b <;> cases c <;> cases o <;> simp_all [cjoin, join, collapse, isNode]

theorem cjoin_leaf {b : Bool} {k d : Fr} {o : ZkTrie} (h : o ≠ .empty) :
    cjoin b (.leaf k d) o = join b (.leaf k d) o := by
  cases b <;> cases o <;> simp_all [cjoin, join, collapse]

theorem cjoin_empty_leaf {b : Bool} {k d : Fr} : cjoin b .empty (.leaf k d) = .leaf k d := by
  cases b <;> rfl

theorem cjoin_leaf_empty {b : Bool} {k d : Fr} : cjoin b (.leaf k d) .empty = .leaf k d := by
  cases b <;> rfl

theorem join_cases (t : ZkTrie) (b : Bool) (h : t.isNode = true) : ∃ c o, t = join b c o := by
  cases t with
  | empty => cases h
  | leaf k d => cases h
  | node l r =>
    cases b
    · exact ⟨l, r, rfl⟩
    · exact ⟨r, l, rfl⟩

theorem put_sub {key d : Fr} {i n : ℕ} {t u : ZkTrie} (h : sub key i n t = some u) :
    t.put key d i = setSub key (u.put key d (i + n)) i n t := by
  induction n generalizing i t with
  | zero => simp only [sub, Option.some.injEq] at h; subst h; rfl
  | succ n ih =>
    cases t with
    | empty => cases h
    | leaf k d => cases h
    | node l r =>
      obtain ⟨c, o, e⟩ := join_cases (node l r) (keyBit key i) rfl
      rw [e] at h ⊢
      rw [sub_join] at h
      rw [join_put, setSub_join, ih h, show i + 1 + n = i + (n + 1) by omega]

theorem remove_sub {key : Fr} {i n : ℕ} {t u : ZkTrie} (h : sub key i n t = some u)
    (hu : (u.remove key (i + n)).isNode = true) :
    t.remove key i = setSub key (u.remove key (i + n)) i n t ∧ (t.remove key i).isNode = true := by
  induction n generalizing i t with
  | zero =>
    simp only [sub, Option.some.injEq] at h; subst h
    exact ⟨rfl, hu⟩
  | succ n ih =>
    cases t with
    | empty => cases h
    | leaf k d => cases h
    | node l r =>
      obtain ⟨c, o, e⟩ := join_cases (node l r) (keyBit key i) rfl
      rw [e] at h ⊢
      rw [sub_join] at h
      rw [show i + (n + 1) = i + 1 + n by omega] at hu
      obtain ⟨h1, h2⟩ := ih h hu
      rw [join_remove, setSub_join, cjoin_node (.inl h2), h1, show i + 1 + n = i + (n + 1) by omega]
      exact ⟨rfl, join_isNode⟩

theorem wf_join_inv {b : Bool} {c o : ZkTrie} {i : ℕ} (h : (join b c o).WFFrom i) :
    c.WFFrom (i + 1) ∧ (o = .empty → c.isNode = true) := by
  cases b
  · obtain ⟨-, -, h2, -, -, h3, -⟩ := h; exact ⟨h3, h2⟩
  · obtain ⟨-, h1, -, -, -, -, h3⟩ := h; exact ⟨h3, h1⟩

theorem wf_sub {key : Fr} {i n : ℕ} {t u : ZkTrie} (h : sub key i n t = some u) (hw : t.WFFrom i) :
    u.WFFrom (i + n) := by
  induction n generalizing i t with
  | zero => simp only [sub, Option.some.injEq] at h; subst h; exact hw
  | succ n ih =>
    cases t with
    | empty => cases h
    | leaf k d => cases h
    | node l r =>
      obtain ⟨c, o, e⟩ := join_cases (node l r) (keyBit key i) rfl
      rw [e] at h hw
      rw [sub_join] at h
      rw [show i + (n + 1) = i + 1 + n by omega]
      exact ih h (wf_join_inv hw).1

/-- Opening a known trie leads to a subtree. -/
theorem sub_of_opens {key : Fr} {i : ℕ} {t : ZkTrie} {path : List Step} {h : Fr}
    (C : CollisionFree H (Or3 S (t.trie.Inputs H))) (hp : ∀ s ∈ path, IsBranch s.domain)
    (ho : Opens (hashRel H S) key i path h (t.hash H)) :
    ∃ u, sub key i path.length t = some u ∧ u.hash H = h ∧ CollisionFree H (Or3 S (u.trie.Inputs H)) := by
  induction path generalizing i t with
  | nil => exact ⟨t, rfl, ho, C⟩
  | cons s path ih =>
    obtain ⟨h', h1, h2⟩ := ho
    obtain ⟨c, o, rfl, rfl, -, -, Cc, -⟩ := node_inv C (hp s (by simp)) h1
    obtain ⟨u, e1, e2, e3⟩ := ih Cc (fun s hs => hp s (by simp [hs])) h2
    exact ⟨u, by rw [List.length_cons, sub_join]; exact e1, e2, e3⟩

/-- Another root that opens along the same levels, to a subtree of the same kind. -/
theorem setSub_hash {key : Fr} {i : ℕ} {t u s : ZkTrie} {path : List Step} {h top : Fr}
    (C : CollisionFree H (Or3 S (t.trie.Inputs H))) (hp : ∀ s ∈ path, IsBranch s.domain)
    (ho : Opens (hashRel H S) key i path h (t.hash H)) (hu : sub key i path.length t = some u)
    (hs : s.isNode = u.isNode) (hn : Opens (hashRel H S) key i path (s.hash H) top) :
    (setSub key s i path.length t).hash H = top ∧ (setSub key s i path.length t).isNode = t.isNode := by
  induction path generalizing i t top with
  | nil =>
    simp only [List.length_nil, sub, Option.some.injEq] at hu
    subst hu
    exact ⟨Eq.symm hn, hs⟩
  | cons st path ih =>
    obtain ⟨h', h1, h2⟩ := ho
    obtain ⟨h'', h3, h4⟩ := hn
    obtain ⟨c, o, rfl, rfl, e2, e3, Cc, -⟩ := node_inv C (hp st (by simp)) h1
    rw [List.length_cons, sub_join] at hu
    obtain ⟨g1, g2⟩ := ih Cc (fun s hs => hp s (by simp [hs])) h2 hu h4
    rw [List.length_cons, setSub_join]
    refine ⟨?_, by rw [join_isNode, join_isNode]⟩
    rw [join_hash, g1, joinDomain_congr g2, ← e3, e2]
    cases hb : keyBit key i <;> rw [hb] at h3 <;> exact h3.1.symm

/-- Replacing the subtree below the last level, which may change the domain of that level. -/
theorem below_hash {key : Fr} {t u : ZkTrie} {pre : List Step} {last : Step} {domain' xo xn y new : Fr}
    (C : CollisionFree H (Or3 S (t.trie.Inputs H))) (hp : ∀ s ∈ pre, IsBranch s.domain)
    (o1 : Opens (hashRel H S) key 0 pre xo (t.hash H)) (hu : sub key 0 pre.length t = some u)
    (hun : u.isNode = true) (o2 : Opens (hashRel H S) key 0 pre xn new)
    (n2 : Node (hashRel H S) (keyBit key pre.length) ⟨last.sibling, domain'⟩ y xn) {c o : ZkTrie}
    (hc : c.hash H = y) (ho : o.hash H = last.sibling)
    (hd : domain' = (joinDomain (keyBit key pre.length) c o).toFr) :
    new = (setSub key (join (keyBit key pre.length) c o) 0 pre.length t).hash H := by
  have e : (join (keyBit key pre.length) c o).hash H = xn := by
    rw [join_hash, hc, ho, ← hd]
    cases hb : keyBit key pre.length <;> rw [hb] at n2 <;> exact n2.1.symm
  rw [← e] at o2
  exact (setSub_hash C hp o1 hu (by rw [join_isNode, hun]) o2).1.symm

/-- The subtree that `splitLevels` leads through. -/
theorem split_hash {key d k e' : Fr} {leaf hOld : Fr} (hl : leaf = H key d HashDomain.Leaf.toFr)
    (hO : hOld = H k e' HashDomain.Leaf.toFr) {e f i : ℕ} {top : Fr} (hf : e < f)
    (hs : ∀ j, i ≤ j → j < i + e → keyBit k j = keyBit key j) (hdf : keyBit k (i + e) ≠ keyBit key (i + e))
    (ho : Opens (hashRel H S) key i (splitLevels key hOld i e) leaf top) :
    top = (split key d k e' f i).hash H := by
  induction e generalizing i f top with
  | zero =>
    obtain ⟨f, rfl⟩ : ∃ g, f = g + 1 := ⟨f - 1, by omega⟩
    obtain ⟨h', h1, h2⟩ := ho
    simp only [Opens] at h2
    subst h2
    rw [split, if_neg (by simpa using fun h => hdf (Eq.symm h)), join_hash]
    cases hb : keyBit key i <;> rw [hb] at h1 <;> rw [h1.1, hl, hO] <;> rfl
  | succ e ih =>
    obtain ⟨f, rfl⟩ : ∃ g, f = g + 1 := ⟨f - 1, by omega⟩
    obtain ⟨h', h1, h2⟩ := ho
    have := ih (f := f) (by omega) (fun j h1 h2 => hs j (by omega) (by omega))
      (by rwa [show i + 1 + e = i + (e + 1) by omega]) h2
    rw [split, if_pos (hs i le_rfl (by omega)).symm, join_hash, ← this]
    have hN : (split key d k e' f (i + 1)).isNode = true := split_isNode (by omega)
    cases hb : keyBit key i <;> rw [hb] at h1 <;> rw [h1.1] <;>
      simp only [joinDomain, domain, hN, isNode_empty, hash, trie, Trie.hash, if_true, if_false, Bool.false_eq_true]

/-- A proper insertion into a known trie is `put`, of a key that is not there. -/
theorem put_of_inserted {tr : ZkTrie} {key d oldRoot newRoot leaf : Fr}
    (C : CollisionFree H (Or3 S (tr.trie.Inputs H))) (hroot : tr.hash H = oldRoot)
    (hl : IsLeaf (hashRel H S) key d leaf) (hi : ProperInsertion (hashRel H S) key oldRoot newRoot leaf) :
    newRoot = (tr.put key d 0).hash H ∧ tr.get key = none := by
  obtain ⟨pre, ext, hOld, hg, hi, hab, hp⟩ := hi
  refine ⟨?_, get_none_of_opens tr.branching C hg.2 (by
    rw [show tr.trie.hash H = oldRoot from hroot]; exact hi.opens_old) hab⟩
  have hleaf : leaf = (ZkTrie.leaf key d).hash H := hl.1
  -- the subtree in the place of the terminal node
  have main : ∀ {c : ZkTrie} {y : Fr} {j : ℕ}, CollisionFree H (Or3 S (c.trie.Inputs H)) → c.hash H = hOld →
      Opens (hashRel H S) key j ext leaf y → ProperLevels (hashRel H S) key j hOld ext →
      y = (c.put key d j).hash H ∧ c.isNode = false ∧ (c.put key d j).isNode = decide (ext ≠ []) := by
    intro c y j Cc hc ho hp
    rcases hp with ⟨rfl, rfl⟩ | ⟨k, e', e, h1, h2, h3, rfl⟩
    · obtain rfl := eq_empty Cc hc
      exact ⟨by rw [show y = leaf from ho, hleaf]; rfl, rfl, by simp [put, isNode]⟩
    · obtain rfl := eq_leaf Cc (hc ▸ h1)
      have hk : k ≠ key := by rintro rfl; exact h3 rfl
      have hlt : j + e < 256 := by
        by_contra hge
        have hz : ∀ x : Fr, keyBit x (j + e) = false := fun x => by
          refine Nat.testBit_lt_two_pow (lt_of_lt_of_le (lt_trans (ZMod.val_lt x)
            (by decide : Mpt.frModulus < 2 ^ 256)) (Nat.pow_le_pow_right (by norm_num) (by omega)))
        rw [hz, hz] at h3
        exact h3 rfl
      have hne : splitLevels key hOld j e ≠ [] := by cases e <;> simp [splitLevels]
      rw [put, if_neg hk]
      refine ⟨split_hash hl.1 h1.1 (by omega) (fun i _ hi => h2 i hi) h3 ho, rfl, ?_⟩
      rw [split_isNode (by omega)]
      simp [hne]
  cases hi with
  | root ho => exact (main (j := 0) C hroot ho hp).1
  | @below pre last domain' y xo xn _ _ o1 o2 n1 n2 o3 hd =>
    rw [← hroot] at o1
    have hp1 : ∀ s ∈ pre, IsBranch s.domain := fun s hs => hg.2 s (by simp [hs])
    have hlb : IsBranch last.domain := hg.2 last (by simp)
    obtain ⟨u, e1, e2, Cu⟩ := sub_of_opens C hp1 o1
    obtain ⟨c, o, rfl, c1, c2, c3, Cc, -⟩ := node_inv Cu hlb (e2 ▸ n1)
    obtain ⟨m1, m2, m3⟩ := main (j := pre.length + 1) Cc c1 o3 (by simpa using hp)
    rw [put_sub e1, Nat.zero_add, join_put]
    refine below_hash C hp1 o1 e1 join_isNode o2 n2 m1.symm c2 ?_
    split at hd
    · rename_i he
      rw [hd.1, c3]
      refine congrArg _ (joinDomain_congr ?_).symm
      rw [m2, m3, he]; rfl
    · rename_i he
      have m4 : (c.put key d (pre.length + 1)).isNode = true := by rw [m3]; simp [he]
      rw [c3] at hd
      cases hb : keyBit key pre.length <;> cases ho : o.isNode <;> rw [hb] at hd <;>
        simp only [joinDomain, domain, m2, ho, if_true, if_false, Bool.false_eq_true] at hd <;>
        rcases hd with ⟨h1, h2⟩ | ⟨h1 | h1, h2⟩ <;>
        first
          | (have := branch_inj h1; simp at this; done)
          | (rw [h2]; simp [joinDomain, domain, m4, ho])

/-- Levels removed together with a leaf: what is left is the leaf of another key. -/
theorem remove_ext {key d leaf hNew : Fr} (hl : IsLeaf (hashRel H S) key d leaf) {ext : List Step}
    (hne : ext ≠ []) (hp : ∀ s ∈ ext, IsBranch s.domain) (hs : ExtSiblings ext hNew) {m : ℕ}
    (hab : Absent (hashRel H S) key m hNew) {t : ZkTrie} {i : ℕ} (C : CollisionFree H (Or3 S (t.trie.Inputs H)))
    (hw : t.WFFrom i) (ho : Opens (hashRel H S) key i ext leaf (t.hash H)) :
    t.isNode = true ∧ ∃ k e', t.remove key i = .leaf k e' ∧ hNew = (ZkTrie.leaf k e').hash H := by
  induction ext generalizing i t with
  | nil => exact absurd rfl hne
  | cons s ext ih =>
    obtain ⟨h', h1, h2⟩ := ho
    obtain ⟨c, o, rfl, rfl, e2, -, Cc, Co⟩ := node_inv C (hp s (by simp)) h1
    obtain ⟨w1, w2⟩ := wf_join_inv hw
    refine ⟨join_isNode, ?_⟩
    rw [join_remove]
    have hs' := hs.cons
    cases ext with
    | nil =>
      have k1 : s.sibling = hNew := by
        rcases hs' with h | h
        · exact h.2
        · exact absurd rfl h.1
      obtain rfl := eq_leaf Cc (show IsLeaf _ key d (c.hash H) from (show c.hash H = leaf from h2) ▸ hl)
      rcases hab with rfl | ⟨k, e', hk, -, -, hk'⟩
      · have := w2 (eq_empty Co (e2.trans k1))
        cases this
      · obtain rfl := eq_leaf Co (by rw [e2, k1]; exact hk')
        refine ⟨k, e', ?_, hk'.1⟩
        rw [remove, if_pos rfl, cjoin_empty_leaf]
    | cons s' ext =>
      obtain ⟨-, k1, k2⟩ := hs'.resolve_left (by simp)
      obtain rfl := eq_empty Co (e2.trans k1)
      obtain ⟨-, k, e', g1, g2⟩ := ih (by simp) (fun s hs => hp s (by simp [hs])) k2 Cc w1 h2
      exact ⟨k, e', by rw [g1, cjoin_leaf_empty], g2⟩

/-- A proper removal from a known well-formed trie is `remove`, of a key that is there. -/
theorem remove_of_inserted {tr : ZkTrie} {key d oldRoot newRoot leaf : Fr}
    (C : CollisionFree H (Or3 S (tr.trie.Inputs H))) (hw : tr.WF) (hroot : tr.hash H = oldRoot)
    (hl : IsLeaf (hashRel H S) key d leaf) (hi : ProperRemoval (hashRel H S) key oldRoot newRoot leaf) :
    newRoot = (tr.remove key 0).hash H := by
  obtain ⟨pre, ext, hNew, hg, hge, hi, hs, hab, hz, hlast⟩ := hi
  cases hi with
  | root ho =>
    by_cases he : ext = []
    · subst he
      obtain rfl := eq_leaf C (show IsLeaf _ key d (tr.hash H) from
        (hroot.trans (show oldRoot = leaf from ho)) ▸ hl)
      rw [hz rfl]
      simp [remove, hash, trie, Trie.hash]
    · obtain ⟨-, k, e', g1, g2⟩ := remove_ext hl he hge.2 hs hab C hw (hroot ▸ ho)
      rw [g1, g2]
  | @below pre last domain' y xo xn _ _ o1 o2 n1 n2 o3 hd =>
    rw [← hroot] at o2
    have hp1 : ∀ s ∈ pre, IsBranch s.domain := fun s hs => hg.2 s (by simp [hs])
    have hlb : IsBranch last.domain := hg.2 last (by simp)
    have hdb : IsBranch domain' := by
      split at hd
      · rw [hd.1]; exact hlb
      · exact isBranch_next hd
    obtain ⟨u, e1, e2, Cu⟩ := sub_of_opens C hp1 o2
    obtain ⟨c, o, rfl, c1, c2, c3, Cc, Co⟩ := node_inv Cu (s := ⟨last.sibling, domain'⟩) hdb (e2 ▸ n2)
    have hwu := wf_sub e1 hw
    obtain ⟨w1, w2⟩ := wf_join_inv hwu
    obtain ⟨l1, l2⟩ := hlast pre last rfl
    simp only at c2 c3
    have fin : ∀ c' : ZkTrie, (join (keyBit key pre.length) c o).remove key (0 + pre.length) =
        join (keyBit key pre.length) c' o → c'.hash H = hNew →
        last.domain = (joinDomain (keyBit key pre.length) c' o).toFr →
        newRoot = (tr.remove key 0).hash H := by
      intro c' hr hc' hd'
      rw [(remove_sub e1 (by rw [hr]; exact join_isNode)).1, hr]
      exact below_hash (last := last) C hp1 o2 e1 join_isNode o1 n1 hc' c2 hd'
    by_cases he : ext = []
    · subst he
      rw [if_pos rfl] at hd
      obtain rfl := eq_leaf Cc (show IsLeaf _ key d (c.hash H) from (c1.trans (show y = leaf from o3)) ▸ hl)
      have ho : o.isNode = true := by
        by_contra ho
        simp only [Bool.not_eq_true] at ho
        apply l1 rfl
        rw [← hd.1, c3]
        cases keyBit key pre.length <;> simp [joinDomain, domain, ho, isNode_leaf]
      refine fin .empty ?_ ?_ ?_
      · rw [Nat.zero_add, join_remove, remove, if_pos rfl, cjoin_node (.inr ho)]
      · rw [hz rfl]; rfl
      · rw [← hd.1, c3]; exact congrArg _ (joinDomain_congr rfl)
    · rw [if_neg he] at hd
      obtain ⟨hcn, k, e', g1, g2⟩ := remove_ext hl he hge.2 hs hab Cc w1 (by rw [c1]; simpa using o3)
      obtain ⟨l3, l4, l5⟩ := l2 he
      have ho : o ≠ .empty := by
        rintro rfl
        exact l3 c2.symm
      refine fin (.leaf k e') ?_ g2.symm ?_
      · rw [Nat.zero_add] at g1
        rw [Nat.zero_add, join_remove, g1, cjoin_leaf ho]
      · rw [c3] at hd
        cases hb : keyBit key pre.length <;> cases hon : o.isNode <;> rw [hb] at hd l4 l5 <;>
          simp only [joinDomain, domain, hcn, hon, if_true, if_false, Bool.false_eq_true] at hd <;>
          rcases hd with ⟨h1, h2⟩ | ⟨h1 | h1, h2⟩ <;>
          first
            | (have := branch_inj h2; simp at this; done)
            | (have := l4 h1; simp at this; done)
            | (have := l5 h1; simp at this; done)
            | (rw [h1]; simp [joinDomain, domain, isNode_leaf, hon])

theorem get_of_opens' {tr : ZkTrie} {key root d leaf : Fr} {path : List Step}
    (C : CollisionFree H (Or3 S (tr.trie.Inputs H))) (hroot : tr.hash H = root)
    (hp : ∀ s ∈ path, IsBranch s.domain)
    (ho : Opens (hashRel H S) key 0 path leaf root) (hl : IsLeaf (hashRel H S) key d leaf) :
    tr.get key = some d := by
  subst hroot
  obtain ⟨t', e1, rfl, e3, e4⟩ := (show Opens (hashRel H S) key 0 path leaf (tr.trie.hash H) from ho).follow
    tr.branching C hp
  have C' := C.mono (S' := Or3 S (t'.Inputs H)) (fun x y z h => h.imp id (e4 x y z))
  rw [leaf_of_rel e3 C' hl] at e1
  have := Trie.getFrom_follow e1
  rw [get, getFrom, this]
  simp [Trie.getFrom]

/-- A key whose leaf is opened in a known trie is there. -/
theorem get_of_opens {tr : ZkTrie} {key root d leaf : Fr} {path : List Step}
    (C : CollisionFree H (Or3 S (tr.trie.Inputs H))) (hroot : tr.hash H = root) (hp : GoodPath path)
    (ho : Opens (hashRel H S) key 0 path leaf root) (hl : IsLeaf (hashRel H S) key d leaf) :
    tr.get key = some d := by
  have := Trie.getFrom_follow (Props.follow_of_known ⟨hroot, tr.branching, C⟩ hp ho hl)
  rw [get, getFrom, this]
  simp [Trie.getFrom]

end ZkTrie
end Mpt.Spec
