import Verif.Spec.Claims

set_option autoImplicit false

/-!
# Specification: tries, their content and their hash

A binary trie with leaves `key ↦ data`, looked up along the bits of the key. Nothing here mentions
the circuit. `CollisionFree H S`: no two inputs in `S` have the same hash and none hashes to 0; it is
only ever assumed for the finitely many inputs of a concrete trie and of a Poseidon table (a globally
injective hash function does not exist).
-/

namespace Mpt.Spec
open Mpt (Fr HashFn HashDomain)

inductive Trie
  | empty
  | leaf (key data : Fr)
  | node (domain : Fr) (left right : Trie)

namespace Trie

def hash (H : HashFn) : Trie → Fr
  | empty => 0
  | leaf k d => H k d HashDomain.Leaf.toFr
  | node d l r => H (l.hash H) (r.hash H) d

/-- The hash inputs of the trie. -/
def Inputs (H : HashFn) : Trie → Fr → Fr → Fr → Prop
  | empty => fun _ _ _ => False
  | leaf k d => fun x y z => x = k ∧ y = d ∧ z = HashDomain.Leaf.toFr
  | node d l r => fun x y z => (x = l.hash H ∧ y = r.hash H ∧ z = d) ∨ Inputs H l x y z ∨ Inputs H r x y z

/-- Internal nodes are hashed with branch domains. -/
def Branching : Trie → Prop
  | empty => True
  | leaf _ _ => True
  | node d l r => IsBranch d ∧ l.Branching ∧ r.Branching

/-- The child in direction `bit`. -/
def child (bit : Bool) (l r : Trie) : Trie := if bit then r else l

/-- What the trie, placed at depth `i`, stores for `key`: follow the bits of the key to a leaf and
compare keys. -/
def getFrom (key : Fr) : ℕ → Trie → Option Fr
  | _, empty => none
  | _, leaf k d => if k = key then some d else none
  | i, node _ l r => bif keyBit key i then r.getFrom key (i + 1) else l.getFrom key (i + 1)

/-- What the trie stores for `key`. -/
def get (t : Trie) (key : Fr) : Option Fr := t.getFrom key 0

/-- Some leaf of the trie has this key and data, wherever it is. -/
def Mem (key data : Fr) : Trie → Prop
  | empty => False
  | leaf k d => k = key ∧ d = data
  | node _ l r => l.Mem key data ∨ r.Mem key data

/-- Every leaf of the trie, placed at depth `i`, is where the bits of its key lead. -/
def PlacedFrom : ℕ → Trie → Prop
  | _, empty => True
  | _, leaf _ _ => True
  | i, node _ l r => (∀ k d, l.Mem k d → keyBit k i = false) ∧ (∀ k d, r.Mem k d → keyBit k i = true) ∧
      l.PlacedFrom (i + 1) ∧ r.PlacedFrom (i + 1)

/-- Lookup finds exactly the leaves, if they are where they should be. -/
theorem mem_of_getFrom {t : Trie} {key data : Fr} {i : ℕ} (h : t.getFrom key i = some data) :
    t.Mem key data := by
  induction t generalizing i with
  | empty => simp [getFrom] at h
  | leaf k d =>
    simp only [getFrom] at h
    split at h
    · exact ⟨‹_›, by simpa using h⟩
    · cases h
  | node d l r hl hr =>
    simp only [getFrom] at h
    cases hb : keyBit key i <;> rw [hb] at h
    · exact .inl (hl h)
    · exact .inr (hr h)

theorem getFrom_ne_none_of_mem {t : Trie} {key data : Fr} {i : ℕ} (hp : t.PlacedFrom i)
    (h : t.Mem key data) : t.getFrom key i ≠ none := by
  induction t generalizing i with
  | empty => exact absurd h id
  | leaf k d => simp [getFrom, h.1]
  | node d l r hl hr =>
    obtain ⟨p1, p2, p3, p4⟩ := hp
    simp only [getFrom]
    rcases h with h | h
    · rw [p1 _ _ h]; exact hl p3 h
    · rw [p2 _ _ h]; exact hr p4 h

/-- The subtree reached from depth `i` by following `n` bits of `key`. -/
def follow (key : Fr) : ℕ → ℕ → Trie → Option Trie
  | _, 0, t => some t
  | i, n + 1, node _ l r => follow key (i + 1) n (child (keyBit key i) l r)
  | _, _ + 1, _ => none

/-- The trie with the subtree reached from depth `i` by following `n` bits of `key` replaced. -/
def replace (key : Fr) : Trie → Trie → ℕ → ℕ → Trie
  | _, s, _, 0 => s
  | node d l r, s, i, n + 1 =>
    if keyBit key i then node d l (replace key r s (i + 1) n) else node d (replace key l s (i + 1) n) r
  | t, _, _, _ + 1 => t

end Trie

/-- No two inputs in `S` collide and none hashes to 0 (the hash of the empty trie). -/
structure CollisionFree (H : HashFn) (S : Fr → Fr → Fr → Prop) : Prop where
  inj : ∀ {l r d l' r' d'}, S l r d → S l' r' d' → H l r d = H l' r' d' → l = l' ∧ r = r' ∧ d = d'
  ne_zero : ∀ {l r d}, S l r d → H l r d ≠ 0

theorem CollisionFree.mono {H : HashFn} {S S' : Fr → Fr → Fr → Prop} (h : CollisionFree H S)
    (hs : ∀ l r d, S' l r d → S l r d) : CollisionFree H S' :=
  ⟨fun a b => h.inj (hs _ _ _ a) (hs _ _ _ b), fun a => h.ne_zero (hs _ _ _ a)⟩

/-- Union of two sets of hash inputs. -/
def Or3 (S T : Fr → Fr → Fr → Prop) : Fr → Fr → Fr → Prop := fun l r d => S l r d ∨ T l r d

/-- An account as stored in a leaf. The keccak code hash is a 256-bit word. -/
structure Account where
  nonce : ℕ
  codeSize : ℕ
  balance : ℕ
  keccakCodeHash : ℕ
  poseidonCodeHash : Fr
  storageRoot : Fr

namespace Account
/-- The ranges the types of the Rust code impose. -/
structure InRange (a : Account) : Prop where
  nonce : a.nonce < 2 ^ 64
  codeSize : a.codeSize < 2 ^ 64
  balance : a.balance < 2 ^ 248
  keccak : a.keccakCodeHash < 2 ^ 256

variable (H : HashFn) (a : Account)
/-- Hash of a 256-bit word: of its two 128-bit halves. -/
def wordHash (x : ℕ) : Fr := H ((x / 2 ^ 128 : ℕ) : Fr) ((x % 2 ^ 128 : ℕ) : Fr) HashDomain.Pair.toFr
def left : Fr := H (nonceCode a.nonce a.codeSize) (a.balance : Fr) HashDomain.AccountFields.toFr
def right : Fr := H a.storageRoot (wordHash H a.keccakCodeHash) HashDomain.AccountFields.toFr
def fields : Fr := H (a.left H) (a.right H) HashDomain.AccountFields.toFr
/-- The data of the account's leaf. -/
def data : Fr := H (a.fields H) a.poseidonCodeHash HashDomain.AccountFields.toFr
/-- The hash inputs of the account's data. -/
def Inputs : Fr → Fr → Fr → Prop := fun l r d =>
  (l = ((a.keccakCodeHash / 2 ^ 128 : ℕ) : Fr) ∧ r = ((a.keccakCodeHash % 2 ^ 128 : ℕ) : Fr) ∧
    d = HashDomain.Pair.toFr) ∨
  (d = HashDomain.AccountFields.toFr ∧
    ((l = nonceCode a.nonce a.codeSize ∧ r = (a.balance : Fr)) ∨
      (l = a.storageRoot ∧ r = wordHash H a.keccakCodeHash) ∨ (l = a.left H ∧ r = a.right H) ∨
      (l = a.fields H ∧ r = a.poseidonCodeHash)))
end Account

/-- The trie stores the account for `key`. -/
def Trie.Has (H : HashFn) (t : Trie) (key : Fr) (a : Account) : Prop := t.get key = some (a.data H)

/-! ## Openings in a known trie -/

section
variable {H : HashFn} {S : Fr → Fr → Fr → Prop}

theorem leaf_not_branch {d : Fr} (h : IsBranch d) : d ≠ HashDomain.Leaf.toFr := by
  rintro rfl
  have big := frModulus_gt
  norm_num at big
  rcases h with h | h | h | h <;>
    exact absurd (natCast_inj_of_lt (lt_trans (by decide : _ < 2000) (by omega))
      (lt_trans (by decide : _ < 2000) (by omega)) h) (by decide)

theorem Trie.inputs_self {t : Trie} (ht : t ≠ .empty) :
    ∃ l r d, t.Inputs H l r d ∧ t.hash H = H l r d := by
  cases t with
  | empty => exact absurd rfl ht
  | leaf k d => exact ⟨_, _, _, ⟨rfl, rfl, rfl⟩, rfl⟩
  | node d l r => exact ⟨_, _, _, .inl ⟨rfl, rfl, rfl⟩, rfl⟩

/-- A branch hash relation on the hash of a known trie: the trie is a node with this child. -/
theorem node_of_rel {t : Trie} (hb : t.Branching) (C : CollisionFree H (Or3 S (t.Inputs H)))
    {x y d : Fr} (hd : IsBranch d) (h : hashRel H S x y d (t.hash H)) :
    ∃ l r, t = .node d l r ∧ x = l.hash H ∧ y = r.hash H := by
  obtain ⟨h1, h2⟩ := h
  cases t with
  | empty => exact absurd h1.symm (C.ne_zero (.inl h2))
  | leaf k e =>
    have := C.inj (.inl h2) (.inr ⟨rfl, rfl, rfl⟩) h1.symm
    exact absurd this.2.2 (leaf_not_branch hd)
  | node e l r =>
    obtain ⟨e1, e2, e3⟩ := C.inj (.inl h2) (.inr (.inl ⟨rfl, rfl, rfl⟩)) h1.symm
    exact ⟨l, r, by rw [e3], e1, e2⟩

/-- A leaf hash relation on the hash of a known trie: the trie is this leaf. -/
theorem leaf_of_rel {t : Trie} (hb : t.Branching) (C : CollisionFree H (Or3 S (t.Inputs H)))
    {k d : Fr} (h : IsLeaf (hashRel H S) k d (t.hash H)) : t = .leaf k d := by
  obtain ⟨h1, h2⟩ := h
  cases t with
  | empty => exact absurd h1.symm (C.ne_zero (.inl h2))
  | leaf k' e =>
    obtain ⟨e1, e2, -⟩ := C.inj (.inl h2) (.inr ⟨rfl, rfl, rfl⟩) h1.symm
    rw [e1, e2]
  | node e l r =>
    have := C.inj (.inl h2) (.inr (.inl ⟨rfl, rfl, rfl⟩)) h1.symm
    exact absurd this.2.2.symm (leaf_not_branch hb.1)

theorem empty_of_zero {t : Trie} (C : CollisionFree H (Or3 S (t.Inputs H))) (h : t.hash H = 0) :
    t = .empty := by
  by_contra ht
  obtain ⟨l, r, d, h1, h2⟩ := Trie.inputs_self (H := H) ht
  exact C.ne_zero (.inr h1) (h2.symm.trans h)

/-- **An opening of a known trie's root is a walk in that trie.** -/
theorem Opens.follow {t : Trie} (hb : t.Branching) (C : CollisionFree H (Or3 S (t.Inputs H)))
    {key h : Fr} {i : ℕ} {path : List Step} (hp : ∀ s ∈ path, IsBranch s.domain)
    (ho : Opens (hashRel H S) key i path h (t.hash H)) :
    ∃ t', t.follow key i path.length = some t' ∧ t'.hash H = h ∧ t'.Branching ∧
      (∀ l r d, t'.Inputs H l r d → t.Inputs H l r d) := by
  induction path generalizing t i with
  | nil => exact ⟨t, rfl, ho, hb, fun _ _ _ h => h⟩
  | cons s path ih =>
    obtain ⟨h', h1, h2⟩ := ho
    simp only [Node] at h1
    have hs := hp s (List.mem_cons_self ..)
    have hp' : ∀ s' ∈ path, IsBranch s'.domain := fun s' h => hp s' (List.mem_cons_of_mem _ h)
    split at h1
    · obtain ⟨l, r, rfl, -, rfl⟩ := node_of_rel hb C hs h1
      have hsub : ∀ x y z, r.Inputs H x y z → (Trie.node s.domain l r).Inputs H x y z :=
        fun x y z h => .inr (.inr h)
      obtain ⟨t', e1, e2, e3, e4⟩ := ih hb.2.2
        (C.mono (fun x y z h => h.imp id (hsub x y z))) hp' h2
      refine ⟨t', ?_, e2, e3, fun x y z h => hsub _ _ _ (e4 _ _ _ h)⟩
      simpa [Trie.follow, Trie.child, ‹keyBit key i = true›] using e1
    · obtain ⟨l, r, rfl, rfl, -⟩ := node_of_rel hb C hs h1
      have hsub : ∀ x y z, l.Inputs H x y z → (Trie.node s.domain l r).Inputs H x y z :=
        fun x y z h => .inr (.inl h)
      obtain ⟨t', e1, e2, e3, e4⟩ := ih hb.2.1
        (C.mono (fun x y z h => h.imp id (hsub x y z))) hp' h2
      refine ⟨t', ?_, e2, e3, fun x y z h => hsub _ _ _ (e4 _ _ _ h)⟩
      simpa [Trie.follow, Trie.child, ‹¬ keyBit key i = true›] using e1

theorem Trie.getFrom_follow {t t' : Trie} {key : Fr} {i n : ℕ} (h : t.follow key i n = some t') :
    t.getFrom key i = t'.getFrom key (i + n) := by
  induction n generalizing t i with
  | zero => simp only [Trie.follow, Option.some.injEq] at h; rw [h]; rfl
  | succ n ih =>
    cases t with
    | empty => simp [Trie.follow] at h
    | leaf k d => simp [Trie.follow] at h
    | node d l r =>
      simp only [Trie.follow] at h
      have := ih h
      simp only [Trie.getFrom]
      cases hk : keyBit key i <;> simp only [hk, Trie.child, cond_true, cond_false, if_true,
        Bool.false_eq_true, if_false] at this ⊢ <;>
        rw [this, show i + 1 + n = i + (n + 1) by omega]

theorem Trie.getFrom_leaf {k d key : Fr} {i : ℕ} :
    (Trie.leaf k d).getFrom key i = if k = key then some d else none := rfl

/-- A path that ends where the key is absent: the trie does not store the key. -/
theorem get_none_of_opens {t : Trie} (hb : t.Branching) (C : CollisionFree H (Or3 S (t.Inputs H)))
    {key h : Fr} {path : List Step} (hp : ∀ s ∈ path, IsBranch s.domain)
    (ho : Opens (hashRel H S) key 0 path h (t.hash H)) {n : ℕ} (ha : Absent (hashRel H S) key n h) :
    t.get key = none := by
  obtain ⟨t', e1, rfl, e3, e4⟩ := ho.follow hb C hp
  have C' := C.mono (S' := Or3 S (t'.Inputs H)) (fun x y z h => h.imp id (e4 x y z))
  rw [Trie.get, Trie.getFrom_follow e1]
  rcases ha with ha | ⟨k, d, hk, -, -, hl⟩
  · rw [empty_of_zero C' ha]; rfl
  · rw [leaf_of_rel e3 C' hl]
    simp [Trie.getFrom, hk]

/-- A path that ends in a leaf: if the trie stores something for the key, it is this leaf. -/
theorem get_leaf_of_opens {t : Trie} (hb : t.Branching) (C : CollisionFree H (Or3 S (t.Inputs H)))
    {key h k d x : Fr} {path : List Step} (hp : ∀ s ∈ path, IsBranch s.domain)
    (ho : Opens (hashRel H S) key 0 path h (t.hash H)) (hl : IsLeaf (hashRel H S) k d h)
    (hg : t.get key = some x) : k = key ∧ d = x := by
  obtain ⟨t', e1, rfl, e3, e4⟩ := ho.follow hb C hp
  have C' := C.mono (S' := Or3 S (t'.Inputs H)) (fun x y z h => h.imp id (e4 x y z))
  rw [Trie.get, Trie.getFrom_follow e1, leaf_of_rel e3 C' hl, Trie.getFrom_leaf] at hg
  split at hg
  · exact ⟨‹_›, by simpa using hg⟩
  · cases hg

/-! ## Replacing a subtree -/

@[simp] theorem Trie.replace_zero (key : Fr) (t s : Trie) (i : ℕ) : t.replace key s i 0 = s := by
  cases t <;> simp [Trie.replace]

theorem Trie.replace_hash {t t' s : Trie} {key : Fr} {i : ℕ} {path : List Step} {top : Fr}
    (hb : t.Branching) (C : CollisionFree H (Or3 S (t.Inputs H)))
    (hp : ∀ s ∈ path, IsBranch s.domain)
    (ho : Opens (hashRel H S) key i path (t'.hash H) (t.hash H))
    (hn : Opens (hashRel H S) key i path (s.hash H) top) :
    (t.replace key s i path.length).hash H = top := by
  induction path generalizing t i top with
  | nil => simpa using hn.symm
  | cons st path ih =>
    obtain ⟨h', h1, h2⟩ := ho
    obtain ⟨h'', h1', h2'⟩ := hn
    simp only [Node] at h1 h1'
    have hs := hp st (List.mem_cons_self ..)
    have hp' : ∀ s' ∈ path, IsBranch s'.domain := fun s' h => hp s' (List.mem_cons_of_mem _ h)
    split at h1
    · rename_i hk
      rw [if_pos hk] at h1'
      obtain ⟨l, r, rfl, e1, rfl⟩ := node_of_rel hb C hs h1
      have := ih hb.2.2 (C.mono (fun x y z h => h.imp id (fun h => .inr (.inr h)))) hp' h2 h2'
      simp only [List.length_cons, Trie.replace, hk, if_true, Trie.hash, this, ← e1]
      exact h1'.1.symm
    · rename_i hk
      rw [if_neg hk] at h1'
      obtain ⟨l, r, rfl, rfl, e1⟩ := node_of_rel hb C hs h1
      have := ih hb.2.1 (C.mono (fun x y z h => h.imp id (fun h => .inr (.inl h)))) hp' h2 h2'
      simp only [List.length_cons, Trie.replace, hk, Bool.false_eq_true, if_false, Trie.hash, this, ← e1]
      exact h1'.1.symm

theorem Trie.replace_branching {t s : Trie} {key : Fr} {i n : ℕ} (hb : t.Branching)
    (hs : s.Branching) : (t.replace key s i n).Branching := by
  induction n generalizing t i with
  | zero => simpa using hs
  | succ n ih =>
    cases t with
    | empty => trivial
    | leaf k d => trivial
    | node d l r =>
      simp only [Trie.replace]
      split
      · exact ⟨hb.1, hb.2.1, ih hb.2.2⟩
      · exact ⟨hb.1, ih hb.2.1, hb.2.2⟩

/-- A key for which the replaced and the replacing subtree agree keeps its value. -/
theorem Trie.replace_getFrom {t t' s : Trie} {key key' : Fr} {i n : ℕ}
    (hf : t.follow key i n = some t') (h : t'.getFrom key' (i + n) = s.getFrom key' (i + n)) :
    (t.replace key s i n).getFrom key' i = t.getFrom key' i := by
  induction n generalizing t i with
  | zero =>
    simp only [Trie.follow, Option.some.injEq] at hf
    subst hf
    simpa using h.symm
  | succ n ih =>
    cases t with
    | empty => rfl
    | leaf k d => rfl
    | node d l r =>
      simp only [Trie.follow] at hf
      have e : i + (n + 1) = i + 1 + n := by omega
      rw [e] at h
      have := ih hf h
      simp only [Trie.replace]
      split
      · rename_i hk
        simp only [hk, Trie.child, if_true] at this
        simp only [Trie.getFrom]
        rw [this]
      · rename_i hk
        simp only [hk, Trie.child, Bool.false_eq_true, if_false] at this
        simp only [Trie.getFrom]
        rw [this]

theorem Trie.replace_get_self {t t' s : Trie} {key : Fr} {i n : ℕ}
    (hf : t.follow key i n = some t') :
    (t.replace key s i n).getFrom key i = s.getFrom key (i + n) := by
  induction n generalizing t i with
  | zero => simp
  | succ n ih =>
    cases t with
    | empty => simp [Trie.follow] at hf
    | leaf k d => simp [Trie.follow] at hf
    | node d l r =>
      simp only [Trie.follow] at hf
      have e : i + (n + 1) = i + 1 + n := by omega
      have := ih hf
      simp only [Trie.replace]
      split
      · rename_i hk
        simp only [hk, Trie.child, if_true] at this
        simp only [Trie.getFrom, hk, cond_true, e]
        rw [this]
      · rename_i hk
        simp only [hk, Trie.child, Bool.false_eq_true, if_false] at this
        simp only [Trie.getFrom, eq_false_of_ne_true hk, cond_false, e]
        rw [this]

end
end Mpt.Spec
