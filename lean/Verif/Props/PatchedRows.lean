import Verif.Props.Patched
import Verif.Props.StrictRows
import Verif.Assign.HonestAccepted

set_option autoImplicit false

/-!
# Honest rows satisfy the missing constraints (for C65)
-/

namespace Mpt
open Spec MptUpdate Types Requests Props

variable {H : HashFn} {w : Witness Fr} {U : ℕ}

/-- A row of a trie segment. -/
def URow.isTrie (u : URow) : Prop := u.seg = .AccountTrie ∨ u.seg = .StorageTrie

instance (u : URow) : Decidable u.isTrie := by unfold URow.isTrie; infer_instance

/-- The missing constraints on one row of a proof of type `t` with values `ov` and `nv`. -/
structure RowPatched (H : HashFn) (w : Witness Fr) (U : ℕ) (t : MPTProofType) (ov nv : Fr) (u v : URow) : Prop where
  leafKey : u.seg = .AccountLeaf0 ∨ u.seg = .StorageLeaf0 → u.sibling = u.key
  emptyRoot : u.seg = .Start → v.seg = .AccountLeaf0 → v.path = .ExtensionNew → u.oldHash = 0
  levels : u.isTrie → u.path = .ExtensionNew → ∀ i : ℕ, i < 256 → u.depth = ((i + 1 : ℕ) : Fr) →
      if v.isTrie then u.direction = bitFr (keyBit u.otherKey i) ∧
        u.domain = if u.direction = 1 then HashDomain.Branch1.toFr else HashDomain.Branch2.toFr
      else u.direction ≠ bitFr (keyBit u.otherKey i) ∧ u.domain = HashDomain.Branch0.toFr
  storageAccount : u.seg = .AccountLeaf0 → t = .StorageChanged → u.path = .Common
  newWord : u.seg = .StorageLeaf0 → u.path = .ExtensionNew →
    ∃ x, IsWord (PR H w U) x u.newHash ∧ nv = Spec.rlc w.chal (beBytes 32 x)
  oldWord : u.seg = .StorageLeaf0 → u.path = .ExtensionOld →
    ∃ x, IsWord (PR H w U) x u.oldHash ∧ ov = Spec.rlc w.chal (beBytes 32 x)
  leafFollows : u.seg = .AccountTrie → u.path = .ExtensionNew → v.seg ≠ .Start
  newAccount : u.seg = .AccountLeaf3 → u.path = .ExtensionNew → t = .NonceChanged ∨ t = .BalanceChanged →
    u.newHash ≠ 0
  removal : u.seg = .StorageTrie → u.path = .Common → v.path = .ExtensionOld →
      if v.seg = .StorageLeaf0 then u.domain ≠ HashDomain.Branch0.toFr
      else u.sibling ≠ 0 ∧ (u.domain = HashDomain.Branch1.toFr → u.direction = 0) ∧
        (u.domain = HashDomain.Branch2.toFr → u.direction = 1)

/-- Consecutive rows are related, the last one to `e`. -/
def Pairs (Q : URow → URow → Prop) (e : URow) : List URow → Prop
  | [] => True
  | u :: l => Q u (l.headD e) ∧ Pairs Q e l

theorem pairs_append (Q : URow → URow → Prop) (e : URow) (a b : List URow) :
    Pairs Q e (a ++ b) ↔ Pairs Q (b.headD e) a ∧ Pairs Q e b := by
  induction a with
  | nil => simp [Pairs]
  | cons u a ih =>
    simp only [List.cons_append, Pairs, ih, and_assoc]
    cases a <;> simp

theorem pairs_get (Q : URow → URow → Prop) (e : URow) (l : List URow) (h : Pairs Q e l) (k : ℕ) (hk : k < l.length) :
    Q (l.getD k e) (l.getD (k + 1) e) := by
  induction l generalizing k with
  | nil => simp at hk
  | cons u l ih =>
    cases k with
    | zero => have := h.1; cases l <;> simpa using this
    | succ k => simpa using ih h.2 k (by simpa using hk)

theorem pairs_head {Q : URow → URow → Prop} {e e' : URow} (l : List URow)
    (hQ : ∀ u, Q u e → Q u e') (h : Pairs Q e l) : Pairs Q e' l := by
  induction l with
  | nil => trivial
  | cons u l ih =>
    refine ⟨?_, ih h.2⟩
    cases l with
    | nil => exact hQ u h.1
    | cons v l => exact h.1

/-- Two rows agree on the cells the missing constraints look at. -/
structure SameView (u v : URow) : Prop where
  seg : v.seg = u.seg
  path : v.path = u.path
  domain : v.domain = u.domain
  sibling : v.sibling = u.sibling
  oldHash : v.oldHash = u.oldHash
  newHash : v.newHash = u.newHash
  depth : v.depth = u.depth
  key : v.key = u.key
  otherKey : v.otherKey = u.otherKey
  direction : v.direction = u.direction

theorem SameView.refl (u : URow) : SameView u u := ⟨rfl, rfl, rfl, rfl, rfl, rfl, rfl, rfl, rfl, rfl⟩

theorem rowPatched_congr {t : MPTProofType} {ov nv : Fr} {u v u' v' : URow} (hu : SameView u u')
    (hs : v'.seg = v.seg) (hp : v'.path = v.path) (h : RowPatched H w U t ov nv u v) :
    RowPatched H w U t ov nv u' v' := by
  constructor
  · rw [hu.seg, hu.sibling, hu.key]; exact h.leafKey
  · rw [hu.seg, hs, hp, hu.oldHash]; exact h.emptyRoot
  · have e1 : v'.isTrie ↔ v.isTrie := by unfold URow.isTrie; rw [hs]
    have e2 : u'.isTrie ↔ u.isTrie := by unfold URow.isTrie; rw [hu.seg]
    rw [e2, hu.path, hu.depth, hu.direction, hu.otherKey, hu.domain]
    simp only [e1]
    exact h.levels
  · rw [hu.seg, hu.path]; exact h.storageAccount
  · rw [hu.seg, hu.path, hu.newHash]; exact h.newWord
  · rw [hu.seg, hu.path, hu.oldHash]; exact h.oldWord
  · rw [hu.seg, hu.path, hs]; exact h.leafFollows
  · rw [hu.seg, hu.path, hu.newHash]; exact h.newAccount
  · rw [hu.seg, hu.path, hp, hs, hu.domain, hu.sibling, hu.direction]; exact h.removal

theorem pairs_congr {t : MPTProofType} {ov nv : Fr} {e e' : URow} (hs : e'.seg = e.seg) (hp : e'.path = e.path)
    {a b : List URow} (hab : List.Forall₂ SameView a b) (h : Pairs (RowPatched H w U t ov nv) e a) :
    Pairs (RowPatched H w U t ov nv) e' b := by
  induction hab with
  | nil => trivial
  | cons h1 h2 ih =>
    refine ⟨?_, ih h.2⟩
    cases h2 with
    | nil => exact rowPatched_congr h1 hs hp h.1
    | cons h3 _ => exact rowPatched_congr h1 h3.seg h3.path h.1

theorem sameView_modifyLast {f : URow → URow} (hf : ∀ u, SameView u (f u)) (l : List URow) :
    List.Forall₂ SameView l (modifyLast f l) := by
  induction l with
  | nil => exact .nil
  | cons u l ih =>
    cases l with
    | nil => exact .cons (hf u) .nil
    | cons v l => exact .cons (.refl u) ih

theorem sameView_base (ρ : Fr) (c : Claim) (l : List URow) :
    List.Forall₂ SameView l (l.map (URow.withBase ρ c)) := by
  induction l with
  | nil => exact .nil
  | cons u l ih => exact .cons ⟨rfl, rfl, rfl, rfl, rfl, rfl, rfl, rfl, rfl, rfl⟩ ih

/-- Rows of other segments have nothing to satisfy. -/
theorem rowPatched_start {t : MPTProofType} {ov nv : Fr} {u v : URow} (hs : u.seg = .Start)
    (h : v.seg = .AccountLeaf0 → v.path = .ExtensionNew → u.oldHash = 0) : RowPatched H w U t ov nv u v := by
  constructor <;> try (rw [hs]; intro h; simp at h; done)
  · exact fun _ => h
  · unfold URow.isTrie; rw [hs]; intro h; simp at h

theorem rowPatched_leaf {t : MPTProofType} {ov nv : Fr} {u v : URow}
    (hs : u.seg = .AccountLeaf0 ∨ u.seg = .AccountLeaf1 ∨ u.seg = .AccountLeaf2 ∨ u.seg = .AccountLeaf3)
    (h0 : u.seg = .AccountLeaf0 → u.sibling = u.key ∧ (t = .StorageChanged → u.path = .Common))
    (h3 : u.seg = .AccountLeaf3 → u.path = .ExtensionNew → t = .NonceChanged ∨ t = .BalanceChanged → u.newHash ≠ 0) :
    RowPatched H w U t ov nv u v := by
  constructor
  · rintro (h | h)
    · exact (h0 h).1
    · rw [h] at hs; simp at hs
  · intro h; rw [h] at hs; simp at hs
  · unfold URow.isTrie; rintro (h | h) <;> rw [h] at hs <;> simp at hs
  · exact fun h => (h0 h).2
  · intro h; rw [h] at hs; simp at hs
  · intro h; rw [h] at hs; simp at hs
  · intro h; rw [h] at hs; simp at hs
  · exact h3
  · intro h; rw [h] at hs; simp at hs

theorem depth_inj {i j : ℕ} (hi : i < 256) (hj : j < 256) (h : ((i + 1 : ℕ) : Fr) = ((j + 1 : ℕ) : Fr)) : i = j := by
  have := (ZMod.natCast_eq_natCast_iff' _ _ _).1 h
  rw [Nat.mod_eq_of_lt, Nat.mod_eq_of_lt] at this
  · omega
  all_goals (unfold frModulus; omega)

theorem bitFr_inj {a b : Bool} (h : bitFr a = bitFr b) : a = b := by
  cases a <;> cases b <;> simp [bitFr] at h ⊢

/-- The rows of a trie. -/
theorem tries_patched {t : MPTProofType} {ov nv : Fr} {s : SegmentType} {key ok : Fr} {e : URow}
    (hs : s = .AccountTrie ∨ s = .StorageTrie) (he : ¬ e.isTrie) (rows : List TrieRow) (i : ℕ) (us : List URow)
    (hI : IsTries s key ok i rows us) (hi : InsRows ok i rows) (hl : i + rows.length ≤ 256)
    (hf : s = .AccountTrie → (∀ r ∈ rows, r.pathType ≠ .ExtensionNew) ∨ e.seg ≠ .Start)
    (hr : s = .StorageTrie → (RemRows rows ∧ (e.path = .ExtensionOld → e.seg = .StorageLeaf0)) ∨
      (e.path ≠ .ExtensionOld ∧ ∀ r ∈ rows, r.pathType ≠ .ExtensionOld)) :
    Pairs (RowPatched H w U t ov nv) e us := by
  induction rows generalizing i us with
  | nil =>
    cases us with
    | nil => trivial
    | cons u us => exact absurd hI (by simp [IsTries])
  | cons row rows ih =>
    cases us with
    | nil => exact absurd hI (by simp [IsTries])
    | cons u us =>
      obtain ⟨h1, h2⟩ := hI
      simp only [List.length_cons] at hl
      refine ⟨?_, ih (i + 1) us h2 hi.2 (by omega) (fun hs => (hf hs).imp_left fun h r hr => h r (by simp [hr]))
        (fun hs => (hr hs).imp (fun h => ⟨h.1.2, h.2⟩) fun h => ⟨h.1, fun r hr => h.2 r (by simp [hr])⟩)⟩
      have hv : (rows = [] ∧ us.headD e = e) ∨ ∃ row' rows', rows = row' :: rows' ∧ (us.headD e).seg = s ∧
          (us.headD e).path = row'.pathType := by
        cases rows with
        | nil =>
          cases us with
          | nil => exact .inl ⟨rfl, rfl⟩
          | cons u us => exact absurd h2 (by simp [IsTries])
        | cons row' rows' =>
          cases us with
          | nil => exact absurd h2 (by simp [IsTries])
          | cons u us => exact .inr ⟨_, _, rfl, h2.1.seg, h2.1.path⟩
      constructor
      · rw [h1.seg]; rcases hs with rfl | rfl <;> simp
      · rw [h1.seg]; rcases hs with rfl | rfl <;> simp
      · intro _ hp j hj hd
        rw [h1.path] at hp
        rw [h1.depth] at hd
        obtain rfl := depth_inj (by omega) hj hd
        have hins := hi.1 hp
        rcases hv with ⟨rfl, hv⟩ | ⟨row', rows', rfl, hv, -⟩
        · rw [hv, if_neg he, h1.direction, h1.otherKey, h1.domain]
          rw [if_pos rfl] at hins
          exact ⟨fun h => hins.1 (bitFr_inj h), by rw [hins.2]⟩
        · rw [if_pos (by unfold URow.isTrie; rw [hv]; exact hs), h1.direction, h1.otherKey, h1.domain]
          rw [if_neg (by simp)] at hins
          refine ⟨by rw [hins.1], ?_⟩
          rw [hins.2]
          cases row.direction <;> simp [bitFr]
      · rw [h1.seg]; rcases hs with rfl | rfl <;> simp
      · rw [h1.seg]; rcases hs with rfl | rfl <;> simp
      · rw [h1.seg]; rcases hs with rfl | rfl <;> simp
      · intro h hp
        rw [h1.seg] at h
        rw [h1.path] at hp
        rcases hv with ⟨rfl, hv⟩ | ⟨row', rows', rfl, hv, -⟩
        · rw [hv]
          rcases hf h with hf | hf
          · exact absurd hp (hf row (by simp))
          · exact hf
        · rw [hv, h]; simp
      · rw [h1.seg]; rcases hs with rfl | rfl <;> simp
      · intro h hp hnp
        rw [h1.seg] at h
        rw [h1.path] at hp
        rw [h1.domain, h1.sibling, h1.direction]
        rcases hr h with ⟨hr1, hr2⟩ | ⟨hr1, hr2⟩
        · have := hr1.1 hp
          rcases hv with ⟨rfl, hv⟩ | ⟨row', rows', rfl, hv, hv'⟩
          · rw [hv] at hnp ⊢
            rw [if_pos (hr2 hnp)]
            exact fun h => this (toFr_inj h)
          · rw [hv, h, if_neg (by simp)]
            obtain ⟨a1, a2, a3⟩ := this (by rw [← hv', hnp])
            refine ⟨a1, fun h => ?_, fun h => ?_⟩
            · rw [a2 (toFr_inj h)]; rfl
            · rw [a3 (toFr_inj h)]; rfl
        · rcases hv with ⟨rfl, hv⟩ | ⟨row', rows', rfl, hv, hv'⟩
          · rw [hv] at hnp; exact absurd hnp hr1
          · rw [hv'] at hnp; exact absurd hnp (hr2 row' (by simp))

end Mpt
