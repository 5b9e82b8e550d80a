import Verif.Assign.HonestProof

set_option autoImplicit false

/-!
# Completeness (C35): claims about an account that does not exist
-/

namespace Mpt
open Spec MptUpdate Types Requests Props

variable {H : HashFn} {w : Witness Fr} {U : ℕ}

/-- Claims made about absent accounts: the field is 0 before and after, or the account or storage slot
is empty. -/
inductive EmptyKind : ClaimKind → Prop
  | nonce : EmptyKind (.Nonce (some 0) (some 0))
  | balance : EmptyKind (.Balance (some 0) (some 0))
  | codeHash : EmptyKind (.CodeHash (some 0) (some 0))
  | codeSize : EmptyKind (.CodeSize (some 0) (some 0))
  | isEmpty (k : Option ℕ) : EmptyKind (.IsEmpty k)

/-- A proof about an account that does not exist: both sides are the same, and the path ends in an
empty node or in the leaf of another key. -/
structure AbsentReady (H : HashFn) (p : Proof) : Prop where
  acc : AccountReady H .Start p
  noOld : p.oldAccount = none
  noNew : p.newAccount = none
  kind : EmptyKind p.claim.kind
  same : ∀ row ∈ p.accountTrieRows, row.old = row.new
  roots : p.claim.oldRoot = p.claim.newRoot
  paths : p.new = p.old
  leaf : (p.old.leafDataHash = none ∧ p.old.key = accountKey H p.claim.address) ∨
    (∃ d, p.old.leafDataHash = some d ∧ p.old.key ≠ accountKey H p.claim.address ∧ p.old.hash H ≠ 0)

theorem rlcFold_zero (k : ℕ) (ρ : Fr) : rlcFold (beBytes k 0) ρ = 0 := by
  unfold rlcFold
  induction k with
  | zero => rfl
  | succ k ih => rw [beBytes]; simpa using ih

theorem EmptyKind.values {c : Claim} (h : EmptyKind c.kind) (ρ : Fr) :
    c.oldValueAssignment ρ = 0 ∧ c.newValueAssignment ρ = 0 := by
  unfold Claim.oldValueAssignment Claim.newValueAssignment
  generalize c.kind = k at h
  cases h <;> simp [u256ToBigEndian, rlcFold_zero]

theorem EmptyKind.proofType {k : ClaimKind} (h : EmptyKind k) :
    k.proofType ∈ [MPTProofType.NonceChanged, .BalanceChanged, .CodeHashExists, .CodeSizeExists,
      .AccountDoesNotExist, .StorageDoesNotExist] := by
  cases h with
  | isEmpty k => cases k <;> simp [ClaimKind.proofType]
  | _ => simp [ClaimKind.proofType]

/-- The constraints of the proof type on Start and account trie rows of such a proof. -/
theorem proofRel_absent {r : ℤ} {u : URow} {σ' : SegmentType} {t : MPTProofType} (hu : AtRow w r u)
    (hσ : u.seg = .Start ∨ u.seg = .AccountTrie) (hp : u.path = .Start ∨ u.path = .Common)
    (heq : u.oldHash = u.newHash) (h0 : u.oldValue = 0) (h1 : u.newValue = 0)
    (hN : σ' = .Start → Nonexist w U r .oldValue .oldHash (.iv 3) ∧
      Nonexist w U r .oldValue .newHash (.iv 3))
    (ht : t ∈ [MPTProofType.NonceChanged, .BalanceChanged, .CodeHashExists, .CodeSizeExists,
      .AccountDoesNotExist, .StorageDoesNotExist]) : ProofRel H w U r u.seg σ' u.path t := by
  have e1 : w.adv .oldHash r = w.adv .newHash r := by rw [hu.oldHash, hu.newHash, heq]
  have e2 : w.adv .oldValue r = 0 := by rw [hu.oldValue, h0]
  have e3 : w.adv .newValue r = 0 := by rw [hu.newValue, h1]
  have hE : EmptyEnd w U r σ' := fun h => ⟨e1, by rw [e2, e3], (hN h).1⟩
  have hno : u.path ≠ .ExtensionOld := by rcases hp with h | h <;> rw [h] <;> simp
  simp only [List.mem_cons, List.not_mem_nil, or_false] at ht
  rcases ht with rfl | rfl | rfl | rfl | rfl | rfl <;> rcases hσ with h | h <;> rw [h]
  · exact ⟨hno, hE⟩
  · exact ⟨hno, hE⟩
  · exact hE
  · exact hE
  · exact hE
  · exact hE
  · exact hE
  · exact hE
  · exact ⟨e2, e3, e1, fun h => (hN h).2⟩
  · exact ⟨e2, e3, e1, fun h => (hN h).2⟩
  · exact ⟨e2, e3, hp, e1, fun h => (hN h).1, trivial⟩
  · exact ⟨e2, e3, hp, e1, fun h => (hN h).1, trivial⟩

theorem modifyLast_last (f : URow → URow) (l : List URow) (h : l ≠ []) :
    ∃ x, (modifyLast f l).getLast? = some (f x) := by
  induction l with
  | nil => exact absurd rfl h
  | cons u l ih =>
    cases l with
    | nil => exact ⟨u, rfl⟩
    | cons v l =>
      obtain ⟨x, hx⟩ := ih (by simp)
      refine ⟨x, ?_⟩
      rw [modifyLast]
      cases hm : modifyLast f (v :: l) with
      | nil => rw [hm] at hx; simp at hx
      | cons a b => rw [List.getLast?_cons_cons, ← hm, hx]

/-- **Runs about absent accounts are accepted.** -/
theorem run_sat_absent {ρ : Fr} {p : Proof} (hS : Serves H w U ρ p) (hR : AbsentReady H p)
    {run : List URow} (h : assignSingleProof H ρ p = some run) : RunSat H w U run := by
  obtain ⟨body, hb, rfl⟩ := assignSingleProof_eq hR.acc.traces h
  obtain ⟨other, h1, hb⟩ := Option.bind_eq_some_iff.1 hb
  obtain ⟨trie, h2, hb⟩ := Option.bind_eq_some_iff.1 hb
  obtain ⟨_, -, hb⟩ := Option.bind_eq_some_iff.1 hb
  rw [if_pos (by rw [hR.noOld, hR.noNew]; rfl)] at hb
  cases hb
  rw [hR.acc.finalHashes]
  dsimp only
  have hoth : other.1 = p.old.key ∧ ((p.old.leafDataHash = none ∧
      p.old.key = accountKey H p.claim.address) ∨
      (p.old.leafDataHash = some other.2 ∧ p.old.key ≠ accountKey H p.claim.address ∧
        p.old.hash H ≠ 0)) := by
    unfold otherLeaf at h1
    dsimp only at h1
    rcases hR.leaf with ⟨l1, l2⟩ | ⟨d, l1, l2, l3⟩
    · rw [if_neg (by simp [l2]), hR.paths, if_neg (by simp [l2])] at h1
      cases h1
      exact ⟨rfl, .inl ⟨l1, l2⟩⟩
    · rw [if_pos l2, if_pos (by rw [hR.paths]; simp), l1] at h1
      cases h1
      exact ⟨rfl, .inr ⟨l1, l2, l3⟩⟩
  clear h1
  obtain ⟨ok, data⟩ := other
  obtain ⟨ho1, ho2⟩ := hoth
  dsimp only at ho1 ho2 h2 ⊢
  subst ho1
  set key := accountKey H p.claim.address with hkey
  set f : URow → URow := fun u => u.withAbsence (key - p.old.key) (p.old.hash H) data with hf
  have hI0 := (inert_base ρ p.claim).tries _ _ _ ((inert_absence (key - p.old.key) (p.old.hash H)
    data).triesLast _ _ _ (isTries_of _ _ _ h2))
  rw [← hf] at hI0
  -- the two parts of the run
  obtain ⟨u0, us, hrun, hst, hI, hlast⟩ : ∃ u0 us, (modifyLast f (startURow H ρ p p.old.key :: trie)).map
      (URow.withBase ρ p.claim) = u0 :: us ∧ IsStart H ρ p p.old.key u0 ∧
      IsTries .AccountTrie key p.old.key 0 p.accountTrieRows us ∧
      ∃ x, us.getLastD u0 = (f x).withBase ρ p.claim := by
    cases ht : trie with
    | nil =>
      refine ⟨_, [], rfl, ?_, by rw [ht] at hI0; exact hI0, ⟨_, rfl⟩⟩
      exact ((isStart_row ρ p p.old.key).absence _ _ _).base _
    | cons v l =>
      refine ⟨_, (modifyLast f (v :: l)).map (URow.withBase ρ p.claim), rfl,
        (isStart_row ρ p p.old.key).base _, by rw [ht] at hI0; exact hI0, ?_⟩
      obtain ⟨x, hx⟩ := modifyLast_last f (v :: l) (by simp)
      refine ⟨x, ?_⟩
      rw [List.getLastD_eq_getLast?, List.getLast?_map, hx]; rfl
  have hcl0 : ∀ u ∈ u0 :: us, Claims p.claim.kind.proofType
      (rlcFold (u256ToBigEndian p.claim.storageKey) ρ) 0 0 u := by
    intro u hu
    rw [← hrun] at hu
    obtain ⟨v, -, rfl⟩ := List.mem_map.1 hu
    have := claims_base ρ p.claim v
    rwa [(hR.kind.values ρ).1, (hR.kind.values ρ).2] at this
  rw [hrun]
  refine ⟨by simp, ⟨hst.seg, hst.path⟩, ?_⟩
  intro r prev hp ha
  have hpath := rowsHonest_path _ _ hR.acc.rows
  have hrow : ∀ u ∈ u0 :: us, (u.seg = .Start ∨ u.seg = .AccountTrie) ∧
      (u.path = .Start ∨ u.path = .Common) ∧ u.oldHash = u.newHash := by
    intro u hu
    rcases List.mem_cons.1 hu with rfl | hu
    · exact ⟨.inl hst.seg, .inl hst.path, by rw [hst.oldHash, hst.newHash, hR.roots]⟩
    · obtain ⟨row, hm, e1, e2, e3, e4⟩ := isTries_mem _ _ _ u hI hu
      refine ⟨.inr e1, .inr ?_, by rw [e3, e4, hR.same row hm]⟩
      obtain ⟨q1, q2, q3⟩ := hpath row hm
      rw [e2]
      cases hq : row.pathType with
      | Start => exact absurd hq q1
      | Common => rfl
      | ExtensionNew => exact absurd (q2 hq) (by simp)
      | ExtensionOld => exact absurd (q3 hq) (by simp)
  have hlm : us.getLastD u0 ∈ u0 :: us := by
    rw [List.getLastD_eq_getLast?]
    cases hg : us.getLast? with
    | none => simp
    | some v => exact List.mem_cons_of_mem _ (List.mem_of_getLast? hg)
  have e0 : u0 :: us = u0 :: (us ++ []) := by rw [List.append_nil]
  rw [e0] at ha ⊢
  refine rowsOK_frame hS (t := p.claim.kind.proofType) (leafP := .Start) hst hI hR.acc.rows
    (rowsServed_account hS hR.acc.traces (.inl rfl)
      (fun row hm hq => absurd ((hpath row hm).2.1 hq) (by simp))
      (fun row hm hq => absurd ((hpath row hm).2.2 hq) (by simp))
      (fun row hm => (hpath row hm).1)) rfl (fun h => by cases h) (by simp) ?_ ?_ hcl0 ?_ ?_ ha trivial
  · have := hR.kind.proofType
    simp only [List.mem_cons, List.not_mem_nil, or_false] at this
    rcases this with e | e | e | e | e | e <;> rw [e] <;> exact ⟨_, rfl, by simp, by simp [URow.blank]⟩
  · have := hR.kind.proofType
    simp only [List.mem_cons, List.not_mem_nil, or_false] at this
    rcases this with e | e | e | e | e | e <;> rw [e] <;> exact ⟨_, rfl, by simp, by simp [URow.blank]⟩
  · intro r' u hu hm
    obtain ⟨a1, a2, a3⟩ := hrow u hm
    exact proofRel_absent hu a1 a2 a3 (hcl0 u hm).old (hcl0 u hm).new (fun h => by cases h)
      hR.kind.proofType
  · intro r' u hu hl
    subst hl
    obtain ⟨a1, a2, a3⟩ := hrow _ hlm
    refine proofRel_absent hu a1 a2 a3 (hcl0 _ hlm).old (hcl0 _ hlm).new (fun _ => ?_)
      hR.kind.proofType
    -- the end of the path
    have hend : (us.getLastD u0).oldHash = p.old.hash H ∧ (us.getLastD u0).key = key ∧
        (us.getLastD u0).otherKey = p.old.key := by
      have hl := hR.acc.last
      rw [List.getLastD_eq_getLast?]
      cases hg : us.getLast? with
      | none =>
        have : us = [] := List.getLast?_eq_none_iff.1 hg
        have hlen := isTries_length _ _ _ hI
        rw [this] at hlen
        have hnil : p.accountTrieRows = [] := List.length_eq_zero_iff.1 (by simpa using hlen.symm)
        rw [hnil] at hl
        simp only [Option.getD_none]
        exact ⟨by rw [hst.oldHash]; exact (Prod.mk.inj hl).1, hst.key, hst.otherKey⟩
      | some v =>
        obtain ⟨row, f1, -, -, f3, -, f5, f6⟩ := isTries_last _ _ _ v hI hg
        unfold endHashes at hl
        rw [f1] at hl
        simp only [Option.getD_some]
        exact ⟨by rw [f3]; exact (Prod.mk.inj hl).1, f5, f6⟩
    obtain ⟨x, hx⟩ := hlast
    have i2 : (us.getLastD u0).iz 2 = key - p.old.key := by
      rw [hx]; simp [hf, URow.withAbsence, URow.withBase, setFn]
    have i3 : (us.getLastD u0).iz 3 = p.old.hash H := by
      rw [hx]; simp [hf, URow.withAbsence, URow.withBase, setFn]
    have v3 : (us.getLastD u0).iv 3 = data := by
      rw [hx]; simp [hf, URow.withAbsence, URow.withBase, setFn]
    obtain ⟨g1, g2, g3⟩ := hend
    have habs : (key ≠ p.old.key ∧ p.old.hash H ≠ 0 ∧
        P1 w U p.old.key data HashDomain.Leaf.toFr (p.old.hash H)) ∨
        (key = p.old.key ∧ p.old.hash H = 0) := by
      rcases ho2 with ⟨l1, l2⟩ | ⟨l1, l2, l3⟩
      · exact .inr ⟨l2.symm, by simp [Path.hash, l1]⟩
      · refine .inl ⟨fun e => l2 e.symm, l3, ?_⟩
        obtain ⟨es, q1, q2⟩ := hS.hash
        obtain ⟨a, -, q0⟩ := Option.bind_eq_some_iff.1 q1
        obtain ⟨b, -, q⟩ := Option.bind_eq_some_iff.1 q0
        cases q
        have := q2 ((p.old.key, data), HashDomain.Leaf.toFr, domainHash H p.old.key data .Leaf)
          (List.mem_append_left _ (List.mem_append_left _ (List.mem_append_left _
            (List.mem_append_right _ (by simp [leafEntry, l1])))))
        simpa [Path.hash, l1] using this
    refine ⟨nonexist_old hu (hcl0 _ hlm).old (by rw [i2, g2, g3]) (by rw [i3, g1]) ?_,
      nonexist_oldNew hu (hcl0 _ hlm).old (by rw [i2, g2, g3]) (by rw [i3, ← a3, g1]) ?_⟩
    · rw [g1, g2, g3, v3]; exact habs
    · rw [← a3, g1, g2, g3, v3]; exact habs

end Mpt
