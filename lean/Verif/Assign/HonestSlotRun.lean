import Verif.Assign.HonestSlot

set_option autoImplicit false

/-!
# Completeness (C35): runs about storage slots, composed
-/

namespace Mpt
open Spec MptUpdate Types Requests Props

variable {H : HashFn} {w : Witness Fr} {U : ℕ}

theorem modifyLast_append (f : URow → URow) (a l : List URow) (h : l ≠ []) :
    modifyLast f (a ++ l) = a ++ modifyLast f l := by
  induction a with
  | nil => rfl
  | cons u a ih =>
    cases hal : a ++ l with
    | nil =>
      have := List.append_eq_nil_iff.1 hal
      exact absurd this.2 h
    | cons v m => rw [List.cons_append, hal, modifyLast, ← hal, ih, List.cons_append]

/-- The last of the rows of a trie, or the row before. -/
theorem tries_end {key ok so sn : Fr} {rows : List TrieRow} {us : List URow} {e : URow}
    (hI : IsTries .StorageTrie key ok 0 rows us) (h1 : e.oldHash = so) (h2 : e.newHash = sn)
    (h3 : e.key = key) (h4 : e.otherKey = ok) :
    (us.getLastD e).oldHash = (endHashes (so, sn) rows).1 ∧
    (us.getLastD e).newHash = (endHashes (so, sn) rows).2 ∧ (us.getLastD e).key = key ∧
    (us.getLastD e).otherKey = ok := by
  rw [List.getLastD_eq_getLast?]
  unfold endHashes
  cases hg : us.getLast? with
  | none =>
    have : us = [] := List.getLast?_eq_none_iff.1 hg
    have hlen := isTries_length _ _ _ hI
    rw [this] at hlen
    have hnil : rows = [] := List.length_eq_zero_iff.1 (by simpa using hlen.symm)
    rw [hnil]
    exact ⟨h1, h2, h3, h4⟩
  | some v =>
    obtain ⟨row, f1, -, -, f3, f4, f5, f6⟩ := isTries_last _ _ _ v hI hg
    rw [f1]
    exact ⟨f3, f4, f5, f6⟩

theorem storageExt_row {key hash : Fr} {self other : StorageLeaf} {u v : URow}
    (h : storageExt H key hash self other u = some v) : v.seg = u.seg ∧ v.path = u.path := by
  unfold storageExt at h
  dsimp only at h
  split at h
  · obtain ⟨d, -, rfl⟩ := Option.map_eq_some_iff.1 h
    exact ⟨rfl, rfl⟩
  · split at h
    · obtain ⟨d, -, rfl⟩ := Option.map_eq_some_iff.1 h
      exact ⟨rfl, rfl⟩
    · cases h; exact ⟨rfl, rfl⟩

theorem storageURow_row (ρ key ok : Fr) (pt : PathType) (s a b : Fr) (old new : StorageLeaf) :
    (storageURow H ρ key ok pt s a b old new).seg = .StorageLeaf0 ∧
    (storageURow H ρ key ok pt s a b old new).path = pt := by
  cases old <;> cases new <;> exact ⟨rfl, rfl⟩

section
variable {ρ : Fr} {leafP : PathType} {p : Proof} {a : AccountData} {so sn : Fr} {sk : ℕ}
variable {key : Fr} {rows : List TrieRow} {old new : StorageLeaf}

/-- **Changes of a storage slot are accepted.** -/
theorem run_sat_slot (hS : Serves H w U ρ p) (hR : SlotReady H leafP p a so sn sk key rows old new)
    (hK : SlotKind H p sk key leafP old new) (hkey : key = storageKeyHash H sk)
    (hnil : rows = [] → (leafP = .ExtensionNew → so = 0) ∧ (leafP = .ExtensionOld → sn = 0))
    {run : List URow} (h : assignSingleProof H ρ p = some run) : RunSat H w U run := by
  obtain ⟨body, hb, rfl⟩ := assignSingleProof_eq hR.both.acc.traces h
  have hkind : ∃ x y, p.claim.kind = .Storage sk x y := by
    cases hK with
    | change x y hk => exact ⟨_, _, hk⟩
    | insert y old hk => exact ⟨_, _, hk⟩
    | delete x new hk => exact ⟨_, _, hk⟩
  have hpt : p.claim.kind.proofType = .StorageChanged := by
    obtain ⟨x, y, hk⟩ := hkind; rw [hk]; rfl
  have hsk : p.claim.storageKey = sk := by
    obtain ⟨x, y, hk⟩ := hkind; unfold Claim.storageKey; rw [hk]
  obtain ⟨trie, h2, hb, x4, x3, x1⟩ := body_slot hR (.inl hkind) hb
  rw [hR.st] at hb
  unfold storageURows at hb
  obtain ⟨ok, hok, hb⟩ := Option.bind_eq_some_iff.1 hb
  cases hok
  obtain ⟨strie, hst, hb⟩ := Option.bind_eq_some_iff.1 hb
  have hpath := rowsHonest_path _ _ hR.honest
  have hV := storageServed_of hS hR.st (ok := slotOther H key old new) rfl
    (fun row hm => (hpath row hm).1)
  have hsp : storagePathType old new = some leafP := by
    cases hK with
    | change x y hk => rfl
    | insert y old hk hyz hold => rcases hold with rfl | ⟨k, v, rfl, -⟩ <;> rfl
    | delete x new hk hxz hnew => rcases hnew with rfl | ⟨k, v, rfl, -⟩ <;> rfl
  rw [hsp] at hb
  obtain ⟨leaf, hl, hb⟩ := Option.bind_eq_some_iff.1 hb
  cases hb
  rw [List.map_append, List.map_append, List.map_append, List.append_assoc, List.append_assoc]
  obtain ⟨⟨fo, fn⟩, hto, htn⟩ := both_nodes hS hR.both
  obtain ⟨lo, ln⟩ := hR.both.links
  have hlP : leafP ≠ .Start := by cases hK <;> simp
  have hleaf : (leaf.withBase ρ p.claim).seg = .StorageLeaf0 ∧ (leaf.withBase ρ p.claim).path = leafP := by
    cases hK with
    | change x y hk => cases hl; exact ⟨rfl, rfl⟩
    | insert y old hk hyz hold =>
      unfold storageLeafURow at hl
      obtain ⟨nn, -, hl⟩ := Option.bind_eq_some_iff.1 hl
      obtain ⟨e1, e2⟩ := storageExt_row hl
      exact ⟨e1.trans (storageURow_row ..).1, e2.trans (storageURow_row ..).2⟩
    | delete x new hk hxz hnew =>
      unfold storageLeafURow at hl
      obtain ⟨nn, -, hl⟩ := Option.bind_eq_some_iff.1 hl
      obtain ⟨e1, e2⟩ := storageExt_row hl
      exact ⟨e1.trans (storageURow_row ..).1, e2.trans (storageURow_row ..).2⟩
  refine runSat_frame hS hR.both.acc h2 (.inl hR.both.oldKey.symm) rfl rfl (.inl rfl)
    (.inl (by rw [hpt]; simp)) ?_
  intro r prev hp p1 p2 p3 p4 p5 hat
  have hcl := claims_base ρ p.claim
  have yo : p.oldTraces.t1.1 = so := by rw [hR.both.oldTraces]; rfl
  have yn : p.newTraces.t1.1 = sn := by rw [hR.both.newTraces]; rfl
  have hI : IsTries .StorageTrie key (slotOther H key old new) 0 rows
      (strie.map (URow.withBase ρ p.claim)) := (inert_base ρ p.claim).tries _ _ _ (isTries_of _ _ _ hst)
  obtain ⟨g1, g2, g3, g4⟩ := tries_end (so := so) (sn := sn) hI (e := (slotRow ρ key (slotOther H key old new) sk
    (accountKey H p.claim.address) p.oldTraces.t1.2.1 so sn).withBase ρ p.claim) rfl rfl rfl rfl
  rw [hR.last] at g1 g2
  have ov : p.claim.oldValueAssignment ρ = 0 ∨ leafP ≠ .ExtensionNew := by
    cases hK with
    | change x y hk => exact .inr (by simp)
    | insert y old hk => left; unfold Claim.oldValueAssignment; rw [hk]; exact rlcFold_zero 32 ρ
    | delete x new hk => exact .inr (by simp)
  have nv : p.claim.newValueAssignment ρ = 0 ∨ leafP ≠ .ExtensionOld := by
    cases hK with
    | change x y hk => exact .inr (by simp)
    | insert y old hk => exact .inr (by simp)
    | delete x new hk => left; unfold Claim.newValueAssignment; rw [hk]; exact rlcFold_zero 32 ρ
  have hhalf : ∀ y ∈ halves sk, InBytes w U ((y : ℕ) : Fr) 15 ∧
      InRlc w U ((y : ℕ) : Fr) 15 (rlcFold (beBytes 16 y) ρ) := by
    intro y hy
    obtain ⟨l, hl1, hl2⟩ := hS.u128
    unfold proofU128s at hl1
    rw [hpt, hR.st, hsk] at hl1
    cases hl1
    exact hl2 y (List.mem_cons_of_mem _ (List.mem_append_left _ (List.mem_append_left _ hy)))
  have hsl : rlcFold (u256ToBigEndian p.claim.storageKey) ρ = rlcFold (u256ToBigEndian sk) ρ := by rw [hsk]
  have hopen : ∀ r' u, AtRow w r' u → ∀ σ', u ∈ (slotRow ρ key (slotOther H key old new) sk
      (accountKey H p.claim.address) p.oldTraces.t1.2.1 so sn).withBase ρ p.claim ::
        strie.map (URow.withBase ρ p.claim) →
      ProofRel H w U r' u.seg σ' u.path p.claim.kind.proofType := by
    intro r' u hu σ' hm
    rw [hpt]
    rcases List.mem_cons.1 hm with rfl | hm
    · exact ⟨by rw [hu.direction]; rfl, keyWord_slot (e := (slotRow ρ key (slotOther H key old new) sk
        (accountKey H p.claim.address) p.oldTraces.t1.2.1 so sn).withBase ρ p.claim) (fun i hi => ⟨rfl, rfl⟩) rfl hsl hu hS.chal hR.bound
        hV.slot hhalf⟩
    · obtain ⟨row, -, e1, -⟩ := isTries_mem _ _ _ u hI hm
      rw [e1]; trivial
  refine rowsOK_leafs_common p1 p2 p3 p4 p5 (hcl _) (hcl _) (hcl _) ((isLeaf_row0 ..).base _ _)
    ((isLeaf_row ..).base _ _) ((isLeaf_row ..).base _ _) ⟨?_, ?_⟩ ⟨?_, ?_⟩ ⟨?_, ?_⟩ ?_ rfl rfl ?_ ?_ ?_
    hp hat ?_
  · exact hto
  · exact htn
  · rw [lo.l5]; exact fo.n4
  · rw [ln.l5, x4]; exact fn.n4
  · rw [lo.l4, ← lo.l3']; exact fo.n3
  · rw [ln.l4, ← ln.l3', x3]; exact fn.n3
  · rw [hpt]; simp
  · intro r' hu; rw [hpt]; show w.adv .direction r' = 1; rw [hu.direction]; rfl
  · intro r' hu; rw [hpt]; show w.adv .direction r' = 0; rw [hu.direction]; rfl
  · intro r' hu; rw [hpt]; show w.adv .direction r' = 1; rw [hu.direction]; rfl
  · obtain ⟨qa, qb, qc, qr⟩ := hat
    have hlast : AtRow w (r + 1 + 1 + 1 + 1 + (strie.map (URow.withBase ρ p.claim)).length - 1)
        ((strie.map (URow.withBase ρ p.claim)).getLastD ((slotRow ρ key (slotOther H key old new) sk
          (accountKey H p.claim.address) p.oldTraces.t1.2.1 so sn).withBase ρ p.claim)) ∧
        AtRow w (r + 1 + 1 + 1 + 1 + (strie.map (URow.withBase ρ p.claim)).length)
          (leaf.withBase ρ p.claim) := by
      have e : ∀ (x : URow) (l m : List URow), x :: (l ++ m) = (x :: l) ++ m := fun _ _ _ => rfl
      have qr' : AtRows w (r + 1 + 1 + 1) ((slotRow ρ key (slotOther H key old new) sk
        (accountKey H p.claim.address) p.oldTraces.t1.2.1 so sn).withBase ρ p.claim ::
        (strie.map (URow.withBase ρ p.claim) ++ [leaf.withBase ρ p.claim])) := qr
      rw [e, atRows_append] at qr'
      refine ⟨atRows_last _ _ _ qr'.1, ?_⟩
      have := qr'.2.1
      have e2 : r + 1 + 1 + 1 + 1 + ((strie.map (URow.withBase ρ p.claim)).length : ℤ) =
        r + 1 + 1 + 1 + (((slotRow ρ key (slotOther H key old new) sk
          (accountKey H p.claim.address) p.oldTraces.t1.2.1 so sn).withBase ρ p.claim ::
          strie.map (URow.withBase ρ p.claim)).length : ℤ) := by
        rw [List.length_cons]; push_cast; ring
      rw [e2]; exact this
    refine rowsOK_storage (tail := [leaf.withBase ρ p.claim]) (.inl hpt) (.inr ⟨hleaf.1, hlP⟩) hleaf.2
      (fun h => by rcases ov with h' | h' <;> [exact h'; exact absurd h h'])
      (fun h => by rcases nv with h' | h' <;> [exact h'; exact absurd h h']) hnil (hcl _) (hcl _)
      ((isLeaf_slotRow ..).base _ _) ?_ ⟨?_, ?_⟩ hI hR.honest hV.rows ?_ ?_ ?_ qc.shift qr ?_
    · simp [slotRow, setFn, URow.withBase]
    · have := fo.n1
      rw [yo] at this; exact this
    · have := fn.n1
      rw [yn, ← x1] at this; exact this
    · intro u hu
      obtain ⟨v, -, rfl⟩ := List.mem_map.1 hu
      exact hcl v
    · exact fun r' u hu hm => hopen r' u hu _ hm
    · intro r' u hu hlst
      refine hopen r' u hu _ ?_
      rw [← hlst, List.getLastD_eq_getLast?]
      cases hg : (strie.map (URow.withBase ρ p.claim)).getLast? with
      | none => simp
      | some v => exact List.mem_cons_of_mem _ (List.mem_of_getLast? hg)
    · refine storageLeaf_ok hS hR hV hK hkey hl ?_ g1 g2 g3 g4 hlast.1 hlast.2
      rw [List.getLastD_eq_getLast?]
      cases hg : (strie.map (URow.withBase ρ p.claim)).getLast? with
      | none => exact hcl _
      | some v =>
        obtain ⟨v', -, e⟩ := List.mem_map.1 (List.mem_of_getLast? hg)
        rw [Option.getD_some, ← e]; exact hcl v'

end

end Mpt
