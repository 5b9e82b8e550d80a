import Verif.Assign.HonestSlotRun

set_option autoImplicit false

/-!
# Completeness (C35): claims about a storage slot that is empty, of an account that exists
-/

namespace Mpt
open Spec MptUpdate Types Requests Props

variable {H : HashFn} {w : Witness Fr} {U : ℕ}

/-- What `assign_empty_storage_proof` writes on the last row. -/
structure EndCells (H : HashFn) (key ok : Fr) (l : StorageLeaf) (f : URow → URow) : Prop where
  inert : Inert f
  iv : ∀ u (i : Fin 10), i ≠ 3 → (f u).iv i = u.iv i
  sp : ∀ u, (f u).sp = u.sp
  iz2 : ∀ u, (f u).iz 2 = key - ok
  iz3 : ∀ u, u.iz 3 = 0 → (f u).iz 3 = l.hash H
  iv3 : ∀ u, key ≠ ok → some ((f u).iv 3) = l.valueHash H

theorem endCells_of {key : Fr} {l : StorageLeaf} (hl : AbsentLeaf H key l) {f : URow → URow}
    {ok : Fr} (hok : ok = l.key H) (h : emptyStorage H key ok l l = some f) : EndCells H key ok l f := by
  rcases hl with rfl | ⟨k, v, rfl, hk, -⟩
  · unfold emptyStorage at h
    change ok = key at hok
    subst hok
    dsimp only at h
    rw [if_pos rfl] at h
    cases h
    refine ⟨⟨fun _ => rfl, fun _ => rfl, fun _ => rfl, fun _ => rfl, fun _ => rfl, fun _ => rfl, fun _ => rfl,
      fun _ => rfl, fun _ => rfl, fun _ => rfl, fun _ => rfl⟩, fun _ _ _ => rfl, fun _ => rfl, fun u => ?_,
      fun u h3 => ?_, fun u h => absurd rfl h⟩
    · simp [setFn]
    · simp [setFn, h3, StorageLeaf.hash, StorageLeaf.valueHash]
  · unfold emptyStorage at h
    change ok = k at hok
    subst hok
    dsimp only at h
    rw [if_pos ⟨fun e => hk e.symm, rfl, rfl⟩] at h
    cases h
    refine ⟨inert_absence _ _ _, fun u i hi => ?_, fun _ => rfl, fun u => ?_, fun u _ => ?_, fun u _ => ?_⟩
    · simp [URow.withAbsence, setFn, hi]
    · simp [URow.withAbsence, setFn]
    · simp [URow.withAbsence, setFn]
    · simp [URow.withAbsence, setFn, StorageLeaf.valueHash]

theorem trieURows_iz {s : SegmentType} {key ok : Fr} (rows : List TrieRow) : ∀ (i : ℕ) (us : List URow),
    trieURows s key ok i rows = some us → ∀ u ∈ us, u.iz 3 = 0 := by
  induction rows with
  | nil => intro i us h; cases h; simp
  | cons row rows ih =>
    intro i us h u hu
    rw [trieURows] at h
    obtain ⟨d, -, h⟩ := Option.bind_eq_some_iff.1 h
    obtain ⟨rest, hr, h⟩ := Option.bind_eq_some_iff.1 h
    cases h
    rcases List.mem_cons.1 hu with rfl | hu
    · rfl
    · exact ih _ _ hr u hu

section
variable {ρ : Fr} {p : Proof} {a : AccountData} {so : Fr} {sk : ℕ}
variable {key : Fr} {rows : List TrieRow} {l : StorageLeaf}

theorem EndCells.leaf {ok : Fr} {f : URow → URow} (hf : EndCells H key ok l f) {k o : Fr} {pt : PathType}
    {s : SegmentType} {d : HashDomain} {sib old new : Fr} {dir : Bool} {u : URow}
    (h : IsLeaf k o pt s d sib old new dir u) : IsLeaf k o pt s d sib old new dir (f u) :=
  ⟨by rw [hf.inert.seg, h.seg], by rw [hf.inert.path, h.path], by rw [hf.inert.domain, h.domain],
    by rw [hf.inert.sibling, h.sibling], by rw [hf.inert.oldHash, h.oldHash],
    by rw [hf.inert.newHash, h.newHash], by rw [hf.inert.direction, h.direction],
    by rw [hf.inert.depth, h.depth], by rw [hf.inert.key, h.key], by rw [hf.inert.otherKey, h.otherKey]⟩

/-- **Claims that a slot of an existing account is empty are accepted.** -/
theorem run_sat_slotEmpty (hS : Serves H w U ρ p) (hR : SlotReady H .Start p a so so sk key rows l l)
    (hK : p.claim.kind = .IsEmpty (some sk)) (hl : AbsentLeaf H key l)
    (hroots : p.claim.oldRoot = p.claim.newRoot) (hsame : ∀ row ∈ p.accountTrieRows, row.old = row.new)
    (hsame' : ∀ row ∈ rows, row.old = row.new)
    {run : List URow} (h : assignSingleProof H ρ p = some run) : RunSat H w U run := by
  obtain ⟨body, hb, rfl⟩ := assignSingleProof_eq hR.both.acc.traces h
  have hpt : p.claim.kind.proofType = .StorageDoesNotExist := by rw [hK]; rfl
  have hsk : p.claim.storageKey = sk := by unfold Claim.storageKey; rw [hK]
  have hv := EmptyKind.values (c := p.claim) (by rw [hK]; exact .isEmpty _) ρ
  obtain ⟨trie, h2, hb, x4, x3, x1⟩ := body_slot hR (.inr hK) hb
  rw [hR.st] at hb
  unfold storageURows at hb
  obtain ⟨ok, hok, hb⟩ := Option.bind_eq_some_iff.1 hb
  have hok' : ok = slotOther H key l l := by cases hok; rfl
  have hoth : slotOther H key l l = l.key H := by unfold slotOther; split <;> rfl
  clear hok
  subst hok'
  obtain ⟨strie, hst, hb⟩ := Option.bind_eq_some_iff.1 hb
  have hpath := rowsHonest_path _ _ hR.honest
  have hV := storageServed_of hS hR.st (ok := slotOther H key l l) rfl (fun row hm => (hpath row hm).1)
  have hsp : storagePathType l l = none := by
    rcases hl with rfl | ⟨k, v, rfl, -⟩ <;> rfl
  rw [hsp] at hb
  obtain ⟨f, hf, hb⟩ := Option.bind_eq_some_iff.1 hb
  cases hb
  rw [hoth] at hf
  have hf := endCells_of hl rfl hf
  obtain ⟨⟨fo, fn⟩, hto, htn⟩ := both_nodes hS hR.both
  obtain ⟨lo, ln⟩ := hR.both.links
  have yo : p.oldTraces.t1.1 = so := by rw [hR.both.oldTraces]; rfl
  have yn : p.newTraces.t1.1 = so := by rw [hR.both.newTraces]; rfl
  have z4 : p.oldTraces.t4.1 = p.newTraces.t4.1 := by
    rw [hR.both.oldTraces, hR.both.newTraces]
  have z5 : p.oldTraces.t5.2.1 = p.newTraces.t5.2.1 := by
    rw [hR.both.oldTraces, hR.both.newTraces]
  have z1 : p.oldTraces.t1.2.2 = p.newTraces.t1.2.2 := by
    rw [hR.both.oldTraces, hR.both.newTraces]
  set e0 := slotRow ρ key (slotOther H key l l) sk (accountKey H p.claim.address) p.oldTraces.t1.2.1 so so
    with he0
  -- the rows from the last account leaf row on
  obtain ⟨e, us, hmod, ie, he, hI, hlast⟩ : ∃ e us, (modifyLast f (e0 :: strie)).map (URow.withBase ρ p.claim)
      = e :: us ∧ IsLeaf key (slotOther H key l l) .Common .AccountLeaf3 .AccountFields p.oldTraces.t1.2.1
        so so false e ∧ (∀ i : Fin 10, i ≠ 3 → e.iv i = e0.iv i ∧ e.sp i = e0.sp i) ∧
      IsTries .StorageTrie key (slotOther H key l l) 0 rows us ∧
      ∃ x, us.getLastD e = (f x).withBase ρ p.claim ∧ x.iz 3 = 0 := by
    have hI0 := (inert_base ρ p.claim).tries _ _ _ (hf.inert.triesLast _ _ _ (isTries_of _ _ _ hst))
    cases hs : strie with
    | nil =>
      refine ⟨_, [], rfl, (hf.leaf (isLeaf_slotRow ..)).base _ _, fun i hi => ?_, by rw [hs] at hI0; exact hI0,
        e0, rfl, rfl⟩
      exact ⟨hf.iv _ _ hi, congrFun (hf.sp _) _⟩
    | cons v m =>
      refine ⟨_, (modifyLast f (v :: m)).map (URow.withBase ρ p.claim), rfl, (isLeaf_slotRow ..).base _ _,
        fun i hi => ⟨rfl, rfl⟩, by rw [hs] at hI0; exact hI0, ?_⟩
      obtain ⟨x, hx, hz⟩ : ∃ x, (modifyLast f (v :: m)).getLast? = some (f x) ∧ x.iz 3 = 0 := by
        have hz := trieURows_iz _ _ _ hst
        rw [hs] at hz
        clear hs hI0 he0
        induction m generalizing v with
        | nil => exact ⟨v, rfl, hz v (by simp)⟩
        | cons v' m ih =>
          obtain ⟨x, hx, h0⟩ := ih v' (fun u hu => hz u (List.mem_cons_of_mem _ hu))
          refine ⟨x, ?_, h0⟩
          rw [modifyLast]
          cases hm : modifyLast f (v' :: m) with
          | nil => rw [hm] at hx; simp at hx
          | cons c d => rw [List.getLast?_cons_cons, ← hm, hx]
      refine ⟨x, ?_, hz⟩
      rw [List.getLastD_eq_getLast?, List.getLast?_map, hx]; rfl
  have hcl : ∀ u ∈ e :: us, Claims p.claim.kind.proofType
      (rlcFold (u256ToBigEndian p.claim.storageKey) ρ) (p.claim.oldValueAssignment ρ)
        (p.claim.newValueAssignment ρ) u := by
    intro u hu
    rw [← hmod] at hu
    obtain ⟨v, -, rfl⟩ := List.mem_map.1 hu
    exact claims_base ρ p.claim v
  rw [List.append_assoc, modifyLast_append f _ _ (by simp), List.map_append]
  have eR : ∀ x y z : URow, (modifyLast f ([x, y, z, e0] ++ strie)).map (URow.withBase ρ p.claim) =
      x.withBase ρ p.claim :: y.withBase ρ p.claim :: z.withBase ρ p.claim :: (e :: us) := by
    intro x y z
    have : ([x, y, z, e0] ++ strie) = [x, y, z] ++ (e0 :: strie) := rfl
    rw [this, modifyLast_append f _ _ (by simp), List.map_append, hmod]; rfl
  rw [eR]
  refine runSat_frame hS hR.both.acc h2 (.inl hR.both.oldKey.symm) rfl rfl (.inl rfl)
    (.inr ⟨hpt, rfl, hroots, hsame, hv.1, hv.2⟩) ?_
  intro r prev hp p1 p2 p3 p4 p5 hat
  have hcb := claims_base ρ p.claim
  rw [hv.1, hv.2] at p5 hcl
  rw [hpt] at p5 hcl
  have hcb : ∀ u : URow, Claims .StorageDoesNotExist (rlcFold (u256ToBigEndian p.claim.storageKey) ρ) 0 0
      (u.withBase ρ p.claim) := by
    intro u
    have := hcb u
    rwa [hv.1, hv.2, hpt] at this
  obtain ⟨g1, g2, g3, g4⟩ := tries_end (so := so) (sn := so) hI (e := e) ie.oldHash ie.newHash ie.key
    ie.otherKey
  rw [hR.last] at g1 g2
  have hhalf : ∀ y ∈ halves sk, InBytes w U ((y : ℕ) : Fr) 15 ∧
      InRlc w U ((y : ℕ) : Fr) 15 (rlcFold (beBytes 16 y) ρ) := by
    intro y hy
    obtain ⟨m, hl1, hl2⟩ := hS.u128
    unfold proofU128s at hl1
    rw [hpt, hR.st, hsk] at hl1
    cases hl1
    exact hl2 y (List.mem_cons_of_mem _ hy)
  -- the constraints of the proof type
  have hrel : ∀ r' u, AtRow w r' u → ∀ σ', u ∈ e :: us →
      (σ' = .Start → Nonexist w U r' .oldValue .oldHash (.iv 3)) →
      ProofRel H w U r' u.seg σ' u.path .StorageDoesNotExist := by
    intro r' u hu σ' hm hN
    have c := hcl u hm
    have o1 : w.adv .oldValue r' = 0 := by rw [hu.oldValue, c.old]
    have o2 : w.adv .newValue r' = 0 := by rw [hu.newValue, c.new]
    rcases List.mem_cons.1 hm with rfl | hm
    · refine ⟨o1, o2, .inr ie.path, by rw [hu.oldHash, hu.newHash, ie.oldHash, ie.newHash], hN, ?_⟩
      rw [ie.seg]
      refine ⟨by rw [hu.direction, ie.direction]; rfl, keyWord_slot (e := u) (fun i hi => he i ?_) ie.key ?_ hu
        hS.chal hR.bound hV.slot hhalf⟩
      · rcases hi with rfl | rfl <;> simp
      · rw [c.slot, hsk]
    · obtain ⟨row, hrow, e1, e2, e3, e4⟩ := isTries_mem _ _ _ u hI hm
      obtain ⟨q1, q2, q3⟩ := hpath row hrow
      refine ⟨o1, o2, .inr ?_, by rw [hu.oldHash, hu.newHash, e3, e4, hsame' row hrow], hN, ?_⟩
      · rw [e2]
        cases hq : row.pathType with
        | Start => exact absurd hq q1
        | Common => rfl
        | ExtensionNew => exact absurd (q2 hq) (by simp)
        | ExtensionOld => exact absurd (q3 hq) (by simp)
      · rw [e1]; trivial
  have hlm : us.getLastD e ∈ e :: us := by
    rw [List.getLastD_eq_getLast?]
    cases hg : us.getLast? with
    | none => simp
    | some v => exact List.mem_cons_of_mem _ (List.mem_of_getLast? hg)
  have hpa : ∀ (u : URow) (σ σ' : SegmentType) (r' : ℤ), AtRow w r' u → u.oldValue = 0 → u.newValue = 0 →
      u.oldHash = u.newHash → σ' ≠ .Start →
      (match σ with
        | .AccountLeaf0 => w.adv .direction r' = 1
        | .AccountLeaf1 => w.adv .direction r' = 0
        | .AccountLeaf2 => w.adv .direction r' = 1
        | .AccountLeaf3 => w.adv .direction r' = 0 ∧ KeyWord w U r'
        | _ => True) → ProofRel H w U r' σ σ' .Common .StorageDoesNotExist := by
    intro u σ σ' r' hu a1 a2 a3 a4 a5
    exact ⟨by rw [hu.oldValue, a1], by rw [hu.newValue, a2], .inr rfl, by rw [hu.oldHash, hu.newHash, a3],
      fun h => absurd h a4, a5⟩
  refine rowsOK_leafs_common (tail := e :: us) p1 p2 p3 p4 p5 (hcb _) (hcb _) (hcb _) ((isLeaf_row0 ..).base _ _)
    ((isLeaf_row ..).base _ _) ((isLeaf_row ..).base _ _) ⟨?_, ?_⟩ ⟨?_, ?_⟩ ⟨?_, ?_⟩ ?_ ie.seg ie.path
    ?_ ?_ ?_ hp hat ?_
  · exact hto
  · exact htn
  · rw [lo.l5]; exact fo.n4
  · rw [ln.l5, x4]; exact fn.n4
  · rw [lo.l4, ← lo.l3']; exact fo.n3
  · rw [ln.l4, ← ln.l3', x3]; exact fn.n3
  · simp
  · intro r' hu
    exact hpa _ _ _ r' hu (hcb _).old (hcb _).new z5 (by simp) (by rw [hu.direction]; rfl)
  · intro r' hu
    exact hpa _ _ _ r' hu (hcb _).old (hcb _).new z4 (by simp) (by rw [hu.direction]; rfl)
  · intro r' hu
    exact hpa _ _ _ r' hu (hcb _).old (hcb _).new z1 (by simp) (by rw [hu.direction]; rfl)
  · obtain ⟨qa, qb, qc, qr⟩ := hat
    have e00 : e :: us = e :: (us ++ []) := by rw [List.append_nil]
    rw [e00] at qr ⊢
    refine rowsOK_storage (t := .StorageDoesNotExist) (tail := []) (leafP := .Start)
      (.inr ⟨rfl, rfl, rfl, rfl⟩) (.inl ⟨rfl, rfl, rfl⟩) rfl (fun h => by cases h) (fun h => by cases h)
      (fun _ => ⟨(fun h => by cases h), (fun h => by cases h)⟩) (hcb _) (hcl e (by simp)) ie ?_ ⟨?_, ?_⟩ hI
      hR.honest hV.rows (fun u hu => hcl u (List.mem_cons_of_mem _ hu)) ?_ ?_ qc.shift qr trivial
    · rw [(he 2 (by simp)).1]; simp [he0, slotRow, setFn]
    · have := fo.n1
      rw [yo] at this; exact this
    · have := fn.n1
      rw [yn, ← x1] at this; exact this
    · intro r' u hu hm
      exact hrel r' u hu _ hm (fun h => by cases h)
    · intro r' u hu hlst
      subst hlst
      refine hrel r' _ hu _ hlm (fun _ => ?_)
      obtain ⟨x, hx, hz⟩ := hlast
      have j2 : (us.getLastD e).iz 2 = key - l.key H := by rw [hx]; exact hf.iz2 x
      have j3 : (us.getLastD e).iz 3 = l.hash H := by rw [hx]; exact hf.iz3 x hz
      have jv : key ≠ l.key H → some ((us.getLastD e).iv 3) = l.valueHash H := by rw [hx]; exact hf.iv3 x
      refine nonexist_old hu (hcl _ hlm).old (by rw [j2, g3, g4, hoth]) (by rw [j3, g1]) ?_
      rw [g1, g3, g4, hoth]
      rcases hl with rfl | ⟨k, v, rfl, hk, h0⟩
      · exact .inr ⟨rfl, rfl⟩
      · have hne : key ≠ (StorageLeaf.Leaf k v).key H := fun h => hk h.symm
        refine .inl ⟨hne, h0, ?_⟩
        have := jv hne
        have hv3 : (us.getLastD e).iv 3 = v := by simpa [StorageLeaf.valueHash] using this
        rw [hv3]
        exact hV.old (k, v, .Leaf, _) (by simp [StorageLeaf.poseidonLookups, StorageLeaf.key, StorageLeaf.hash, StorageLeaf.valueHash])

end

end Mpt
