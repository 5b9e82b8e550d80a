import Verif.Assign.HonestFrame
import Verif.Assign.DemoRuns

set_option autoImplicit false

/-!
# Completeness (C35): creation of an account, the run
-/

namespace Mpt
open Spec MptUpdate Types Requests Props

variable {H : HashFn} {w : Witness Fr} {U : ℕ}

theorem IsLeaf.base {key ok : Fr} {pt : PathType} {s : SegmentType} {d : HashDomain} {sib old new : Fr}
    {dir : Bool} {u : URow} (h : IsLeaf key ok pt s d sib old new dir u) (ρ : Fr) (c : Claim) :
    IsLeaf key ok pt s d sib old new dir (u.withBase ρ c) :=
  ⟨h.seg, h.path, h.domain, h.sibling, h.oldHash, h.newHash, h.direction, h.depth, h.key, h.otherKey⟩

theorem isLeaf_row (key ok : Fr) (pt : PathType) (s : SegmentType) (sib old new : Fr) (dir : Bool) :
    IsLeaf key ok pt s .AccountFields sib old new dir (leafURow key ok pt s sib old new dir) :=
  ⟨rfl, rfl, rfl, rfl, rfl, rfl, rfl, rfl, rfl, rfl⟩

theorem isLeaf_row0 (key ok data : Fr) (pt : PathType) (s : SegmentType) (sib old new : Fr) (dir : Bool) :
    IsLeaf key ok pt s .Leaf sib old new dir
      (leafRow0 key ok data (leafURow key ok pt s sib old new dir)) :=
  ⟨rfl, rfl, rfl, rfl, rfl, rfl, rfl, rfl, rfl, rfl⟩

theorem hiLo_zero : hiLo 0 = (0, 0) := by simp [hiLo]

theorem frFromBiguint_zero : frFromBiguint 0 = 0 := by rw [frFromBiguint_eq]; simp

/-- What the account of a creation hashes to. -/
theorem newTraces_zero (address : List ℕ) (a : AccountData) (h : a.codeHash = 0)
    (hp : a.poseidonCodeHash = 0) :
    (accountHashTraces H address a 0).t4.2.1 = 0 ∧
    (accountHashTraces H address a 0).t3.2.1 = zeroStorageRootKeccakCodehashHash H := by
  refine ⟨?_, ?_⟩
  · show frFromBiguint a.poseidonCodeHash = 0
    rw [hp, frFromBiguint_zero]
  · show domainHash H 0 (domainHash H (hiLo a.codeHash).1 (hiLo a.codeHash).2 .Pair) .AccountFields = _
    rw [h, hiLo_zero]; rfl

theorem NewKind.fields {p : Proof} {a : AccountData} (h : NewKind p a) :
    a.codeHash = 0 ∧ a.poseidonCodeHash = 0 := by cases h <;> exact ⟨rfl, rfl⟩

/-- **Runs that create an account are accepted.** -/
theorem run_sat_new {ρ : Fr} {p : Proof} {a : AccountData} (hS : Serves H w U ρ p)
    (hR : NewReady H p a) {run : List URow} (h : assignSingleProof H ρ p = some run) :
    RunSat H w U run := by
  obtain ⟨body, hb, rfl⟩ := assignSingleProof_eq hR.acc.traces h
  obtain ⟨other, h1, hb⟩ := Option.bind_eq_some_iff.1 hb
  obtain ⟨trie, h2, hb⟩ := Option.bind_eq_some_iff.1 hb
  obtain ⟨fin, h3, hb⟩ := Option.bind_eq_some_iff.1 hb
  obtain ⟨e, he, hen, hec, heb⟩ := hR.newAccount
  rw [if_neg (by rw [hR.noOld, he]; simp)] at hb
  obtain ⟨leaf, h4, hb⟩ := Option.bind_eq_some_iff.1 hb
  rw [hR.storage] at hb
  cases hb
  set key := accountKey H p.claim.address with hkey
  -- the other key
  have hoth : other.1 = p.old.key ∧ ((p.old.leafDataHash = none ∧ p.old.key = key) ∨
      (p.old.leafDataHash = some other.2 ∧ p.old.key ≠ key ∧ p.old.hash H ≠ 0)) := by
    unfold otherLeaf at h1
    dsimp only at h1
    rcases hR.oldLeaf with ⟨l1, l2⟩ | ⟨d, l1, l2, l3⟩
    · rw [if_neg (by simp [l2]), if_neg (by simp [hR.newKey])] at h1
      cases h1
      exact ⟨rfl, .inl ⟨l1, l2⟩⟩
    · rw [if_pos l2, if_pos (.inl hR.newKey), l1] at h1
      cases h1
      exact ⟨rfl, .inr ⟨l1, l2, l3⟩⟩
  clear h1
  obtain ⟨ok, data⟩ := other
  obtain ⟨ho1, ho2⟩ := hoth
  dsimp only at ho1 ho2 h2 h4 ⊢
  subst ho1
  have habs : (key ≠ p.old.key ∧ p.old.hash H ≠ 0 ∧
      P1 w U p.old.key data HashDomain.Leaf.toFr (p.old.hash H)) ∨
      (key = p.old.key ∧ p.old.hash H = 0) := by
    rcases ho2 with ⟨l1, l2⟩ | ⟨l1, l2, l3⟩
    · exact .inr ⟨l2.symm, by simp [Path.hash, l1]⟩
    · exact .inl ⟨fun e => l2 e.symm, l3, serves_oldLeaf hS l1⟩
  -- leaf rows
  unfold leafURows at h4
  rw [hR.acc.finalPathType, hR.acc.finalHashes] at h4
  dsimp only at h4
  obtain ⟨fp, e1, h4⟩ := Option.bind_eq_some_iff.1 h4
  cases e1
  obtain ⟨pt, e1, h4⟩ := Option.bind_eq_some_iff.1 h4
  have hpt : pt = .ExtensionNew := by
    have hq : endPath p.accountTrieRows = .Common ∨ endPath p.accountTrieRows = .ExtensionNew := by
      unfold endPath
      cases hl : p.accountTrieRows.getLast? with
      | none => exact .inl rfl
      | some r =>
        obtain ⟨q1, q2, q3⟩ := rowsHonest_path _ _ hR.acc.rows r (List.mem_of_getLast? hl)
        simp only [Option.map_some, Option.getD_some]
        cases hr : r.pathType with
        | Start => exact absurd hr q1
        | Common => exact .inl rfl
        | ExtensionNew => exact .inr rfl
        | ExtensionOld => exact absurd (q3 hr) (by simp)
    rcases hq with hq | hq
    · have := hR.final hq
      rw [hq, leafPathType, if_pos this, if_neg hR.newHash] at e1
      exact (Option.some.inj e1).symm
    · rw [hq, leafPathType] at e1
      · exact (Option.some.inj e1).symm
      · simp
  clear e1
  subst hpt
  obtain ⟨dirs, e1, h4⟩ := Option.bind_eq_some_iff.1 h4
  obtain ⟨sibs, e2, h4⟩ := Option.bind_eq_some_iff.1 h4
  have hnodes := fieldNodes_of (w := w) (U := U) (H := H) (address := p.claim.address) (a := a) (sr := 0)
    (by rw [← hR.traces]; exact serves_newTraces hS)
  obtain ⟨z4, z3⟩ := newTraces_zero (H := H) p.claim.address a hR.kind.fields.1 hR.kind.fields.2
  have htop := serves_newLeaf hS hR.newLeaf
  rw [hR.newKey] at htop
  rw [hR.traces] at htop
  rw [← hR.traces] at hnodes z4 z3
  have et : p.newTraces.t5.2.1 = p.newTraces.t4.2.2 := by rw [hR.traces]; rfl
  have et4 : p.newTraces.t4.1 = p.newTraces.t3.2.2 := by rw [hR.traces]; rfl
  have et3 : p.newTraces.t3.1 = p.newTraces.t2.2.2 := by rw [hR.traces]; rfl
  rw [← hR.traces] at htop
  have hold : p.claim.oldValueAssignment ρ = 0 := by
    have hk := hR.kind
    cases hk with
    | nonce n hk => unfold Claim.oldValueAssignment; rw [hk]; simp
    | balance b hb hk =>
      unfold Claim.oldValueAssignment; rw [hk]; exact rlcFold_zero 32 ρ
  have htype : p.claim.kind.proofType ∈ [MPTProofType.NonceChanged, .BalanceChanged] := by
    have hk := hR.kind
    cases hk with
    | nonce n hk => rw [hk]; simp [ClaimKind.proofType]
    | balance b hb hk => rw [hk]; simp [ClaimKind.proofType]
  rw [List.map_append]
  -- both kinds have the same shape
  obtain ⟨s3, n3, d3, hleaf, hn3, hpe⟩ : ∃ (s3 n3 : Fr) (d3 : Bool),
      leaf = [leafRow0 key p.old.key data (leafURow key p.old.key .ExtensionNew .AccountLeaf0 key
          (p.old.hash H) p.newTraces.t5.2.1 true),
        leafURow key p.old.key .ExtensionNew .AccountLeaf1 0 (p.old.hash H) p.newTraces.t4.1 false,
        leafURow key p.old.key .ExtensionNew .AccountLeaf2 (zeroStorageRootKeccakCodehashHash H)
          (p.old.hash H) p.newTraces.t3.1 false,
        leafURow key p.old.key .ExtensionNew .AccountLeaf3 s3 (p.old.hash H) n3 d3] ∧
      Node w U .AccountFields d3 s3 n3 p.newTraces.t3.1 ∧
      ∀ r, AtRow w r ((leafURow key p.old.key .ExtensionNew .AccountLeaf3 s3 (p.old.hash H) n3
        d3).withBase ρ p.claim) →
        ProofRel H w U r .AccountLeaf3 .Start .ExtensionNew p.claim.kind.proofType := by
    have hk := hR.kind
    have htr := hR.traces
    cases hk with
    | nonce n hk =>
      rw [hk] at e1
      cases e1
      unfold Proof.accountLeafSiblings at e2
      rw [hk] at e2
      cases e2
      have eo : p.oldAccountLeafHashes = none := by
        unfold Proof.oldAccountLeafHashes; rw [hk]; rfl
      have en : p.newAccountLeafHashes = some [p.newTraces.t5.2.1, p.newTraces.t4.1, p.newTraces.t3.1,
          p.newTraces.t2.1] := by
        unfold Proof.newAccountLeafHashes; rw [hk]; rfl
      rw [eo, en] at h4
      dsimp only at h4
      rw [z4, z3] at h4
      have e3 : ∀ u, leafRow3 H ρ p u = some u := by intro u; unfold leafRow3; rw [hk]; rfl
      refine ⟨p.newTraces.t2.2.1, p.newTraces.t2.1, false, ?_, ?_, ?_⟩
      · simp only [Option.getD_none, Option.getD_some, List.replicate, leafRowsZip, decorateLeaf,
          e3, Option.bind_eq_bind, Option.bind_some, hk, leafCodeHash, Option.pure_def,
          Option.some.injEq] at h4
        exact h4.symm
      · rw [et3]; exact hnodes.n2
      · intro r hr
        rw [hk]
        refine ⟨by simp, ?_⟩
        have t21 : p.newTraces.t2.1 = (n : Fr) := by
          rw [htr]
          show (n : Fr) + ((0 : ℕ) : Fr) * _ = _
          simp
        have t22 : p.newTraces.t2.2.1 = 0 := by
          rw [htr]; exact frFromBiguint_zero
        have nv : ((leafURow key p.old.key .ExtensionNew .AccountLeaf3 p.newTraces.t2.2.1 (p.old.hash H)
            p.newTraces.t2.1 false).withBase ρ p.claim).newValue = (n : Fr) := by
          show p.claim.newValueAssignment ρ = _
          unfold Claim.newValueAssignment; rw [hk]; rfl
        have ov : ((leafURow key p.old.key .ExtensionNew .AccountLeaf3 p.newTraces.t2.2.1 (p.old.hash H)
            p.newTraces.t2.1 false).withBase ρ p.claim).oldValue = 0 := hold
        refine ⟨by rw [hr.direction]; rfl, ?_, fun h => by (cases h), fun _ => ⟨by rw [hr.oldValue, ov], ?_, ?_⟩⟩
        · rw [hr.newValue, nv]
          refine hS.u64 n ?_
          unfold proofU64s
          rw [hk, he]
          simp [ClaimKind.proofType, hen]
        · rw [hr.newHash, hr.newValue, nv]
          show (p.newTraces.t2.1 - _) * _ = 0
          rw [t21]; simp
        · rw [hr.sibling]
          exact t22
    | balance b hbnd hk =>
      rw [hk] at e1
      cases e1
      unfold Proof.accountLeafSiblings at e2
      rw [hk] at e2
      cases e2
      have eo : p.oldAccountLeafHashes = none := by
        unfold Proof.oldAccountLeafHashes; rw [hk]; rfl
      have en : p.newAccountLeafHashes = some [p.newTraces.t5.2.1, p.newTraces.t4.1, p.newTraces.t3.1,
          p.newTraces.t2.2.1] := by
        unfold Proof.newAccountLeafHashes; rw [hk]; rfl
      rw [eo, en] at h4
      dsimp only at h4
      rw [z4, z3] at h4
      have e3 : ∀ u, leafRow3 H ρ p u = some u := by intro u; unfold leafRow3; rw [hk]; rfl
      refine ⟨p.newTraces.t2.1, p.newTraces.t2.2.1, true, ?_, ?_, ?_⟩
      · simp only [Option.getD_none, Option.getD_some, List.replicate, leafRowsZip, decorateLeaf,
          e3, Option.bind_eq_bind, Option.bind_some, hk, leafCodeHash, Option.pure_def,
          Option.some.injEq] at h4
        exact h4.symm
      · rw [et3]; exact hnodes.n2
      · intro r hr
        rw [hk]
        have t21 : p.newTraces.t2.1 = 0 := by
          rw [htr]
          show ((0 : ℕ) : Fr) + ((0 : ℕ) : Fr) * _ = _
          simp
        have t22 : p.newTraces.t2.2.1 = frFromBiguint b := by rw [htr]; rfl
        have nv : ((leafURow key p.old.key .ExtensionNew .AccountLeaf3 p.newTraces.t2.1 (p.old.hash H)
            p.newTraces.t2.2.1 true).withBase ρ p.claim).newValue = rlcFold (u256ToBigEndian b) ρ := by
          show p.claim.newValueAssignment ρ = _
          unfold Claim.newValueAssignment; rw [hk]; rfl
        refine ⟨by rw [hr.direction]; rfl, fun h => by (cases h), ?_, fun _ => ?_⟩
        · rw [hr.newHash, hr.newValue, nv]
          have hm : frFromBiguint b ∈ proofFrs p := by
            unfold proofFrs
            rw [hk, he]
            simp [ClaimKind.proofType, heb]
          have := hS.frs _ hm
          rw [frFromBiguint_eq, val_cast_of_lt hbnd, ← rlcFold_31 hbnd] at this
          show InRlc w U p.newTraces.t2.2.1 30 _
          rw [t22, frFromBiguint_eq]
          exact this
        · rw [hr.sibling]
          exact t21
  rw [hleaf]
  refine runSat_frame hS hR.acc h2 (.inl rfl) rfl rfl
    (.inr ⟨rfl, htype, hold, hR.newKey⟩) (.inl ?_) ?_
  · simp only [List.mem_cons, List.not_mem_nil, or_false] at htype ⊢; tauto
  · intro r prev hp p1 p2 p3 p4 p5 hat
    rw [hold] at p5
    have hc : ∀ u : URow, Claims p.claim.kind.proofType
        (rlcFold (u256ToBigEndian p.claim.storageKey) ρ) 0 (p.claim.newValueAssignment ρ)
        (u.withBase ρ p.claim) := by
      intro u
      have := claims_base ρ p.claim u
      rwa [hold] at this
    have ht2 := htype
    refine rowsOK_leafs_new p1 p2 p3 p4 p5 (hc _) (hc _) (hc _) (hc _)
      ((isLeaf_row0 ..).base _ _) ((isLeaf_row ..).base _ _) ((isLeaf_row ..).base _ _)
      ((isLeaf_row ..).base _ _) ?_ ?_ ?_ hn3 ?_ ?_ ?_ htype ?_ ?_ ?_ hpe hp hat
    · exact htop
    · show P1 w U p.newTraces.t4.1 0 _ p.newTraces.t5.2.1
      have := hnodes.n4
      rw [z4, ← et] at this; exact this
    · show P1 w U p.newTraces.t3.1 _ _ p.newTraces.t4.1
      have := hnodes.n3
      rw [z3, ← et4] at this; exact this
    · simp [leafRow0, setFn, URow.withBase]
    · simp [leafRow0, setFn, leafURow, URow.withBase]
    · have : ∀ u, (URow.withBase ρ p.claim (leafRow0 key p.old.key data u)).iv 9 = data := by
        intro u; simp [leafRow0, setFn, URow.withBase]
      rw [this]
      exact habs
    · intro r' hu
      simp only [List.mem_cons, List.not_mem_nil, or_false] at ht2
      rcases ht2 with e | e <;> rw [e]
      · exact ⟨by simp, by rw [hu.direction]; rfl⟩
      · exact ⟨by rw [hu.domain]; rfl, by rw [hu.direction]; rfl⟩
    · intro r' hu
      simp only [List.mem_cons, List.not_mem_nil, or_false] at ht2
      rcases ht2 with e | e <;> rw [e]
      · exact ⟨by simp, by rw [hu.direction]; rfl, fun _ => by rw [hu.sibling]; rfl⟩
      · exact ⟨by rw [hu.domain]; rfl, by rw [hu.direction]; rfl, fun _ => by rw [hu.sibling]; rfl⟩
    · intro r' hu
      simp only [List.mem_cons, List.not_mem_nil, or_false] at ht2
      rcases ht2 with e | e <;> rw [e]
      · exact ⟨by simp, by rw [hu.direction]; rfl, fun _ => by rw [hu.sibling]; rfl⟩
      · exact ⟨by rw [hu.direction]; rfl, fun _ => by rw [hu.sibling]; rfl⟩

end Mpt
