import Verif.Assign.HonestNewRun

set_option autoImplicit false

/-!
# Completeness (C35): changes of existing accounts
-/

namespace Mpt
open Spec MptUpdate Types Requests Props

variable {H : HashFn} {w : Witness Fr} {U : ℕ}

/-- The fields of the account in the proof are those of the trace. -/
structure SameAccount (e : EthAccount) (a : AccountData) : Prop where
  nonce : e.nonce = a.nonce
  codeSize : e.codeSize = a.codeSize
  balance : e.balance = frFromBiguint a.balance
  code : e.keccakCodehash = a.codeHash

/-- A proof about an account that exists before (`o`, storage root `so`) and after (`n`, `sn`). -/
structure BothReady (H : HashFn) (p : Proof) (o n : AccountData) (so sn : Fr) : Prop where
  acc : AccountReady H .Common p
  oldAccount : ∃ e, p.oldAccount = some e ∧ SameAccount e o
  newAccount : ∃ e, p.newAccount = some e ∧ SameAccount e n
  oldTraces : p.oldTraces = accountHashTraces H p.claim.address o so
  newTraces : p.newTraces = accountHashTraces H p.claim.address n sn
  oldKey : p.old.key = accountKey H p.claim.address
  newKey : p.new.key = accountKey H p.claim.address
  oldLeaf : p.old.leafDataHash = some p.oldTraces.t5.2.1
  newLeaf : p.new.leafDataHash = some p.newTraces.t5.2.1
  oldHash : p.old.hash H ≠ 0
  newHash : p.new.hash H ≠ 0

/-- The rows of a proof about an existing account. -/
theorem body_both {ρ : Fr} {p : Proof} {o n : AccountData} {so sn : Fr} (hR : BothReady H p o n so sn)
    {body : List URow} (hb : bodyURows H ρ p = some body) :
    ∃ trie leaf dirs sibs,
      trieURows .AccountTrie (accountKey H p.claim.address) (accountKey H p.claim.address) 0
        p.accountTrieRows = some trie ∧
      leafDirections p.claim.kind.proofType = some dirs ∧ p.accountLeafSiblings H = some sibs ∧
      decorateLeaf H ρ p (accountKey H p.claim.address) (accountKey H p.claim.address)
        p.newTraces.t5.2.1
        (leafRowsZip (accountKey H p.claim.address) (accountKey H p.claim.address) .Common
          [.AccountLeaf0, .AccountLeaf1, .AccountLeaf2, .AccountLeaf3] sibs
          (p.oldAccountLeafHashes.getD (List.replicate 4 (p.old.hash H)))
          (p.newAccountLeafHashes.getD (List.replicate 4 (p.new.hash H))) dirs) = some leaf ∧
      storageURows H ρ p.storage
        (startURow H ρ p (accountKey H p.claim.address) :: trie ++ leaf) = some body := by
  obtain ⟨other, h1, hb⟩ := Option.bind_eq_some_iff.1 hb
  obtain ⟨trie, h2, hb⟩ := Option.bind_eq_some_iff.1 hb
  obtain ⟨fin, h3, hb⟩ := Option.bind_eq_some_iff.1 hb
  obtain ⟨eo, heo, -⟩ := hR.oldAccount
  rw [if_neg (by rw [heo]; simp)] at hb
  obtain ⟨leaf, h4, hb⟩ := Option.bind_eq_some_iff.1 hb
  unfold otherLeaf at h1
  dsimp only at h1
  rw [if_neg (by simp [hR.oldKey]), if_neg (by simp [hR.newKey]), hR.newLeaf, hR.oldKey] at h1
  cases h1
  dsimp only [Option.getD_some] at h2 h4 hb
  unfold leafURows at h4
  rw [hR.acc.finalPathType, hR.acc.finalHashes] at h4
  dsimp only at h4
  obtain ⟨fp, e1, h4⟩ := Option.bind_eq_some_iff.1 h4
  cases e1
  obtain ⟨pt, e1, h4⟩ := Option.bind_eq_some_iff.1 h4
  have hpt : pt = .Common := by
    have hq : endPath p.accountTrieRows = .Common := by
      unfold endPath
      cases hl : p.accountTrieRows.getLast? with
      | none => rfl
      | some r =>
        obtain ⟨q1, q2, q3⟩ := rowsHonest_path _ _ hR.acc.rows r (List.mem_of_getLast? hl)
        simp only [Option.map_some, Option.getD_some]
        cases hr : r.pathType with
        | Start => exact absurd hr q1
        | Common => rfl
        | ExtensionNew => exact absurd (q2 hr) (by simp)
        | ExtensionOld => exact absurd (q3 hr) (by simp)
    rw [hq, leafPathType, if_neg hR.oldHash, if_neg hR.newHash] at e1
    exact (Option.some.inj e1).symm
  subst hpt
  obtain ⟨dirs, e2, h4⟩ := Option.bind_eq_some_iff.1 h4
  obtain ⟨sibs, e3, h4⟩ := Option.bind_eq_some_iff.1 h4
  exact ⟨trie, leaf, dirs, sibs, h2, e2, e3, h4, hb⟩

/-- Hashes of the account's fields on both sides. -/
theorem both_nodes {ρ : Fr} {p : Proof} {o n : AccountData} {so sn : Fr} (hS : Serves H w U ρ p)
    (hR : BothReady H p o n so sn) :
    (FieldNodes w U p.oldTraces ∧ FieldNodes w U p.newTraces) ∧
    (P1 w U (accountKey H p.claim.address) p.oldTraces.t5.2.1 HashDomain.Leaf.toFr (p.old.hash H) ∧
      P1 w U (accountKey H p.claim.address) p.newTraces.t5.2.1 HashDomain.Leaf.toFr (p.new.hash H)) := by
  refine ⟨⟨?_, ?_⟩, ?_, ?_⟩
  · rw [hR.oldTraces]
    exact fieldNodes_of (by rw [← hR.oldTraces]; exact serves_oldTraces hS)
  · rw [hR.newTraces]
    exact fieldNodes_of (by rw [← hR.newTraces]; exact serves_newTraces hS)
  · have := serves_oldLeaf hS hR.oldLeaf
    rwa [hR.oldKey] at this
  · have := serves_newLeaf hS hR.newLeaf
    rwa [hR.newKey] at this

/-- The links between the hashes of an account. -/
structure Links (t : AccountTraces) : Prop where
  l5 : t.t5.2.1 = t.t4.2.2
  l4 : t.t4.1 = t.t3.2.2
  l3 : t.t3.1 = t.t2.2.2
  l3' : t.t3.2.1 = t.t1.2.2
  l1 : t.t1.2.1 = t.t0.2.2

theorem links_of (address : List ℕ) (a : AccountData) (s : Fr) :
    Links (accountHashTraces H address a s) := ⟨rfl, rfl, rfl, rfl, rfl⟩

theorem BothReady.links {p : Proof} {o n : AccountData} {so sn : Fr} (hR : BothReady H p o n so sn) :
    Links p.oldTraces ∧ Links p.newTraces :=
  ⟨by rw [hR.oldTraces]; exact links_of .., by rw [hR.newTraces]; exact links_of ..⟩

/-- Four leaf rows of a change of an existing account, with nothing after them. -/
theorem rowsOK_leafs_four {key ok po pn : Fr} {s0 s1 s2 s3 o0 o1 o2 o3 n0 n1 n2 n3 : Fr}
    {d0 d1 d2 d3 : Bool} {a b c e : URow} {t : MPTProofType} {slot old new : Fr} {prev : URow}
    (hp1 : prev.oldHash = po) (hp2 : prev.newHash = pn) (hpk : prev.key = key) (hpo : prev.otherKey = ok)
    (hcp : Claims t slot old new prev) (hca : Claims t slot old new a) (hcb : Claims t slot old new b)
    (hcc : Claims t slot old new c) (hce : Claims t slot old new e)
    (ia : IsLeaf key ok .Common .AccountLeaf0 .Leaf s0 o0 n0 d0 a)
    (ib : IsLeaf key ok .Common .AccountLeaf1 .AccountFields s1 o1 n1 d1 b)
    (ic : IsLeaf key ok .Common .AccountLeaf2 .AccountFields s2 o2 n2 d2 c)
    (ie : IsLeaf key ok .Common .AccountLeaf3 .AccountFields s3 o3 n3 d3 e)
    (na : Node w U .Leaf d0 s0 o0 po ∧ Node w U .Leaf d0 s0 n0 pn)
    (nb : Node w U .AccountFields d1 s1 o1 o0 ∧ Node w U .AccountFields d1 s1 n1 n0)
    (nc : Node w U .AccountFields d2 s2 o2 o1 ∧ Node w U .AccountFields d2 s2 n2 n1)
    (ne : Node w U .AccountFields d3 s3 o3 o2 ∧ Node w U .AccountFields d3 s3 n3 n2)
    (ht : t ∈ [MPTProofType.NonceChanged, .BalanceChanged, .CodeSizeExists, .CodeHashExists])
    (pa : ∀ r, AtRow w r a → ProofRel H w U r .AccountLeaf0 .AccountLeaf1 .Common t)
    (pb : ∀ r, AtRow w r b → ProofRel H w U r .AccountLeaf1 .AccountLeaf2 .Common t)
    (pc : ∀ r, AtRow w r c → ProofRel H w U r .AccountLeaf2 .AccountLeaf3 .Common t)
    (pe : ∀ r, AtRow w r e → ProofRel H w U r .AccountLeaf3 .Start .Common t)
    {r : ℤ} (hp : AtRow w (r - 1) prev) (hat : AtRows w r [a, b, c, e]) :
    RowsOK H w U r prev [a, b, c, e] := by
  refine rowsOK_leafs_common (tail := [e]) hp1 hp2 hpk hpo hcp hca hcb hcc ia ib ic na nb nc ?_ ie.seg ie.path
    pa pb pc
    hp hat ?_
  · simp only [List.mem_cons, List.not_mem_nil, or_false] at ht ⊢; tauto
  · obtain ⟨qa, qb, qc, qe, -⟩ := hat
    refine ⟨?_, trivial⟩
    show RowRel H w U (r + 1 + 1 + 1) e.seg .Start c.path e.path .Start c.proof e.proof
    refine rowRel_leaf_common qe qc.shift (by rw [ie.seg]; simp) ie.path (.inr rfl) (hcc.same hce)
      (fun h => absurd ie.seg h) ie.depth ie.direction
      (d := .AccountFields) (by rw [ie.seg]; simp [domains]) ie.domain ?_ ?_
      (by rw [hce.proof, ie.seg]; exact pe _ qe)
    · unfold CommonHashes
      rw [ie.sibling, ie.oldHash, ie.newHash, ic.oldHash, ic.newHash]; exact ne
    · rw [hce.proof, ie.seg]
      simp only [List.mem_cons, List.not_mem_nil, or_false] at ht
      rcases ht with rfl | rfl | rfl | rfl <;> exact ⟨_, rfl, by simp⟩

/-- A word gadget whose cells hold a word. -/
theorem wordRel_of {ρ : Fr} {r : ℤ} {a b c d e f : AdvCol} {x : ℕ} (hx : x < 2 ^ 256) (hc : w.chal = ρ)
    (h1 : w.adv b r = ((u256HiLo x).1 : ℕ)) (h2 : w.adv c r = ((u256HiLo x).2 : ℕ))
    (h3 : w.adv e r = rlcFold (beBytes 16 (u256HiLo x).1) ρ)
    (h4 : w.adv f r = rlcFold (beBytes 16 (u256HiLo x).2) ρ)
    (h5 : w.adv d r = rlcFold (u256ToBigEndian x) ρ)
    (hp : P1 w U (((u256HiLo x).1 : ℕ) : Fr) (((u256HiLo x).2 : ℕ) : Fr) HashDomain.Pair.toFr (w.adv a r))
    (hl : ∀ y ∈ halves x, InBytes w U ((y : ℕ) : Fr) 15 ∧
      InRlc w U ((y : ℕ) : Fr) 15 (rlcFold (beBytes 16 y) ρ)) : WordRel w U r a b c d e f := by
  obtain ⟨q1, q2⟩ := hl _ (List.mem_cons_self)
  obtain ⟨q3, q4⟩ := hl (u256HiLo x).2 (by simp [halves])
  refine ⟨by rw [h1]; exact q1, by rw [h2]; exact q3, by rw [h1, h2]; exact hp, by rw [h1, h3]; exact q2,
    by rw [h2, h4]; exact q4, ?_⟩
  rw [h5, h3, h4, hc, c45_rlc, (c45_split x hx).1]

theorem nonceCode_trace (address : List ℕ) (a : AccountData) (s : Fr) :
    (accountHashTraces H address a s).t2.1 = nonceCode a.nonce a.codeSize := by
  show _ + _ * (_ * _) = _
  unfold nonceCode
  push_cast; ring

theorem nonceCode_nonce (nonce cs : ℕ) : nonceCode nonce cs - (cs : Fr) * two64 = (nonce : Fr) := by
  rw [two64_cast]; unfold nonceCode; push_cast; ring

theorem hiLo_eq {x : ℕ} (h : x < 2 ^ 256) :
    hiLo x = ((((u256HiLo x).1 : ℕ) : Fr), (((u256HiLo x).2 : ℕ) : Fr)) := by
  rw [(c45_split x h).2.2.1, (c45_split x h).1]

theorem IsLeaf.word {key ok : Fr} {pt : PathType} {s : SegmentType} {d : HashDomain} {sib old new : Fr}
    {dir : Bool} {u : URow} (h : IsLeaf key ok pt s d sib old new dir u) (ρ : Fr) (i j : Fin 10) (x : ℕ) :
    IsLeaf key ok pt s d sib old new dir (u.withWord ρ i j x) :=
  ⟨h.seg, h.path, h.domain, h.sibling, h.oldHash, h.newHash, h.direction, h.depth, h.key, h.otherKey⟩

/-- Changes of one field, with the fields the claim does not speak about kept. -/
inductive FieldKind (H : HashFn) (p : Proof) (o n : AccountData) (so sn : Fr) : Prop
  | nonce (hk : p.claim.kind = .Nonce (some o.nonce) (some n.nonce)) (hs : so = sn)
      (h1 : o.codeSize = n.codeSize) (h2 : o.balance = n.balance) (h3 : o.codeHash = n.codeHash)
      (h4 : o.poseidonCodeHash = n.poseidonCodeHash)
  | codeSize (hk : p.claim.kind = .CodeSize (some o.codeSize) (some n.codeSize)) (hs : so = sn)
      (h1 : o.nonce = n.nonce) (h2 : o.balance = n.balance) (h3 : o.codeHash = n.codeHash)
      (h4 : o.poseidonCodeHash = n.poseidonCodeHash)
  | balance (hk : p.claim.kind = .Balance (some o.balance) (some n.balance)) (hs : so = sn)
      (h1 : o.nonce = n.nonce) (h2 : o.codeSize = n.codeSize) (h3 : o.codeHash = n.codeHash)
      (h4 : o.poseidonCodeHash = n.poseidonCodeHash) (hbo : o.balance < 2 ^ 248)
      (hbn : n.balance < 2 ^ 248)
  | codeHash (hk : p.claim.kind = .CodeHash (some o.codeHash) (some n.codeHash)) (hs : so = sn)
      (h1 : o.nonce = n.nonce) (h2 : o.codeSize = n.codeSize) (h3 : o.balance = n.balance)
      (h4 : o.poseidonCodeHash = n.poseidonCodeHash) (hco : o.codeHash < 2 ^ 256)
      (hcn : n.codeHash < 2 ^ 256)
      (hd : ∀ x ∈ [o.codeHash, n.codeHash], ∀ d ∈ [HashDomain.AccountFields, .Leaf],
        domainHash H (hiLo x).1 (hiLo x).2 d ≠ domainHash H (hiLo x).1 (hiLo x).2 .Pair)
  | poseidon (hk : p.claim.kind = .PoseidonCodeHash (some (frFromBiguint o.poseidonCodeHash))
        (some (frFromBiguint n.poseidonCodeHash))) (hs : so = sn)
      (h1 : o.nonce = n.nonce) (h2 : o.codeSize = n.codeSize) (h3 : o.balance = n.balance)
      (h4 : o.codeHash = n.codeHash)

/-- The hash of a code hash is in the table. -/
theorem codeNode {address : List ℕ} {a : AccountData} {sr : Fr}
    (hd : ∀ d ∈ [HashDomain.AccountFields, .Leaf], domainHash H (hiLo a.codeHash).1 (hiLo a.codeHash).2 d ≠
      domainHash H (hiLo a.codeHash).1 (hiLo a.codeHash).2 .Pair)
    (h : ∀ e ∈ tracesEntries H (accountHashTraces H address a sr), P1 w U e.1.1 e.1.2 e.2.1 e.2.2) :
    P1 w U (hiLo a.codeHash).1 (hiLo a.codeHash).2 HashDomain.Pair.toFr
      (accountHashTraces H address a sr).t0.2.2 := by
  have := h (((hiLo a.codeHash).1, (hiLo a.codeHash).2), HashDomain.Pair.toFr,
    (accountHashTraces H address a sr).t0.2.2)
    (List.mem_flatMap.2 ⟨(accountHashTraces H address a sr).t0, by simp, by
      unfold tripleEntry
      rw [if_neg, if_neg, if_pos]
      · simp; rfl
      · rfl
      · exact hd .Leaf (by simp)
      · exact hd .AccountFields (by simp)⟩)
  exact this

/-- **Changes of account fields are accepted.** -/
theorem run_sat_field {ρ : Fr} {p : Proof} {o n : AccountData} {so sn : Fr} (hS : Serves H w U ρ p)
    (hR : BothReady H p o n so sn) (hK : FieldKind H p o n so sn) {r0 : Fr} (hst : p.storage = .Root r0)
    {run : List URow} (h : assignSingleProof H ρ p = some run) : RunSat H w U run := by
  obtain ⟨body, hb, rfl⟩ := assignSingleProof_eq hR.acc.traces h
  obtain ⟨trie, leaf, dirs, sibs, h2, e1, e2, h4, hb⟩ := body_both hR hb
  rw [hst] at hb
  cases hb
  obtain ⟨⟨fo, fn⟩, hto, htn⟩ := both_nodes hS hR
  obtain ⟨lo, ln⟩ := hR.links
  obtain ⟨eo, heo, so1⟩ := hR.oldAccount
  obtain ⟨en, hen, sn1⟩ := hR.newAccount
  set key := accountKey H p.claim.address with hkey
  rw [List.map_append]
  have hcl := claims_base ρ p.claim
  have hto' := hR.oldTraces
  have htn' := hR.newTraces
  cases hK with
  | nonce hk hs q1 q2 q3 q4 =>
    have x4 : p.oldTraces.t4.2.1 = p.newTraces.t4.2.1 := by
      rw [hto', htn']; show frFromBiguint _ = frFromBiguint _; rw [q4]
    have x3 : p.oldTraces.t3.2.1 = p.newTraces.t3.2.1 := by
      rw [hto', htn', hs]; show domainHash H sn _ _ = domainHash H sn _ _; rw [q3]
    have x2 : p.oldTraces.t2.2.1 = p.newTraces.t2.2.1 := by
      rw [hto', htn']; show frFromBiguint _ = frFromBiguint _; rw [q2]
    rw [hk] at e1
    cases e1
    unfold Proof.accountLeafSiblings at e2
    rw [hk] at e2
    cases e2
    have eo' : p.oldAccountLeafHashes = some [p.oldTraces.t5.2.1, p.oldTraces.t4.1, p.oldTraces.t3.1,
        p.oldTraces.t2.1] := by unfold Proof.oldAccountLeafHashes; rw [hk]; rfl
    have en' : p.newAccountLeafHashes = some [p.newTraces.t5.2.1, p.newTraces.t4.1, p.newTraces.t3.1,
        p.newTraces.t2.1] := by unfold Proof.newAccountLeafHashes; rw [hk]; rfl
    have e3 : ∀ u, leafRow3 H ρ p u = some u := by intro u; unfold leafRow3; rw [hk]; rfl
    rw [eo', en'] at h4
    simp only [Option.getD_some, leafRowsZip, decorateLeaf, e3, Option.bind_eq_bind, Option.bind_some,
      hk, leafCodeHash, Option.pure_def, Option.some.injEq] at h4
    subst h4
    refine runSat_frame hS hR.acc h2 (.inl hR.oldKey.symm) rfl rfl (.inl rfl)
      (.inl (by rw [hk]; simp [ClaimKind.proofType])) ?_
    intro r prev hp p1 p2 p3 p4 p5 hat
    have tO : p.oldTraces.t2.1 = nonceCode o.nonce o.codeSize := by rw [hto']; exact nonceCode_trace ..
    have tN : p.newTraces.t2.1 = nonceCode n.nonce n.codeSize := by rw [htn']; exact nonceCode_trace ..
    have vo : p.claim.oldValueAssignment ρ = (o.nonce : Fr) := by
      unfold Claim.oldValueAssignment; rw [hk]; rfl
    have vn : p.claim.newValueAssignment ρ = (n.nonce : Fr) := by
      unfold Claim.newValueAssignment; rw [hk]; rfl
    have hu : ∀ x ∈ [eo.nonce, eo.codeSize, en.nonce, en.codeSize], InBytes w U ((x : ℕ) : Fr) 7 := by
      intro x hx
      refine hS.u64 x ?_
      unfold proofU64s
      rw [hk, heo, hen]
      simpa [ClaimKind.proofType] using hx
    rw [so1.nonce, so1.codeSize, sn1.nonce, sn1.codeSize] at hu
    refine rowsOK_leafs_four p1 p2 p3 p4 p5 (hcl _) (hcl _) (hcl _) (hcl _) ((isLeaf_row0 ..).base _ _)
      ((isLeaf_row ..).base _ _) ((isLeaf_row ..).base _ _) ((isLeaf_row ..).base _ _)
      ⟨?_, ?_⟩ ⟨?_, ?_⟩ ⟨?_, ?_⟩ ⟨?_, ?_⟩ ?_ ?_ ?_ ?_ ?_ hp hat
    · exact hto
    · exact htn
    · rw [lo.l5]; exact fo.n4
    · rw [ln.l5, x4]; exact fn.n4
    · rw [lo.l4]; exact fo.n3
    · rw [ln.l4, x3]; exact fn.n3
    · rw [lo.l3]; exact fo.n2
    · rw [ln.l3, x2]; exact fn.n2
    · rw [hk]; simp [ClaimKind.proofType]
    · intro r' hu; rw [hk]; exact ⟨by simp, by rw [hu.direction]; rfl⟩
    · intro r' hu; rw [hk]; exact ⟨by simp, by rw [hu.direction]; rfl, fun h => by cases h⟩
    · intro r' hu; rw [hk]; exact ⟨by simp, by rw [hu.direction]; rfl, fun h => by cases h⟩
    · intro r' hr
      rw [hk]
      have g1 : w.adv .oldValue r' = (o.nonce : Fr) := by rw [hr.oldValue]; exact vo
      have g2 : w.adv .newValue r' = (n.nonce : Fr) := by rw [hr.newValue]; exact vn
      have g3 : w.adv .oldHash r' = nonceCode o.nonce o.codeSize := by rw [hr.oldHash]; exact tO
      have g4 : w.adv .newHash r' = nonceCode n.nonce n.codeSize := by rw [hr.newHash]; exact tN
      refine ⟨by simp, by rw [hr.direction]; rfl, ?_, fun _ => ⟨?_, ?_, ?_⟩, fun h => by cases h⟩
      · rw [g2]; exact hu _ (by simp)
      · rw [g1]; exact hu _ (by simp)
      · rw [g1, g2, g3, g4, nonceCode_size, nonceCode_size, q1]
      · rw [g1, g3, nonceCode_size]; exact hu _ (by simp)
  | codeSize hk hs q1 q2 q3 q4 =>
    have x4 : p.oldTraces.t4.2.1 = p.newTraces.t4.2.1 := by
      rw [hto', htn']; show frFromBiguint _ = frFromBiguint _; rw [q4]
    have x3 : p.oldTraces.t3.2.1 = p.newTraces.t3.2.1 := by
      rw [hto', htn', hs]; show domainHash H sn _ _ = domainHash H sn _ _; rw [q3]
    have x2 : p.oldTraces.t2.2.1 = p.newTraces.t2.2.1 := by
      rw [hto', htn']; show frFromBiguint _ = frFromBiguint _; rw [q2]
    rw [hk] at e1
    cases e1
    unfold Proof.accountLeafSiblings at e2
    rw [hk] at e2
    cases e2
    have eo' : p.oldAccountLeafHashes = some [p.oldTraces.t5.2.1, p.oldTraces.t4.1, p.oldTraces.t3.1,
        p.oldTraces.t2.1] := by unfold Proof.oldAccountLeafHashes; rw [hk]; rfl
    have en' : p.newAccountLeafHashes = some [p.newTraces.t5.2.1, p.newTraces.t4.1, p.newTraces.t3.1,
        p.newTraces.t2.1] := by unfold Proof.newAccountLeafHashes; rw [hk]; rfl
    have e3 : ∀ u, leafRow3 H ρ p u = some u := by intro u; unfold leafRow3; rw [hk]; rfl
    rw [eo', en'] at h4
    simp only [Option.getD_some, leafRowsZip, decorateLeaf, e3, Option.bind_eq_bind, Option.bind_some,
      hk, leafCodeHash, Option.pure_def, Option.some.injEq] at h4
    subst h4
    refine runSat_frame hS hR.acc h2 (.inl hR.oldKey.symm) rfl rfl (.inl rfl)
      (.inl (by rw [hk]; simp [ClaimKind.proofType])) ?_
    intro r prev hp p1 p2 p3 p4 p5 hat
    have tO : p.oldTraces.t2.1 = nonceCode o.nonce o.codeSize := by rw [hto']; exact nonceCode_trace ..
    have tN : p.newTraces.t2.1 = nonceCode n.nonce n.codeSize := by rw [htn']; exact nonceCode_trace ..
    have vo : p.claim.oldValueAssignment ρ = (o.codeSize : Fr) := by
      unfold Claim.oldValueAssignment; rw [hk]; rfl
    have vn : p.claim.newValueAssignment ρ = (n.codeSize : Fr) := by
      unfold Claim.newValueAssignment; rw [hk]; rfl
    have hu : ∀ x ∈ [eo.nonce, eo.codeSize, en.nonce, en.codeSize], InBytes w U ((x : ℕ) : Fr) 7 := by
      intro x hx
      refine hS.u64 x ?_
      unfold proofU64s
      rw [hk, heo, hen]
      simpa [ClaimKind.proofType] using hx
    rw [so1.nonce, so1.codeSize, sn1.nonce, sn1.codeSize] at hu
    refine rowsOK_leafs_four p1 p2 p3 p4 p5 (hcl _) (hcl _) (hcl _) (hcl _) ((isLeaf_row0 ..).base _ _)
      ((isLeaf_row ..).base _ _) ((isLeaf_row ..).base _ _) ((isLeaf_row ..).base _ _)
      ⟨?_, ?_⟩ ⟨?_, ?_⟩ ⟨?_, ?_⟩ ⟨?_, ?_⟩ ?_ ?_ ?_ ?_ ?_ hp hat
    · exact hto
    · exact htn
    · rw [lo.l5]; exact fo.n4
    · rw [ln.l5, x4]; exact fn.n4
    · rw [lo.l4]; exact fo.n3
    · rw [ln.l4, x3]; exact fn.n3
    · rw [lo.l3]; exact fo.n2
    · rw [ln.l3, x2]; exact fn.n2
    · rw [hk]; simp [ClaimKind.proofType]
    · intro r' hu; rw [hk]; show w.adv .direction r' = 1; rw [hu.direction]; rfl
    · intro r' hu; rw [hk]; show w.adv .direction r' = 0; rw [hu.direction]; rfl
    · intro r' hu; rw [hk]; show w.adv .direction r' = 0; rw [hu.direction]; rfl
    · intro r' hr
      rw [hk]
      have g1 : w.adv .oldValue r' = (o.codeSize : Fr) := by rw [hr.oldValue]; exact vo
      have g2 : w.adv .newValue r' = (n.codeSize : Fr) := by rw [hr.newValue]; exact vn
      have g3 : w.adv .oldHash r' = nonceCode o.nonce o.codeSize := by rw [hr.oldHash]; exact tO
      have g4 : w.adv .newHash r' = nonceCode n.nonce n.codeSize := by rw [hr.newHash]; exact tN
      refine ⟨by rw [hr.direction]; rfl, ?_, ?_, ?_, ?_⟩
      · rw [g1]; exact hu _ (by simp)
      · rw [g2]; exact hu _ (by simp)
      · rw [g1, g2, g3, g4, nonceCode_nonce, nonceCode_nonce, q1]
      · rw [g1, g3, nonceCode_nonce]; exact hu _ (by simp)
  | balance hk hs q1 q2 q3 q4 hbo hbn =>
    have x4 : p.oldTraces.t4.2.1 = p.newTraces.t4.2.1 := by
      rw [hto', htn']; show frFromBiguint _ = frFromBiguint _; rw [q4]
    have x3 : p.oldTraces.t3.2.1 = p.newTraces.t3.2.1 := by
      rw [hto', htn', hs]; show domainHash H sn _ _ = domainHash H sn _ _; rw [q3]
    have x2 : p.oldTraces.t2.1 = p.newTraces.t2.1 := by
      rw [hto', htn', nonceCode_trace, nonceCode_trace, q1, q2]
    rw [hk] at e1
    cases e1
    unfold Proof.accountLeafSiblings at e2
    rw [hk] at e2
    cases e2
    have eo' : p.oldAccountLeafHashes = some [p.oldTraces.t5.2.1, p.oldTraces.t4.1, p.oldTraces.t3.1,
        p.oldTraces.t2.2.1] := by unfold Proof.oldAccountLeafHashes; rw [hk]; rfl
    have en' : p.newAccountLeafHashes = some [p.newTraces.t5.2.1, p.newTraces.t4.1, p.newTraces.t3.1,
        p.newTraces.t2.2.1] := by unfold Proof.newAccountLeafHashes; rw [hk]; rfl
    have e3 : ∀ u, leafRow3 H ρ p u = some u := by intro u; unfold leafRow3; rw [hk]; rfl
    rw [eo', en'] at h4
    simp only [Option.getD_some, leafRowsZip, decorateLeaf, e3, Option.bind_eq_bind, Option.bind_some,
      hk, leafCodeHash, Option.pure_def, Option.some.injEq] at h4
    subst h4
    refine runSat_frame hS hR.acc h2 (.inl hR.oldKey.symm) rfl rfl (.inl rfl)
      (.inl (by rw [hk]; simp [ClaimKind.proofType])) ?_
    intro r prev hp p1 p2 p3 p4 p5 hat
    have tO : p.oldTraces.t2.2.1 = frFromBiguint o.balance := by rw [hto']; rfl
    have tN : p.newTraces.t2.2.1 = frFromBiguint n.balance := by rw [htn']; rfl
    have vo : p.claim.oldValueAssignment ρ = rlcFold (u256ToBigEndian o.balance) ρ := by
      unfold Claim.oldValueAssignment; rw [hk]; rfl
    have vn : p.claim.newValueAssignment ρ = rlcFold (u256ToBigEndian n.balance) ρ := by
      unfold Claim.newValueAssignment; rw [hk]; rfl
    have hu : ∀ x ∈ [o.balance, n.balance], x < 2 ^ 248 →
        InRlc w U (frFromBiguint x) 30 (rlcFold (u256ToBigEndian x) ρ) := by
      intro x hx hlt
      have hm : frFromBiguint x ∈ proofFrs p := by
        unfold proofFrs
        rw [hk, heo, hen]
        simp only [List.mem_cons, List.not_mem_nil, or_false] at hx
        rcases hx with rfl | rfl
        · simp [ClaimKind.proofType, so1.balance]
        · simp [ClaimKind.proofType, sn1.balance]
      have := hS.frs _ hm
      rw [frFromBiguint_eq, val_cast_of_lt hlt, ← rlcFold_31 hlt] at this
      rw [frFromBiguint_eq]
      exact this
    refine rowsOK_leafs_four p1 p2 p3 p4 p5 (hcl _) (hcl _) (hcl _) (hcl _) ((isLeaf_row0 ..).base _ _)
      ((isLeaf_row ..).base _ _) ((isLeaf_row ..).base _ _) ((isLeaf_row ..).base _ _)
      ⟨?_, ?_⟩ ⟨?_, ?_⟩ ⟨?_, ?_⟩ ⟨?_, ?_⟩ ?_ ?_ ?_ ?_ ?_ hp hat
    · exact hto
    · exact htn
    · rw [lo.l5]; exact fo.n4
    · rw [ln.l5, x4]; exact fn.n4
    · rw [lo.l4]; exact fo.n3
    · rw [ln.l4, x3]; exact fn.n3
    · rw [lo.l3]; exact fo.n2
    · rw [ln.l3, x2]; exact fn.n2
    · rw [hk]; simp [ClaimKind.proofType]
    · intro r' hu; rw [hk]; exact ⟨by rw [hu.domain]; rfl, by rw [hu.direction]; rfl⟩
    · intro r' hu
      rw [hk]; exact ⟨by rw [hu.domain]; rfl, by rw [hu.direction]; rfl, fun h => by cases h⟩
    · intro r' hu; rw [hk]; exact ⟨by rw [hu.direction]; rfl, fun h => by cases h⟩
    · intro r' hr
      rw [hk]
      have g1 : w.adv .oldValue r' = rlcFold (u256ToBigEndian o.balance) ρ := by
        rw [hr.oldValue]; exact vo
      have g2 : w.adv .newValue r' = rlcFold (u256ToBigEndian n.balance) ρ := by
        rw [hr.newValue]; exact vn
      have g3 : w.adv .oldHash r' = frFromBiguint o.balance := by rw [hr.oldHash]; exact tO
      have g4 : w.adv .newHash r' = frFromBiguint n.balance := by rw [hr.newHash]; exact tN
      refine ⟨by rw [hr.direction]; rfl, fun _ => ?_, ?_, fun h => by cases h⟩
      · rw [g1, g3]; exact hu _ (by simp) hbo
      · rw [g2, g4]; exact hu _ (by simp) hbn
  | codeHash hk hs q1 q2 q3 q4 hco hcn hd =>
    have x4 : p.oldTraces.t4.2.1 = p.newTraces.t4.2.1 := by
      rw [hto', htn']; show frFromBiguint _ = frFromBiguint _; rw [q4]
    have x3 : p.oldTraces.t3.1 = p.newTraces.t3.1 := by
      rw [hto', htn']
      show domainHash H (accountHashTraces H p.claim.address o so).t2.1 (frFromBiguint o.balance) _ =
        domainHash H (accountHashTraces H p.claim.address n sn).t2.1 (frFromBiguint n.balance) _
      rw [nonceCode_trace, nonceCode_trace, q1, q2, q3]
    have x1 : p.oldTraces.t1.1 = p.newTraces.t1.1 := by rw [hto', htn']; exact hs
    rw [hk] at e1
    cases e1
    unfold Proof.accountLeafSiblings at e2
    rw [hk] at e2
    cases e2
    have eo' : p.oldAccountLeafHashes = some [p.oldTraces.t5.2.1, p.oldTraces.t4.1, p.oldTraces.t1.2.2,
        p.oldTraces.t0.2.2] := by unfold Proof.oldAccountLeafHashes; rw [hk]; rfl
    have en' : p.newAccountLeafHashes = some [p.newTraces.t5.2.1, p.newTraces.t4.1, p.newTraces.t1.2.2,
        p.newTraces.t0.2.2] := by unfold Proof.newAccountLeafHashes; rw [hk]; rfl
    have e3 : ∀ u, leafRow3 H ρ p u = some u := by intro u; unfold leafRow3; rw [hk]; rfl
    rw [eo', en'] at h4
    simp only [Option.getD_some, leafRowsZip, decorateLeaf, e3, Option.bind_eq_bind, Option.bind_some,
      hk, leafCodeHash, Option.pure_def, Option.some.injEq] at h4
    subst h4
    refine runSat_frame hS hR.acc h2 (.inl hR.oldKey.symm) rfl rfl (.inl rfl)
      (.inl (by rw [hk]; simp [ClaimKind.proofType])) ?_
    intro r prev hp p1 p2 p3 p4 p5 hat
    have vo : p.claim.oldValueAssignment ρ = rlcFold (u256ToBigEndian o.codeHash) ρ := by
      unfold Claim.oldValueAssignment; rw [hk]; rfl
    have vn : p.claim.newValueAssignment ρ = rlcFold (u256ToBigEndian n.codeHash) ρ := by
      unfold Claim.newValueAssignment; rw [hk]; rfl
    have hu : ∀ x ∈ [o.codeHash, n.codeHash], ∀ y ∈ halves x, InBytes w U ((y : ℕ) : Fr) 15 ∧
        InRlc w U ((y : ℕ) : Fr) 15 (rlcFold (beBytes 16 y) ρ) := by
      intro x hx y hy
      obtain ⟨l, hl1, hl2⟩ := hS.u128
      unfold proofU128s at hl1
      rw [hk, heo, hen] at hl1
      cases hl1
      refine hl2 y (List.mem_cons_of_mem _ ?_)
      simp only [List.mem_cons, List.not_mem_nil, or_false] at hx
      rcases hx with rfl | rfl
      · exact List.mem_append_left _ (by show y ∈ halves eo.keccakCodehash; rw [so1.code]; exact hy)
      · exact List.mem_append_right _ (by show y ∈ halves en.keccakCodehash; rw [sn1.code]; exact hy)
    have hno := codeNode (w := w) (U := U) (H := H) (address := p.claim.address) (a := o) (sr := so)
      (hd _ (by simp)) (by rw [← hto']; exact serves_oldTraces hS)
    have hnn := codeNode (w := w) (U := U) (H := H) (address := p.claim.address) (a := n) (sr := sn)
      (hd _ (by simp)) (by rw [← htn']; exact serves_newTraces hS)
    rw [← hto', hiLo_eq hco] at hno
    rw [← htn', hiLo_eq hcn] at hnn
    refine rowsOK_leafs_four p1 p2 p3 p4 p5 (hcl _) (hcl _) (hcl _) (hcl _) ((isLeaf_row0 ..).base _ _)
      ((isLeaf_row ..).base _ _) ((isLeaf_row ..).base _ _)
      ((isLeaf_row ..).word ρ 0 1 o.codeHash |>.word ρ 2 3 n.codeHash |>.base _ _)
      ⟨?_, ?_⟩ ⟨?_, ?_⟩ ⟨?_, ?_⟩ ⟨?_, ?_⟩ ?_ ?_ ?_ ?_ ?_ hp hat
    · exact hto
    · exact htn
    · rw [lo.l5]; exact fo.n4
    · rw [ln.l5, x4]; exact fn.n4
    · rw [lo.l4, ← lo.l3']; exact fo.n3
    · rw [ln.l4, ← ln.l3', x3]; exact fn.n3
    · rw [← lo.l1]; exact fo.n1
    · rw [← ln.l1, x1]; exact fn.n1
    · rw [hk]; simp [ClaimKind.proofType]
    · intro r' hu; rw [hk]; show w.adv .direction r' = 1; rw [hu.direction]; rfl
    · intro r' hu; rw [hk]; show w.adv .direction r' = 0; rw [hu.direction]; rfl
    · intro r' hu; rw [hk]; show w.adv .direction r' = 1; rw [hu.direction]; rfl
    · intro r' hr
      rw [hk]
      refine ⟨by rw [hr.direction]; rfl, ?_, ?_⟩
      · refine wordRel_of (x := o.codeHash) hco hS.chal ?_ ?_ ?_ ?_ ?_ ?_ (hu _ (by simp))
        · rw [hr.iv]; simp [URow.withBase, URow.withWord, setFn]
        · rw [hr.iv]; simp [URow.withBase, URow.withWord, setFn]
        · rw [hr.sp]; simp [URow.withBase, URow.withWord, setFn]
        · rw [hr.sp]; simp [URow.withBase, URow.withWord, setFn]
        · rw [hr.oldValue]; exact vo
        · rw [hr.oldHash]; exact hno
      · refine wordRel_of (x := n.codeHash) hcn hS.chal ?_ ?_ ?_ ?_ ?_ ?_ (hu _ (by simp))
        · rw [hr.iv]; simp [URow.withBase, URow.withWord, setFn]
        · rw [hr.iv]; simp [URow.withBase, URow.withWord, setFn]
        · rw [hr.sp]; simp [URow.withBase, URow.withWord, setFn]
        · rw [hr.sp]; simp [URow.withBase, URow.withWord, setFn]
        · rw [hr.newValue]; exact vn
        · rw [hr.newHash]; exact hnn
  | poseidon hk hs q1 q2 q3 q4 =>
    have x4 : p.oldTraces.t4.1 = p.newTraces.t4.1 := by
      rw [hto', htn', hs]
      show domainHash H (domainHash H (accountHashTraces H p.claim.address o so).t2.1 _ _) (domainHash H _ _ _) _ =
        domainHash H (domainHash H (accountHashTraces H p.claim.address n sn).t2.1 _ _) (domainHash H _ _ _) _
      rw [nonceCode_trace, nonceCode_trace, q1, q2, q3, q4]
    rw [hk] at e1
    cases e1
    unfold Proof.accountLeafSiblings at e2
    rw [hk] at e2
    cases e2
    have eo' : p.oldAccountLeafHashes = some [p.oldTraces.t5.2.1, p.oldTraces.t4.2.1] := by
      unfold Proof.oldAccountLeafHashes; rw [hk]; rfl
    have en' : p.newAccountLeafHashes = some [p.newTraces.t5.2.1, p.newTraces.t4.2.1] := by
      unfold Proof.newAccountLeafHashes; rw [hk]; rfl
    rw [eo', en'] at h4
    simp only [Option.getD_some, leafRowsZip, decorateLeaf, Option.some.injEq] at h4
    subst h4
    refine runSat_frame hS hR.acc h2 (.inl hR.oldKey.symm) rfl rfl (.inl rfl)
      (.inl (by rw [hk]; simp [ClaimKind.proofType])) ?_
    intro r prev hp p1 p2 p3 p4 p5 hat
    have vo : p.claim.oldValueAssignment ρ = p.oldTraces.t4.2.1 := by
      unfold Claim.oldValueAssignment; rw [hk, hto']; rfl
    have vn : p.claim.newValueAssignment ρ = p.newTraces.t4.2.1 := by
      unfold Claim.newValueAssignment; rw [hk, htn']; rfl
    have hpt : p.claim.kind.proofType = .PoseidonCodeHashExists := by rw [hk]; rfl
    rw [hpt, vo, vn] at hcl p5
    refine rowsOK_leafs_two p1 p2 p3 p4 p5 (hcl _) (hcl _) ((isLeaf_row0 ..).base _ _)
      ((isLeaf_row ..).base _ _) ⟨?_, ?_⟩ ⟨?_, ?_⟩ hp hat
    · exact hto
    · exact htn
    · rw [lo.l5]; exact fo.n4
    · rw [ln.l5, x4]; exact fn.n4

end Mpt
