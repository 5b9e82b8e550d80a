import Verif.Assign.HonestRun

set_option autoImplicit false

/-!
# Completeness (C35): composing a run from its parts
-/

namespace Mpt
open Spec MptUpdate Types Requests

variable {H : HashFn} {w : Witness Fr} {U : ℕ}

/-- `u` is the Start row of the proof, up to cells that are not used there. -/
structure IsStart (H : HashFn) (ρ : Fr) (p : Proof) (otherKey : Fr) (u : URow) : Prop where
  seg : u.seg = .Start
  path : u.path = .Start
  depth : u.depth = 0
  domain : u.domain = HashDomain.Pair.toFr
  iv0 : u.iv 0 = ((addressHigh p.claim.address : ℕ) : Fr)
  iv1 : u.iv 1 = ((addressLow p.claim.address : ℕ) : Fr)
  key : u.key = accountKey H p.claim.address
  otherKey : u.otherKey = otherKey
  oldHash : u.oldHash = p.claim.oldRoot
  newHash : u.newHash = p.claim.newRoot
  sp0 : u.sp 0 = rlcFold (frBytes p.claim.oldRoot) ρ
  sp1 : u.sp 1 = rlcFold (frBytes p.claim.newRoot) ρ

theorem isStart_row (ρ : Fr) (p : Proof) (ok : Fr) : IsStart H ρ p ok (startURow H ρ p ok) :=
  ⟨rfl, rfl, rfl, rfl, by simp [startURow, setFn], by simp [startURow, setFn], rfl, rfl, rfl, rfl,
    by simp [startURow, setFn], by simp [startURow, setFn]⟩

theorem IsStart.base {ρ : Fr} {p : Proof} {ok : Fr} {u : URow} (h : IsStart H ρ p ok u) (c : Claim) :
    IsStart H ρ p ok (u.withBase ρ c) :=
  ⟨h.seg, h.path, h.depth, h.domain, h.iv0, h.iv1, h.key, h.otherKey, h.oldHash, h.newHash, h.sp0, h.sp1⟩

theorem IsStart.absence {ρ : Fr} {p : Proof} {ok : Fr} {u : URow} (h : IsStart H ρ p ok u)
    (a b c : Fr) : IsStart H ρ p ok (u.withAbsence a b c) :=
  ⟨h.seg, h.path, h.depth, h.domain, by simpa [URow.withAbsence, setFn] using h.iv0,
    by simpa [URow.withAbsence, setFn] using h.iv1, h.key, h.otherKey, h.oldHash, h.newHash, h.sp0, h.sp1⟩

/-- **The frame of a run**: Start row and account trie rows, in front of a tail that is in order. -/
theorem rowsOK_frame {ρ : Fr} {p : Proof} (hS : Serves H w U ρ p) {ok : Fr} {leafP : PathType}
    {t : MPTProofType} {slot old new : Fr} {u0 : URow} {us tail : List URow}
    (hst : IsStart H ρ p ok u0)
    (hI : IsTries .AccountTrie (accountKey H p.claim.address) ok 0 p.accountTrieRows us)
    (hH : RowsHonest H leafP (p.claim.oldRoot, p.claim.newRoot) p.accountTrieRows)
    (hV : RowsServed H w U (accountKey H p.claim.address) ok 0 p.accountTrieRows)
    (hLP : (tail.headD .blank).path = leafP)
    (hnew : leafP = .ExtensionNew → (tail.headD .blank).seg = .AccountLeaf0 ∧
      t ∈ [MPTProofType.NonceChanged, .BalanceChanged, .StorageChanged] ∧ old = 0)
    (hold : leafP ≠ .ExtensionOld)
    (hseg0 : ∃ l, transitions t .Start = some l ∧ SegmentType.AccountTrie ∈ l ∧
      (tail.headD .blank).seg ∈ l)
    (hseg : ∃ l, transitions t .AccountTrie = some l ∧ SegmentType.AccountTrie ∈ l ∧
      (tail.headD .blank).seg ∈ l)
    (hcl : ∀ u ∈ u0 :: us, Claims t slot old new u)
    (hmid : ∀ r' u, AtRow w r' u → u ∈ u0 :: us → ProofRel H w U r' u.seg .AccountTrie u.path t)
    (hend : ∀ r' u, AtRow w r' u → us.getLastD u0 = u →
      ProofRel H w U r' u.seg (tail.headD .blank).seg u.path t)
    {r : ℤ} {prev : URow} (ha : AtRows w r (u0 :: (us ++ tail)))
    (ht : RowsOK H w U (r + 1 + us.length) (us.getLastD u0) tail) :
    RowsOK H w U r prev (u0 :: (us ++ tail)) := by
  obtain ⟨ha0, ha⟩ := ha
  have hc0 := hcl u0 (by simp)
  refine ⟨?_, ?_⟩
  · refine rowRel_start ha0 hst.seg hst.path hst.depth hst.domain
      (startRel_of hS ha0 hst.iv0 hst.iv1 hst.key hst.oldHash hst.newHash hst.sp0 hst.sp1) ?_ ?_
    · obtain ⟨l, h1, h2, h3⟩ := hseg0
      rw [hc0.proof]
      refine ⟨l, h1, ?_⟩
      cases us with
      | nil => exact h3
      | cons v us =>
        obtain ⟨row, -, e, -⟩ := isTries_mem _ _ _ v hI (by simp)
        show v.seg ∈ l
        rw [e]; exact h2
    · rw [hc0.proof]
      cases us with
      | nil =>
        have := hend r u0 ha0 rfl
        rw [hst.seg, hst.path] at this; exact this
      | cons v us =>
        obtain ⟨row, -, e, -⟩ := isTries_mem _ _ _ v hI (by simp)
        show ProofRel H w U r .Start v.seg .Start t
        have := hmid r u0 ha0 (by simp)
        rw [hst.seg, hst.path] at this; rw [e]; exact this
  · refine rowsOK_trie (.inl rfl) (old := old) (new := new) (slot := slot) (t := t) hLP ?_ ?_
      (fun h => absurd h hold) hseg
      p.accountTrieRows us 0 (r + 1) u0 _ hI hH hV ha0.shift ha
      (by rw [hst.depth]; simp) hst.key hst.otherKey hst.oldHash hst.newHash ?_ ?_ ?_ ht
    · rintro (h | h)
      · rw [(hnew h).1]; simp
      · exact absurd h hold
    · intro h; exact (hnew h).2
    · intro u hu
      have := hcl u hu
      exact ⟨this.proof, this.slot, this.old, this.new⟩
    · intro r' u hu hm
      obtain ⟨row, -, e, -⟩ := isTries_mem _ _ _ u hI hm
      have := hmid r' u hu (by simp [hm])
      rwa [e] at this
    · intro r' u hu hl
      obtain ⟨row, -, e, -⟩ := isTries_last _ _ _ u hI hl
      have := hend r' u hu (by simp [List.getLastD_eq_getLast?, hl])
      rwa [e] at this

/-! ## Leaf rows -/

/-- `u` is a leaf row, up to cells that are used by some proof types only. -/
structure IsLeaf (key ok : Fr) (pt : PathType) (s : SegmentType) (d : HashDomain) (sib old new : Fr)
    (dir : Bool) (u : URow) : Prop where
  seg : u.seg = s
  path : u.path = pt
  domain : u.domain = d.toFr
  sibling : u.sibling = sib
  oldHash : u.oldHash = old
  newHash : u.newHash = new
  direction : u.direction = bitFr dir
  depth : u.depth = 0
  key : u.key = key
  otherKey : u.otherKey = ok

/-- A node of the given domain with a child and a sibling. -/
def Node (w : Witness Fr) (U : ℕ) (d : HashDomain) (dir : Bool) (sib child top : Fr) : Prop :=
  P1 w U (leftOf dir sib child) (rightOf dir sib child) d.toFr top

section
variable {key ok po pn : Fr} {s0 s1 s2 o0 o1 o2 n0 n1 n2 : Fr} {d0 d1 d2 : Bool} {a b c : URow}
variable {t : MPTProofType} {slot old new : Fr} {prev : URow} {tail : List URow}

/-- The first three leaf rows of a change of an existing account. -/
theorem rowsOK_leafs_common
    (hp1 : prev.oldHash = po) (hp2 : prev.newHash = pn) (hpk : prev.key = key) (hpo : prev.otherKey = ok)
    (hcp : Claims t slot old new prev) (hca : Claims t slot old new a) (hcb : Claims t slot old new b)
    (hcc : Claims t slot old new c)
    (ia : IsLeaf key ok .Common .AccountLeaf0 .Leaf s0 o0 n0 d0 a)
    (ib : IsLeaf key ok .Common .AccountLeaf1 .AccountFields s1 o1 n1 d1 b)
    (ic : IsLeaf key ok .Common .AccountLeaf2 .AccountFields s2 o2 n2 d2 c)
    (na : Node w U .Leaf d0 s0 o0 po ∧ Node w U .Leaf d0 s0 n0 pn)
    (nb : Node w U .AccountFields d1 s1 o1 o0 ∧ Node w U .AccountFields d1 s1 n1 n0)
    (nc : Node w U .AccountFields d2 s2 o2 o1 ∧ Node w U .AccountFields d2 s2 n2 n1)
    (ht : t ∈ [MPTProofType.NonceChanged, .BalanceChanged, .CodeSizeExists, .CodeHashExists,
      .StorageChanged, .StorageDoesNotExist])
    (hl : (tail.headD .blank).seg = .AccountLeaf3) (hlp : (tail.headD .blank).path = .Common)
    (pa : ∀ r, AtRow w r a → ProofRel H w U r .AccountLeaf0 .AccountLeaf1 .Common t)
    (pb : ∀ r, AtRow w r b → ProofRel H w U r .AccountLeaf1 .AccountLeaf2 .Common t)
    (pc : ∀ r, AtRow w r c → ProofRel H w U r .AccountLeaf2 .AccountLeaf3 .Common t)
    {r : ℤ} (hp : AtRow w (r - 1) prev) (hat : AtRows w r (a :: b :: c :: tail))
    (htail : RowsOK H w U (r + 1 + 1 + 1) c tail) :
    RowsOK H w U r prev (a :: b :: c :: tail) := by
  obtain ⟨qa, qb, qc, -⟩ := hat
  have tr : (∃ l, transitions t .AccountLeaf0 = some l ∧ SegmentType.AccountLeaf1 ∈ l) ∧
      (∃ l, transitions t .AccountLeaf1 = some l ∧ SegmentType.AccountLeaf2 ∈ l) ∧
      (∃ l, transitions t .AccountLeaf2 = some l ∧ SegmentType.AccountLeaf3 ∈ l) := by
    simp only [List.mem_cons, List.not_mem_nil, or_false] at ht
    rcases ht with rfl | rfl | rfl | rfl | rfl | rfl <;>
      exact ⟨⟨_, rfl, by simp⟩, ⟨_, rfl, by simp⟩, ⟨_, rfl, by simp⟩⟩
  refine ⟨?_, ?_, ?_, htail⟩
  · show RowRel H w U r a.seg b.seg prev.path a.path b.path prev.proof a.proof
    refine rowRel_leaf_common qa hp (by rw [ia.seg]; simp) ia.path (.inl ib.path) (hcp.same hca)
      (fun _ => ⟨by rw [ia.key, hpk], by rw [ia.otherKey, hpo]⟩) ia.depth ia.direction (d := .Leaf)
      (by rw [ia.seg]; simp [domains]) ia.domain ?_ (by rw [hca.proof, ia.seg, ib.seg]; exact tr.1)
      (by rw [hca.proof, ia.seg, ib.seg]; exact pa r qa)
    unfold CommonHashes
    rw [ia.sibling, ia.oldHash, ia.newHash, hp1, hp2]; exact na
  · show RowRel H w U (r + 1) b.seg c.seg a.path b.path c.path a.proof b.proof
    refine rowRel_leaf_common qb qa.shift (by rw [ib.seg]; simp) ib.path (.inl ic.path) (hca.same hcb)
      (fun _ => ⟨by rw [ib.key, ia.key], by rw [ib.otherKey, ia.otherKey]⟩) ib.depth ib.direction
      (d := .AccountFields) (by rw [ib.seg]; simp [domains]) ib.domain ?_
      (by rw [hcb.proof, ib.seg, ic.seg]; exact tr.2.1)
      (by rw [hcb.proof, ib.seg, ic.seg]; exact pb _ qb)
    unfold CommonHashes
    rw [ib.sibling, ib.oldHash, ib.newHash, ia.oldHash, ia.newHash]; exact nb
  · show RowRel H w U (r + 1 + 1) c.seg (tail.headD .blank).seg b.path c.path (tail.headD .blank).path
      b.proof c.proof
    refine rowRel_leaf_common qc qb.shift (by rw [ic.seg]; simp) ic.path (.inl hlp) (hcb.same hcc)
      (fun _ => ⟨by rw [ic.key, ib.key], by rw [ic.otherKey, ib.otherKey]⟩) ic.depth ic.direction
      (d := .AccountFields) (by rw [ic.seg]; simp [domains]) ic.domain ?_
      (by rw [hcc.proof, ic.seg, hl]; exact tr.2.2)
      (by rw [hcc.proof, ic.seg, hl]; exact pc _ qc)
    unfold CommonHashes
    rw [ic.sibling, ic.oldHash, ic.newHash, ib.oldHash, ib.newHash]; exact nc

/-- The four leaf rows of a new account. -/
theorem rowsOK_leafs_new {s3 n3 : Fr} {d3 : Bool} {e : URow} {oo : Fr}
    (hp1 : prev.oldHash = oo) (hp2 : prev.newHash = pn) (hpk : prev.key = key) (hpo : prev.otherKey = ok)
    (hcp : Claims t slot 0 new prev) (hca : Claims t slot 0 new a) (hcb : Claims t slot 0 new b)
    (hcc : Claims t slot 0 new c) (hce : Claims t slot 0 new e)
    (ia : IsLeaf key ok .ExtensionNew .AccountLeaf0 .Leaf s0 oo n0 d0 a)
    (ib : IsLeaf key ok .ExtensionNew .AccountLeaf1 .AccountFields s1 oo n1 d1 b)
    (ic : IsLeaf key ok .ExtensionNew .AccountLeaf2 .AccountFields s2 oo n2 d2 c)
    (ie : IsLeaf key ok .ExtensionNew .AccountLeaf3 .AccountFields s3 oo n3 d3 e)
    (na : Node w U .Leaf d0 s0 n0 pn)
    (nb : Node w U .AccountFields d1 s1 n1 n0)
    (nc : Node w U .AccountFields d2 s2 n2 n1)
    (ne : Node w U .AccountFields d3 s3 n3 n2)
    (iz2 : a.iz 2 = key - ok) (iz3 : a.iz 3 = oo)
    (habs : (key ≠ ok ∧ oo ≠ 0 ∧ P1 w U ok (a.iv 9) HashDomain.Leaf.toFr oo) ∨ (key = ok ∧ oo = 0))
    (ht : t ∈ [MPTProofType.NonceChanged, .BalanceChanged])
    (pa : ∀ r, AtRow w r a → ProofRel H w U r .AccountLeaf0 .AccountLeaf1 .ExtensionNew t)
    (pb : ∀ r, AtRow w r b → ProofRel H w U r .AccountLeaf1 .AccountLeaf2 .ExtensionNew t)
    (pc : ∀ r, AtRow w r c → ProofRel H w U r .AccountLeaf2 .AccountLeaf3 .ExtensionNew t)
    (pe : ∀ r, AtRow w r e → ProofRel H w U r .AccountLeaf3 .Start .ExtensionNew t)
    {r : ℤ} (hp : AtRow w (r - 1) prev) (hat : AtRows w r [a, b, c, e]) :
    RowsOK H w U r prev [a, b, c, e] := by
  obtain ⟨qa, qb, qc, qe, -⟩ := hat
  have tr : (∃ l, transitions t .AccountLeaf0 = some l ∧ SegmentType.AccountLeaf1 ∈ l) ∧
      (∃ l, transitions t .AccountLeaf1 = some l ∧ SegmentType.AccountLeaf2 ∈ l) ∧
      (∃ l, transitions t .AccountLeaf2 = some l ∧ SegmentType.AccountLeaf3 ∈ l) ∧
      (∃ l, transitions t .AccountLeaf3 = some l ∧ SegmentType.Start ∈ l) := by
    simp only [List.mem_cons, List.not_mem_nil, or_false] at ht
    rcases ht with rfl | rfl <;>
      exact ⟨⟨_, rfl, by simp⟩, ⟨_, rfl, by simp⟩, ⟨_, rfl, by simp⟩, ⟨_, rfl, by simp⟩⟩
  have ht' : t ∈ [MPTProofType.NonceChanged, .BalanceChanged, .StorageChanged] := by
    simp only [List.mem_cons, List.not_mem_nil, or_false] at ht ⊢; tauto
  refine ⟨?_, ?_, ?_, ?_, trivial⟩
  · show RowRel H w U r a.seg b.seg prev.path a.path b.path prev.proof a.proof
    refine rowRel_leaf_extNew qa hp (by rw [ia.seg]; simp) ia.path (.inl ib.path) (hcp.same hca)
      (fun _ => ⟨by rw [ia.key, hpk], by rw [ia.otherKey, hpo]⟩) ia.depth ia.direction (d := .Leaf)
      (by rw [ia.seg]; simp [domains]) ia.domain (by rw [hca.proof]; exact ht') hca.old
      (by rw [ia.oldHash, hp1]) (by rw [ia.sibling, ia.newHash, hp2]; exact na)
      (.inr (by rw [ia.seg]; simp)) (fun _ => ?_)
      (by rw [hca.proof, ia.seg, ib.seg]; exact tr.1)
      (by rw [hca.proof, ia.seg, ib.seg]; exact pa r qa)
    refine nonexist_old qa hca.old (by rw [iz2, ia.key, ia.otherKey]) (by rw [iz3, ia.oldHash]) ?_
    rw [ia.key, ia.otherKey, ia.oldHash]; exact habs
  · show RowRel H w U (r + 1) b.seg c.seg a.path b.path c.path a.proof b.proof
    refine rowRel_leaf_extNew qb qa.shift (by rw [ib.seg]; simp) ib.path (.inl ic.path) (hca.same hcb)
      (fun _ => ⟨by rw [ib.key, ia.key], by rw [ib.otherKey, ia.otherKey]⟩) ib.depth ib.direction
      (d := .AccountFields) (by rw [ib.seg]; simp [domains]) ib.domain (by rw [hcb.proof]; exact ht')
      hcb.old (by rw [ib.oldHash, ia.oldHash]) (by rw [ib.sibling, ib.newHash, ia.newHash]; exact nb)
      (.inl ia.path) (fun h => by rw [ib.seg] at h; simp at h)
      (by rw [hcb.proof, ib.seg, ic.seg]; exact tr.2.1)
      (by rw [hcb.proof, ib.seg, ic.seg]; exact pb _ qb)
  · show RowRel H w U (r + 1 + 1) c.seg e.seg b.path c.path e.path b.proof c.proof
    refine rowRel_leaf_extNew qc qb.shift (by rw [ic.seg]; simp) ic.path (.inl ie.path) (hcb.same hcc)
      (fun _ => ⟨by rw [ic.key, ib.key], by rw [ic.otherKey, ib.otherKey]⟩) ic.depth ic.direction
      (d := .AccountFields) (by rw [ic.seg]; simp [domains]) ic.domain (by rw [hcc.proof]; exact ht')
      hcc.old (by rw [ic.oldHash, ib.oldHash]) (by rw [ic.sibling, ic.newHash, ib.newHash]; exact nc)
      (.inl ib.path) (fun h => by rw [ic.seg] at h; simp at h)
      (by rw [hcc.proof, ic.seg, ie.seg]; exact tr.2.2.1)
      (by rw [hcc.proof, ic.seg, ie.seg]; exact pc _ qc)
  · show RowRel H w U (r + 1 + 1 + 1) e.seg .Start c.path e.path .Start c.proof e.proof
    refine rowRel_leaf_extNew qe qc.shift (by rw [ie.seg]; simp) ie.path (.inr rfl) (hcc.same hce)
      (fun h => absurd ie.seg h) ie.depth ie.direction
      (d := .AccountFields) (by rw [ie.seg]; simp [domains]) ie.domain (by rw [hce.proof]; exact ht')
      hce.old (by rw [ie.oldHash, ic.oldHash]) (by rw [ie.sibling, ie.newHash, ic.newHash]; exact ne)
      (.inl ic.path) (fun h => by rw [ie.seg] at h; simp at h)
      (by rw [hce.proof, ie.seg]; exact tr.2.2.2)
      (by rw [hce.proof, ie.seg]; exact pe _ qe)

/-- The two leaf rows of a Poseidon code-hash claim. -/
theorem rowsOK_leafs_two
    (hp1 : prev.oldHash = po) (hp2 : prev.newHash = pn) (hpk : prev.key = key) (hpo : prev.otherKey = ok)
    (hcp : Claims .PoseidonCodeHashExists slot old new prev)
    (hca : Claims .PoseidonCodeHashExists slot old new a)
    (hcb : Claims .PoseidonCodeHashExists slot old new b)
    (ia : IsLeaf key ok .Common .AccountLeaf0 .Leaf s0 o0 n0 true a)
    (ib : IsLeaf key ok .Common .AccountLeaf1 .AccountFields s1 old new true b)
    (na : Node w U .Leaf true s0 o0 po ∧ Node w U .Leaf true s0 n0 pn)
    (nb : Node w U .AccountFields true s1 old o0 ∧ Node w U .AccountFields true s1 new n0)
    {r : ℤ} (hp : AtRow w (r - 1) prev) (hat : AtRows w r [a, b]) :
    RowsOK H w U r prev [a, b] := by
  obtain ⟨qa, qb, -⟩ := hat
  refine ⟨?_, ?_, trivial⟩
  · show RowRel H w U r a.seg b.seg prev.path a.path b.path prev.proof a.proof
    refine rowRel_leaf_common qa hp (by rw [ia.seg]; simp) ia.path (.inl ib.path) (hcp.same hca)
      (fun _ => ⟨by rw [ia.key, hpk], by rw [ia.otherKey, hpo]⟩) ia.depth ia.direction (d := .Leaf)
      (by rw [ia.seg]; simp [domains]) ia.domain ?_
      (by rw [hca.proof, ia.seg, ib.seg]; exact ⟨_, rfl, by simp⟩)
      (by rw [hca.proof, ia.seg, ib.seg]; exact by
            show w.adv .direction r = 1
            rw [qa.direction, ia.direction]; rfl)
    unfold CommonHashes
    rw [ia.sibling, ia.oldHash, ia.newHash, hp1, hp2]; exact na
  · show RowRel H w U (r + 1) b.seg .Start a.path b.path .Start a.proof b.proof
    refine rowRel_leaf_common qb qa.shift (by rw [ib.seg]; simp) ib.path (.inr rfl) (hca.same hcb)
      (fun _ => ⟨by rw [ib.key, ia.key], by rw [ib.otherKey, ia.otherKey]⟩) ib.depth ib.direction
      (d := .AccountFields) (by rw [ib.seg]; simp [domains]) ib.domain ?_
      (by rw [hcb.proof, ib.seg]; exact ⟨_, rfl, by simp⟩)
      (by
        rw [hcb.proof, ib.seg]
        show w.adv .direction (r + 1) = 1 ∧ _ ∧ _
        rw [qb.direction, ib.direction, qb.oldValue, qb.oldHash, qb.newValue, qb.newHash, hcb.old,
          hcb.new, ib.oldHash, ib.newHash]
        exact ⟨rfl, rfl, rfl⟩)
    unfold CommonHashes
    rw [ib.sibling, ib.oldHash, ib.newHash, ia.oldHash, ia.newHash]; exact nb

end

end Mpt
