import Verif.Assign.HonestNoPanic
import Verif.Props.HonestInput

set_option autoImplicit false

/-!
# Honest traces are parsed, and the parsed proofs are ready (C35)
-/

namespace Mpt
open Spec MptUpdate Types Requests Props

variable {H : HashFn}

/-! ## Paths -/

theorem leafHash_of {l : Option SMTNode} {e : PathEnd} (h : LeafDenotes l e) :
    bottomHash H [] l = some (endHash H e) := by
  cases l with
  | none => cases e with
    | none => rfl
    | some x => exact absurd h id
  | some n => cases e with
    | none => exact absurd h id
    | some x =>
      obtain ⟨k, d⟩ := x
      obtain ⟨h1, h2⟩ := h
      show trieLeafHash H n = _
      unfold trieLeafHash
      rw [h1, h2]; rfl

theorem pathLeafHash_of {p : SMTPath} {e : PathEnd} (h : LeafDenotes p.leaf e) :
    pathLeafHash H p = some (endHash H e) := by
  rw [← leafHash_of h]
  unfold pathLeafHash bottomHash
  cases p.leaf <;> rfl

/-- What the trie rows of two honest paths look like. -/
structure PathsReady (H : HashFn) (key : Fr) (c : Change) (leafP : PathType) (old new : SMTPath)
    (po pn : List PathNode) (eo en : PathEnd) (ro rn : Fr) (rows : List TrieRow) : Prop where
  parse : trieRowsNew H key old.path new.path old.leaf new.leaf = some rows
  from0 : trieRowsFrom key old.path.length new.path.length (endHash H eo) (endHash H en) 0 old.path
    new.path = some rows
  honest : RowsHonest H leafP (ro, rn) rows
  last : endHashes (ro, rn) rows = (endHash H eo, endHash H en)
  oldRoot : trieOldRoot H rows (some (endHash H eo)) = some ro
  newRoot : trieNewRoot H rows (some (endHash H en)) = some rn
  place : ∀ (j : ℕ) (row : TrieRow), rows[j]? = some row → j < 256 ∧ row.direction = keyBit key j ∧
    (row.pathType = .Common → j < po.length ∧ j < pn.length) ∧
    (row.pathType = .ExtensionOld → j < po.length) ∧ (row.pathType = .ExtensionNew → j < pn.length)
  common : endPath rows = .Common → (c = .insert → endHash H eo = 0) ∧ (c = .delete → endHash H en = 0)
  empty : rows = [] → ro = endHash H eo ∧ rn = endHash H en

theorem shape_lengths {c : Change} {bo bn : Fr} {po pn : List PathNode} (h : PathShape c bo bn po pn)
    (hl : po.length = pn.length) : (c = .insert → bo = 0) ∧ (c = .delete → bn = 0) := by
  induction po generalizing pn with
  | nil => cases pn with
    | nil => exact h
    | cons q qs => simp at hl
  | cons p ps ih => cases pn with
    | nil => simp at hl
    | cons q qs => exact ih h (by simpa using hl)

theorem paths_ready {key : Fr} {c : Change} {leafP : PathType} {old new : SMTPath}
    {po pn : List PathNode} {eo en : PathEnd} {ro rn : Fr}
    (hP : leafP = changePath c ∨ (leafP = .Start ∧ c = .same))
    (h : HonestPaths H key c old new po pn eo en ro rn) :
    ∃ rows, PathsReady H key c leafP old new po pn eo en ro rn rows := by
  have l1 := h.nodesOld.length_eq
  have l2 := h.nodesNew.length_eq
  have b1 := bottomHash_eq h.nodesOld h.honest.old (leaf := old.leaf) (fun _ => leafHash_of h.leafOld)
  have b2 := bottomHash_eq h.nodesNew h.honest.new (leaf := new.leaf) (fun _ => leafHash_of h.leafNew)
  obtain ⟨rows, hr⟩ := c38_accepts H key old.path new.path old.leaf new.leaf po pn h.nodesOld h.nodesNew
    (by rw [l1]; exact h.depthOld) (by rw [l2]; exact h.depthNew) h.bytes h.honest.oldTypes
    h.honest.newTypes h.siblings (by rw [b1]; rfl) (by rw [b2]; rfl)
  obtain ⟨g1, g2⟩ := trieRowsNew_honest hP h.nodesOld h.nodesNew hr h.honest
    (fun _ => leafHash_of h.leafOld) (fun _ => leafHash_of h.leafNew)
  obtain ⟨-, k1, k2, -⟩ := c38_roots H key old.path new.path old.leaf new.leaf rows hr po pn h.nodesOld
    h.nodesNew h.honest.oldTypes h.honest.newTypes _ _ _ _ h.honest.old h.honest.new
    (fun _ => leafHash_of h.leafOld) (fun _ => leafHash_of h.leafNew)
  obtain ⟨s1, s2, s3⟩ := c38_shape H key _ _ _ _ rows hr
  have hpl : ∀ (j : ℕ) (row : TrieRow), rows[j]? = some row → j < 256 ∧ row.direction = keyBit key j ∧
      (row.pathType = .Common → j < po.length ∧ j < pn.length) ∧
      (row.pathType = .ExtensionOld → j < po.length) ∧ (row.pathType = .ExtensionNew → j < pn.length) := by
    intro j row hj
    have hlt : j < rows.length := (List.getElem?_eq_some_iff.1 hj).1
    obtain ⟨q1, q2, q3, q4⟩ := s3 j row hj
    refine ⟨by omega, q1, fun hp => ?_, fun hp => ?_, fun hp => ?_⟩
    · constructor
      · by_contra hx
        rw [(q4 (by omega)).1] at hp; cases hp
      · by_contra hx
        rw [(q3 (by omega)).1] at hp; cases hp
    · by_contra hx
      rw [(q4 (by omega)).1] at hp; cases hp
    · by_contra hx
      rw [(q3 (by omega)).1] at hp; cases hp
  refine ⟨rows, hr, g2, g1, rowsFrom_last g2 h.nodesOld h.nodesNew h.honest.old h.honest.new, k1, k2, hpl,
    fun he => ?_, ?_⟩
  · refine shape_lengths h.honest.shape ?_
    unfold endPath at he
    cases hg : rows.getLast? with
    | none =>
      have : rows = [] := List.getLast?_eq_none_iff.1 hg
      subst this
      simp only [List.length_nil] at s1
      omega
    | some row =>
      rw [hg] at he
      have he : row.pathType = .Common := he
      rw [List.getLast?_eq_getElem?] at hg
      have := (hpl _ row hg).2.2.1 he
      omega
  · rintro rfl
    simp only [List.length_nil] at s1
    have e1 : po = [] := List.length_eq_zero_iff.1 (by omega)
    have e2 : pn = [] := List.length_eq_zero_iff.1 (by omega)
    have o1 := h.honest.old
    have o2 := h.honest.new
    rw [e1] at o1
    rw [e2] at o2
    exact ⟨o1, o2⟩

/-- The internal hash traces of two honest paths. -/
theorem PathsReady.traces {key : Fr} {c : Change} {leafP : PathType} {old new : SMTPath}
    {po pn : List PathNode} {eo en : PathEnd} {ro rn : Fr} {rows : List TrieRow}
    (h : PathsReady H key c leafP old new po pn eo en ro rn rows) :
    getInternalHashTraces key (endHash H eo) (endHash H en) old.path new.path =
      some (rows.map toHashRow).reverse := by
  unfold getInternalHashTraces
  rw [internalFrom_eq, h.from0]; rfl

/-! ## `check_hash_traces_new` -/

/-- The path type that precedes the end of a list. -/
def lastType (prev : Option PathType) (l : List HashRow) : Option PathType :=
  match l.getLast? with
  | none => prev
  | some x => x.pathType

/-- The pairs of domains of a common row. -/
def commonDomains (prev : Option PathType) (r : HashRow) : Option (HashDomain × HashDomain) :=
  match prev with
  | some .ExtensionOld => none
  | some .ExtensionNew => (nextDomain r.domain r.direction).map fun x => (r.domain, x)
  | _ => some (r.domain, r.domain)

theorem checkHashRow_common {prev : Option PathType} {r next : HashRow} (h : r.pathType = some .Common) :
    checkHashRow H prev r next = (commonDomains prev r).bind fun d =>
      if r.hash H r.open_ d.1 = next.open_ ∧ r.hash H r.close d.2 = next.close then some .Common
      else none := by
  unfold checkHashRow commonDomains
  rw [h]
  rcases prev with _ | t
  · rfl
  · cases t <;> rfl

theorem checkHashRow_type {prev : Option PathType} {r next : HashRow} {t : PathType}
    (h : checkHashRow H prev r next = some t) : r.pathType = some t := by
  cases hp : r.pathType with
  | none => unfold checkHashRow at h; rw [hp] at h; cases h
  | some t' =>
    cases t'
    · unfold checkHashRow at h; rw [hp] at h; cases h
    · rw [checkHashRow_common hp] at h
      obtain ⟨d, -, h⟩ := Option.bind_eq_some_iff.1 h
      split at h
      · cases h; rfl
      · cases h
    · unfold checkHashRow at h
      rw [hp] at h
      have h : (if (prev = none ∨ prev = some PathType.ExtensionOld) ∧
        HashRow.hash H r r.open_ r.domain = next.open_ then some PathType.ExtensionOld else none) = some t := h
      split at h
      · cases h; rfl
      · cases h
    · unfold checkHashRow at h
      rw [hp] at h
      have h : (if (prev = none ∨ prev = some PathType.ExtensionNew) ∧
        HashRow.hash H r r.close r.domain = next.close then some PathType.ExtensionNew else none) = some t := h
      split at h
      · cases h; rfl
      · cases h

theorem check_append (l : List HashRow) : ∀ (prev : Option PathType) (a b : HashRow),
    checkHashTracesNew H prev (l ++ [a]) = some () →
    (∃ t, checkHashRow H (lastType prev l) a b = some t) →
    checkHashTracesNew H prev (l ++ [a, b]) = some () := by
  induction l with
  | nil =>
    intro prev a b _ ⟨t, ht⟩
    have ht : checkHashRow H prev a b = some t := ht
    show checkHashTracesNew H prev [a, b] = some ()
    unfold checkHashTracesNew
    rw [ht]; rfl
  | cons x l ih =>
    intro prev a b h ⟨t, ht⟩
    cases l with
    | nil =>
      have h : checkHashTracesNew H prev [x, a] = some () := h
      unfold checkHashTracesNew at h
      obtain ⟨t', h1, -⟩ := Option.bind_eq_some_iff.1 h
      show checkHashTracesNew H prev [x, a, b] = some ()
      unfold checkHashTracesNew
      have e : lastType prev [x] = some t' := checkHashRow_type h1
      rw [e] at ht
      rw [h1]
      show checkHashTracesNew H (some t') [a, b] = some ()
      unfold checkHashTracesNew
      rw [ht]; rfl
    | cons y l =>
      have h : checkHashTracesNew H prev (x :: y :: (l ++ [a])) = some () := h
      unfold checkHashTracesNew at h
      obtain ⟨t', h1, h2⟩ := Option.bind_eq_some_iff.1 h
      show checkHashTracesNew H prev (x :: y :: (l ++ [a, b])) = some ()
      unfold checkHashTracesNew
      rw [h1]
      exact ih (some t') a b h2 ⟨t, by
        rw [← ht]
        unfold lastType
        rw [List.getLast?_cons_cons]
        cases hg : (y :: l).getLast? with
        | none => simp at hg
        | some z => rfl⟩

theorem toHashRow_type (r : TrieRow) (h : r.pathType ≠ .Start) : (toHashRow r).pathType = some r.pathType := by
  unfold HashRow.pathType toHashRow
  cases hp : r.pathType <;> simp_all

/-- The hash traces of honest rows of an account trie pass the check. -/
theorem check_honest {leafP : PathType} (hP : leafP ≠ .ExtensionOld) (rows : List TrieRow) :
    ∀ (top : Fr × Fr), RowsHonest H leafP top rows →
      checkHashTracesNew H none (rows.map toHashRow).reverse = some () := by
  induction rows with
  | nil => intro _ _; rfl
  | cons r0 rows ih =>
    intro top h
    obtain ⟨-, -, h2⟩ := h
    cases rows with
    | nil => rfl
    | cons r1 rest =>
      have ih := ih _ h2
      obtain ⟨-, h3, h4⟩ := h2
      rw [List.map_cons, List.map_cons, List.reverse_cons, List.reverse_cons, List.append_assoc]
      rw [List.map_cons, List.reverse_cons] at ih
      refine check_append _ _ _ _ ih ?_
      have hst : ∀ row ∈ rest, row.pathType ≠ .Start := fun row hm =>
        (rowsHonest_path rest _ h4 row hm).1
      have hlt : lastType none (rest.map toHashRow).reverse = rest.head?.map TrieRow.pathType := by
        unfold lastType
        rw [List.getLast?_reverse, List.head?_map]
        cases hh : rest.head? with
        | none => rfl
        | some r => exact toHashRow_type r (hst r (List.mem_of_mem_head? hh))
      rw [hlt]
      unfold RowHonest at h3
      have hs1 : r1.pathType ≠ .Start := by
        intro he; rw [he] at h3; exact h3
      have ht := toHashRow_type r1 hs1
      cases hp : r1.pathType <;> rw [hp] at h3 ht
      · exact absurd hp hs1
      · rw [checkHashRow_common ht]
        cases hn : rest.head? with
        | none =>
          rw [hn] at h3
          exact ⟨.Common, if_pos ⟨h3.1, h3.2.1⟩⟩
        | some r =>
          rw [hn] at h3
          obtain ⟨d, hd, e1, e2⟩ := h3
          refine ⟨.Common, ?_⟩
          have hr := rowsHonest_path rest _ h4 r (List.mem_of_mem_head? hn)
          have hc : commonDomains (Option.map TrieRow.pathType (some r)) (toHashRow r1) = some d := by
            unfold commonDomains
            rw [Option.map_some]
            cases hq : r.pathType <;> rw [hq] at hd
            · cases hd
            · exact hd
            · exact absurd (hr.2.2 hq) hP
            · exact hd
          rw [hc]
          exact if_pos ⟨e1, e2⟩
      · exact absurd h3.1 hP
      · unfold checkHashRow
        rw [ht]
        refine ⟨.ExtensionNew, if_pos ⟨?_, h3.2.2.1⟩⟩
        cases hn : rest.head? with
        | none => exact .inl rfl
        | some r =>
          rw [hn] at h3
          right
          rw [Option.map_some, h3.2.2.2.1]

/-! ## Parsing -/

/-- The `Path` of a path that ends with `e`. -/
def pathOf (key : Fr) : PathEnd → Path
  | none => ⟨key, none⟩
  | some (k, d) => ⟨k, some d⟩

theorem pathOf_hash (key : Fr) (e : PathEnd) : (pathOf key e).hash H = endHash H e := by
  cases e <;> rfl

theorem pathFrom_of {address : List ℕ} {p : SMTPath} {e : PathEnd} (h : LeafDenotes p.leaf e) :
    pathFrom H address p = some (pathOf (accountKey H address) e) := by
  unfold pathFrom
  cases hl : p.leaf with
  | none => rw [hl] at h; cases e with
    | none => rfl
    | some x => exact absurd h id
  | some n => rw [hl] at h; cases e with
    | none => exact absurd h id
    | some x =>
      obtain ⟨h1, h2⟩ := h
      show Option.bind (fr n.sibling) _ = _
      rw [h1]
      show Option.bind (fr n.value) _ = _
      rw [h2]; rfl

theorem getLeaf_of {p : SMTPath} {e : PathEnd} (h : LeafDenotes p.leaf e) :
    getLeaf p = some (e.map fun x => ⟨x.1, x.2⟩) := by
  unfold getLeaf
  cases hl : p.leaf with
  | none => rw [hl] at h; cases e with
    | none => rfl
    | some x => exact absurd h id
  | some n => rw [hl] at h; cases e with
    | none => exact absurd h id
    | some x =>
      obtain ⟨h1, h2⟩ := h
      show Option.bind (fr n.sibling) _ = _
      rw [h1]
      show Option.bind (fr n.value) _ = _
      rw [h2]; rfl

/-- The parsed proof of an honest trace. -/
structure ParsedAs (H : HashFn) (t : MPTProofType) (tr : SMTTrace) (c : Change) (leafP : PathType)
    (po pn : List PathNode) (eo en : PathEnd) (ro rn : Fr) (kind : ClaimKind) (storage : StorageProof)
    (sr0 sr1 : Fr) (a0 a1 : Option EthAccount) (p : Proof) : Prop where
  parse : proofFrom H t tr = some p
  acc : AccountReady H leafP p
  claim : p.claim = ⟨ro, rn, tr.address, kind⟩
  storage : p.storage = storage
  paths : PathsReady H (accountKey H tr.address) c leafP tr.accountPath.1 tr.accountPath.2 po pn eo en ro rn
    p.accountTrieRows
  old : p.old = pathOf (accountKey H tr.address) eo
  new : p.new = pathOf (accountKey H tr.address) en
  oldTraces : p.oldTraces = sideTraces H tr.address tr.accountUpdate.1 (eo.map fun x => ⟨x.1, x.2⟩) sr0
  newTraces : p.newTraces = sideTraces H tr.address tr.accountUpdate.2 (en.map fun x => ⟨x.1, x.2⟩) sr1
  oldAccount : p.oldAccount = a0
  newAccount : p.newAccount = a1

theorem parse_account {t : MPTProofType} {tr : SMTTrace} {c : Change} {leafP : PathType}
    {po pn : List PathNode} {eo en : PathEnd} {ro rn : Fr} {kind : ClaimKind} {storage : StorageProof}
    {sr0 sr1 : Fr} {a0 a1 : Option EthAccount}
    (hP : leafP = changePath c ∨ (leafP = .Start ∧ c = .same)) (hPo : leafP ≠ .ExtensionOld)
    (hA : AccountPart H tr c po pn eo en ro rn) (hk : claimKindFrom t tr = some kind)
    (ht : kind.proofType = t) (hs : storageProofFrom H tr = some storage)
    (h0 : storage.oldRoot H = some sr0) (h1 : storage.newRoot H = some sr1)
    (e0 : (sideTraces H tr.address tr.accountUpdate.1 (eo.map fun x => ⟨x.1, x.2⟩) sr0).t5.2.2 = endHash H eo)
    (e1 : (sideTraces H tr.address tr.accountUpdate.2 (en.map fun x => ⟨x.1, x.2⟩) sr1).t5.2.2 = endHash H en)
    (s0 : sideAccount tr.accountUpdate.1 sr0 = some a0) (s1 : sideAccount tr.accountUpdate.2 sr1 = some a1) :
    ∃ p, ParsedAs H t tr c leafP po pn eo en ro rn kind storage sr0 sr1 a0 a1 p := by
  obtain ⟨rows, hr⟩ := paths_ready hP hA.paths
  have hcl : claimFrom t tr = some ⟨ro, rn, tr.address, kind⟩ := by
    unfold claimFrom
    rw [hA.paths.rootOld, hA.paths.rootNew, hk]
    exact if_pos ht
  have hch := check_honest hPo rows _ hr.honest
  refine ⟨⟨⟨ro, rn, tr.address, kind⟩, (rows.map toHashRow).reverse, (eo.map fun x => ⟨x.1, x.2⟩,
    en.map fun x => ⟨x.1, x.2⟩), sideTraces H tr.address tr.accountUpdate.1 (eo.map fun x => ⟨x.1, x.2⟩) sr0,
    sideTraces H tr.address tr.accountUpdate.2 (en.map fun x => ⟨x.1, x.2⟩) sr1, storage,
    pathOf (accountKey H tr.address) eo, pathOf (accountKey H tr.address) en, a0, a1, rows⟩, ?_, ?_, rfl, rfl,
    hr, rfl, rfl, rfl, rfl, rfl, rfl⟩
  · unfold proofFrom
    rw [hcl]
    show Option.bind (storageProofFrom H tr) _ = _
    rw [hs]
    show Option.bind (fr tr.accountKey) _ = _
    rw [hA.key]
    dsimp only [Option.bind_some]
    rw [if_pos rfl]
    show Option.bind (trieRowsNew _ _ _ _ _ _) _ = _
    rw [hr.parse]
    show Option.bind (getLeaf _) _ = _
    rw [getLeaf_of hA.paths.leafOld]
    show Option.bind (getLeaf _) _ = _
    rw [getLeaf_of hA.paths.leafNew]
    show Option.bind (pathLeafHash _ _) _ = _
    rw [pathLeafHash_of hA.paths.leafOld]
    show Option.bind (pathLeafHash _ _) _ = _
    rw [pathLeafHash_of hA.paths.leafNew]
    show Option.bind (getInternalHashTraces _ _ _ _ _) _ = _
    rw [hr.traces]
    show Option.bind (checkHashTracesNew _ _ _) _ = _
    rw [hch]
    show Option.bind (storage.oldRoot H) _ = _
    rw [h0]
    show Option.bind (storage.newRoot H) _ = _
    rw [h1]
    dsimp only [Option.bind_some]
    rw [if_pos ⟨e0, e1⟩]
    show Option.bind (pathFrom _ _ _) _ = _
    rw [pathFrom_of hA.paths.leafOld]
    show Option.bind (pathFrom _ _ _) _ = _
    rw [pathFrom_of hA.paths.leafNew]
    show Option.bind (sideAccount _ _) _ = _
    rw [s0]
    show Option.bind (sideAccount _ _) _ = _
    rw [s1]
    rfl
  · exact ⟨hr.honest, rfl, by rw [pathOf_hash, pathOf_hash]; exact hr.last⟩

/-! ## The leaf of an account -/

theorem accountTraces_data {address : List ℕ} {a : AccountData} (ha : a.codeHash < 2 ^ 256) (root : Fr) :
    (accountHashTraces H address a root).t5.2.1 = accountLeafData H a root := by
  have h1 : domainHash H (hiLo a.codeHash).1 (hiLo a.codeHash).2 .Pair = Account.wordHash H a.codeHash := by
    rw [(c45_split a.codeHash ha).2.2.1]; rfl
  have h2 := nonceCode_trace (H := H) address a root
  show H (H (H (accountHashTraces H address a root).t2.1 (frFromBiguint a.balance) _)
    (H root (domainHash H (hiLo a.codeHash).1 (hiLo a.codeHash).2 .Pair) _) _)
      (frFromBiguint a.poseidonCodeHash) _ = _
  rw [h1, h2, frFromBiguint_eq, frFromBiguint_eq]
  rfl

theorem accountTraces_end {address : List ℕ} {a : AccountData} (ha : a.codeHash < 2 ^ 256) (root : Fr) :
    (accountHashTraces H address a root).t5.2.2 = endHash H (accountEnd H address a root) := by
  unfold accountEnd endHash
  rw [← accountTraces_data ha (address := address)]
  rfl

end Mpt
