import Verif.Assign.RowSat
import Verif.Assign.Update
import Verif.Props.Trie

set_option autoImplicit false

/-!
# Trie rows of an honest update satisfy their row relations

First step of completeness (C35): rows as written by `assign_account_trie_rows` and
`assign_storage_trie_rows`, on a table that serves their requests.
-/

namespace Mpt
open Spec MptUpdate Types

variable {H : HashFn} {w : Witness Fr} {U : ℕ}

/-- The hashes of a trie row fit those of the row above; `next` is the next trie row, `leafP` the path
type of what follows the trie rows. -/
def RowHonest (H : HashFn) (leafP : PathType) (top : Fr × Fr) (row : TrieRow) (next : Option TrieRow) :
    Prop :=
  match row.pathType with
  | .Start => False
  | .Common =>
    match next with
    | some r => ∃ d, getDomains r.pathType row.domain row.direction = some d ∧
        row.nodeHash H row.old d.1 = top.1 ∧ row.nodeHash H row.new d.2 = top.2
    | none => row.nodeHash H row.old row.domain = top.1 ∧ row.nodeHash H row.new row.domain = top.2 ∧
        (leafP = .ExtensionNew → row.domain ≠ .Branch3 ∧ row.old = 0) ∧
        (leafP = .ExtensionOld → row.domain ≠ .Branch3 ∧ row.new = 0)
  | .ExtensionNew => leafP = .ExtensionNew ∧ row.old = top.1 ∧
      row.nodeHash H row.new row.domain = top.2 ∧
      (match next with
        | some r => r.pathType = .ExtensionNew ∧ row.sibling = 0
        | none => row.sibling = row.old)
  | .ExtensionOld => leafP = .ExtensionOld ∧ row.new = top.2 ∧
      row.nodeHash H row.old row.domain = top.1 ∧
      (match next with
        | some r => r.pathType = .ExtensionOld ∧ row.sibling = 0
        | none => row.sibling = row.new)

/-- All trie rows fit. -/
def RowsHonest (H : HashFn) (leafP : PathType) : Fr × Fr → List TrieRow → Prop
  | _, [] => True
  | top, row :: rest => branchDomain row.domain ∧ RowHonest H leafP top row rest.head? ∧
      RowsHonest H leafP (row.old, row.new) rest

/-- The requests of the trie rows are served. -/
def RowsServed (H : HashFn) (w : Witness Fr) (U : ℕ) (key otherKey : Fr) : ℕ → List TrieRow → Prop
  | _, [] => True
  | i, row :: rest => InKeyBit w U key (i : Fr) (bitFr row.direction) ∧
      (row.pathType = .Common → InKeyBit w U otherKey (i : Fr) (bitFr row.direction)) ∧
      (∀ l, row.poseidonLookups H rest.head? = some l → ∀ e ∈ l, P1 w U e.1 e.2.1 e.2.2.1.toFr e.2.2.2) ∧
      RowsServed H w U key otherKey (i + 1) rest

/-- `u` is the row written for `row`, up to the cells that trie rows do not use. -/
structure IsTrie (s : SegmentType) (key otherKey : Fr) (i : ℕ) (row : TrieRow) (next : Option TrieRow)
    (u : URow) : Prop where
  seg : u.seg = s
  path : u.path = row.pathType
  domain : u.domain = row.domain.toFr
  oldHash : u.oldHash = row.old
  newHash : u.newHash = row.new
  depth : u.depth = ((i + 1 : ℕ) : Fr)
  key : u.key = key
  otherKey : u.otherKey = otherKey
  direction : u.direction = bitFr row.direction
  sibling : u.sibling = row.sibling
  iv2 : trieNewDomain row next = some (u.iv 2)

def IsTries (s : SegmentType) (key otherKey : Fr) : ℕ → List TrieRow → List URow → Prop
  | _, [], [] => True
  | i, row :: rows, u :: us => IsTrie s key otherKey i row rows.head? u ∧
      IsTries s key otherKey (i + 1) rows us
  | _, _, _ => False

theorem trace_p1 {row : TrieRow} {child : Fr} {d : HashDomain}
    (h : P1 w U (row.trace H child d).1 (row.trace H child d).2.1 (row.trace H child d).2.2.1.toFr
      (row.trace H child d).2.2.2) :
    P1 w U (leftOf row.direction row.sibling child) (rightOf row.direction row.sibling child) d.toFr
      (row.nodeHash H child d) := by
  unfold TrieRow.trace at h
  unfold TrieRow.nodeHash leftOf rightOf
  cases hd : row.direction <;> rw [hd] at h <;> exact h

theorem branch_mem {d : HashDomain} (h : branchDomain d) :
    d ∈ [HashDomain.Branch0, .Branch1, .Branch2, .Branch3] := by
  rcases h with h | h | h | h <;> simp [h]

theorem extendable_of {d : HashDomain} (h : branchDomain d) (h3 : d ≠ .Branch3) :
    Extendable d.toFr := by
  rcases h with h | h | h | h
  · exact .inl (by rw [h])
  · exact .inr (.inl (by rw [h]))
  · exact .inr (.inr (.inl (by rw [h])))
  · exact absurd h h3

theorem nextDomain_val {d d' : HashDomain} {b : Bool} (hb : branchDomain d)
    (h : nextDomain d b = some d') : d ≠ .Branch3 ∧ newDomVal d.toFr (bitFr b) = d'.toFr := by
  unfold newDomVal
  rcases hb with rfl | rfl | rfl | rfl <;> cases b <;> simp [nextDomain] at h <;> subst h <;>
    simp [toFr_eq_iff, bitFr]

/-- **Trie rows are accepted.** -/
theorem rowsOK_trie {s : SegmentType} (hs : s = .AccountTrie ∨ s = .StorageTrie) {key otherKey : Fr}
    {leafP : PathType} {t : MPTProofType} {tail : List URow} {old new slot : Fr}
    (hLP : (tail.headD .blank).path = leafP)
    (hleaf : leafP = .ExtensionNew ∨ leafP = .ExtensionOld →
      (tail.headD .blank).seg ∈ [SegmentType.AccountLeaf0, .StorageLeaf0])
    (hnew : leafP = .ExtensionNew → t ∈ [MPTProofType.NonceChanged, .BalanceChanged, .StorageChanged] ∧
      old = 0)
    (hold : leafP = .ExtensionOld → t = .StorageChanged ∧ new = 0 ∧ s = .StorageTrie ∧
      (tail.headD .blank).seg = .StorageLeaf0)
    (hseg : ∃ l, transitions t s = some l ∧ s ∈ l ∧ (tail.headD .blank).seg ∈ l)
    (rows : List TrieRow) : ∀ (us : List URow) (i : ℕ) (r : ℤ) (prev : URow) (top : Fr × Fr),
    IsTries s key otherKey i rows us → RowsHonest H leafP top rows →
    RowsServed H w U key otherKey i rows → AtRow w (r - 1) prev → AtRows w r (us ++ tail) →
    prev.depth = (i : Fr) → prev.key = key → prev.otherKey = otherKey → prev.oldHash = top.1 →
    prev.newHash = top.2 →
    (∀ u ∈ prev :: us, u.proof = t ∧ u.storageKeyRlc = slot ∧ u.oldValue = old ∧ u.newValue = new) →
    (∀ r' u, AtRow w r' u → u ∈ us → ProofRel H w U r' s s u.path t) →
    (∀ r' u, AtRow w r' u → us.getLast? = some u →
      ProofRel H w U r' s (tail.headD .blank).seg u.path t) →
    RowsOK H w U (r + us.length) (us.getLastD prev) tail →
    RowsOK H w U r prev (us ++ tail) := by
  induction rows with
  | nil =>
    intro us i r prev top hI _ _ _ _ _ _ _ _ _ _ _ _ ht
    cases us with
    | nil => simpa using ht
    | cons u us => exact absurd hI (by simp [IsTries])
  | cons row rows ih =>
    intro us i r prev top hI hH hS hp ha hd hk hok ho hn hcl hmid hend ht
    cases us with
    | nil => exact absurd hI (by simp [IsTries])
    | cons u us =>
      obtain ⟨hu, hI⟩ := hI
      obtain ⟨hb, hrow, hH⟩ := hH
      obtain ⟨sb, sob, sh, hS⟩ := hS
      obtain ⟨hau, ha'⟩ := ha
      have hcu := hcl u (by simp)
      have hcp := hcl prev (by simp)
      refine ⟨?_, ?_⟩
      swap
      · refine ih us (i + 1) (r + 1) u (row.old, row.new) hI hH hS hau.shift ha' (by rw [hu.depth])
          hu.key hu.otherKey hu.oldHash hu.newHash
          (fun v hv => hcl v (by simp only [List.mem_cons] at hv ⊢; exact .inr hv))
          (fun r' v hv hm => hmid r' v hv (by simp [hm])) ?_ ?_
        · intro r' v hv hl
          refine hend r' v hv ?_
          cases us with
          | nil => simp at hl
          | cons x us => rw [List.getLast?_cons_cons]; exact hl
        · have e2 : (u :: us).getLastD prev = us.getLastD u := by
            cases us <;> simp [List.getLastD]
          have e : r + 1 + (us.length : ℤ) = r + (((u :: us).length : ℕ) : ℤ) := by
            rw [List.length_cons]; push_cast; ring
          rw [e, ← e2]; exact ht
      -- the row itself
      have hsc : SameClaim prev u :=
        ⟨by rw [hcu.1, hcp.1], by rw [hcu.2.1, hcp.2.1], by rw [hcu.2.2.1, hcp.2.2.1],
          by rw [hcu.2.2.2, hcp.2.2.2]⟩
      have hσu : u.seg = .AccountTrie ∨ u.seg = .StorageTrie := by rw [hu.seg]; exact hs
      have hbits : TrieBits w U prev u i row.direction :=
        ⟨⟨by rw [hu.key, hk], by rw [hu.otherKey, hok]⟩, hu.depth, hd, hu.direction,
          by rw [hu.key]; exact sb, fun h => by rw [hu.otherKey]; exact sob (by rw [← hu.path]; exact h)⟩
      obtain ⟨lt, hlt, hss, hsL⟩ := hseg
      cases hnext : us with
      | nil =>
        have hrows : rows = [] := by
          cases rows with
          | nil => rfl
          | cons a l => rw [hnext] at hI; exact absurd hI (by simp [IsTries])
        subst hrows
        simp only [List.head?_nil] at hrow sh
        show RowRel H w U r u.seg (tail.headD .blank).seg prev.path u.path (tail.headD .blank).path
          prev.proof u.proof
        have hpr := hend r u hau (by simp [hnext])
        have hseg' : ∃ l, transitions u.proof u.seg = some l ∧ (tail.headD .blank).seg ∈ l := by
          rw [hcu.1, hu.seg]; exact ⟨lt, hlt, hsL⟩
        unfold RowHonest at hrow
        cases hpt : row.pathType with
        | Start => rw [hpt] at hrow; exact absurd hrow id
        | Common =>
          rw [hpt] at hrow
          obtain ⟨h1, h2, h3, h4⟩ := hrow
          have hl := sh _ (by simp only [TrieRow.poseidonLookups, hpt]; rfl)
          have p1 := trace_p1 (hl (row.trace H row.old row.domain) (by simp))
          have p2 := trace_p1 (hl (row.trace H row.new row.domain) (by simp))
          rw [h1] at p1; rw [h2] at p2
          have n1 : OldNode w U r (w.adv .domain r) := by
            rw [oldNode_iff hau hp hu.direction, hau.domain, hu.domain, hu.sibling, hu.oldHash, ho]
            exact p1
          have n2 : NewNode w U r (w.adv .domain r) := by
            rw [newNode_iff hau hp hu.direction, hau.domain, hu.domain, hu.sibling, hu.newHash, hn]
            exact p2
          refine rowRel_trie_common hau hp hσu (by rw [hu.path, hpt]) hsc hbits (branch_mem hb)
            hu.domain ?_ ?_ hseg' (by rw [hu.path, hpt] at hpr; rw [hu.seg, hcu.1]; exact hpr)
          · rw [hLP]; cases leafP <;> decide
          · rw [hLP]
            cases hlp : leafP with
            | Start => exact ⟨n1, n2⟩
            | Common => exact ⟨n1, n2⟩
            | ExtensionNew =>
              obtain ⟨q1, q2⟩ := h3 hlp
              simp only [CommonRel]
              rw [if_pos (hleaf (.inl hlp))]
              refine ⟨?_, n1, by rw [hau.oldHash, hu.oldHash, q2], n2⟩
              rw [hau.domain, hu.domain]; exact extendable_of hb q1
            | ExtensionOld =>
              obtain ⟨q1, q2⟩ := h4 hlp
              simp only [CommonRel]
              rw [if_pos (hleaf (.inr hlp))]
              refine ⟨?_, n2, by rw [hau.newHash, hu.newHash, q2], n1⟩
              rw [hau.domain, hu.domain]; exact extendable_of hb q1
        | ExtensionNew =>
          rw [hpt] at hrow
          obtain ⟨h1, h2, h3, h4⟩ := hrow
          have hl := sh _ (by simp only [TrieRow.poseidonLookups, hpt]; rfl)
          have p2 := trace_p1 (hl (row.trace H row.new row.domain) (by simp))
          rw [h3] at p2
          obtain ⟨q1, q2⟩ := hnew h1
          refine rowRel_trie_extNew hau hp hσu (by rw [hu.path, hpt]) (.inl (by rw [hLP, h1])) hsc hbits
            (branch_mem hb) hu.domain (by rw [hcu.1]; exact q1) (by rw [hcu.2.2.1]; exact q2)
            (by rw [hu.oldHash, ho, h2]) (by rw [hu.sibling, hu.newHash, hn]; exact p2) ?_ hseg'
            (by rw [hu.path, hpt] at hpr; rw [hu.seg, hcu.1]; exact hpr)
          have := hleaf (.inl h1)
          rw [if_neg, hu.sibling, hu.oldHash, h4]
          intro hm
          simp only [List.mem_cons, List.not_mem_nil, or_false] at this hm
          rcases this with e | e <;> rcases hm with e' | e' <;> rw [e] at e' <;> cases e'
        | ExtensionOld =>
          rw [hpt] at hrow
          obtain ⟨h1, h2, h3, h4⟩ := hrow
          have hl := sh _ (by simp only [TrieRow.poseidonLookups, hpt]; rfl)
          have p1 := trace_p1 (hl (row.trace H row.old row.domain) (by simp))
          rw [h3] at p1
          obtain ⟨q1, q2, q3, q4⟩ := hold h1
          have := rowRel_trie_extOld (H := H) (σ' := (tail.headD .blank).seg) hau hp
            (by rw [hu.seg, q3]) (by rw [hu.path, hpt]) hsc hbits
            (branch_mem hb) hu.domain (by rw [hcu.1]; exact q1) (by rw [hcu.2.2.2]; exact q2)
            (by rw [hu.newHash, hn, h2]) (by rw [hu.sibling, hu.oldHash, ho]; exact p1)
            (by rw [if_pos q4, hu.sibling, hu.newHash, h4]) (.inr q4)
          rwa [hLP, h1]
      | cons v vs =>
        cases rows with
        | nil => rw [hnext] at hI; exact absurd hI (by simp [IsTries])
        | cons row2 rows =>
          rw [hnext] at hI
          obtain ⟨hv, hI⟩ := hI
          simp only [List.head?_cons] at hrow sh
          show RowRel H w U r u.seg v.seg prev.path u.path v.path prev.proof u.proof
          have hpr := hmid r u hau (by simp)
          have hseg' : ∃ l, transitions u.proof u.seg = some l ∧ v.seg ∈ l := by
            rw [hcu.1, hu.seg, hv.seg]; exact ⟨lt, hlt, hss⟩
          have hvn : v.seg ∉ [SegmentType.AccountLeaf0, .StorageLeaf0] := by
            rw [hv.seg]; rcases hs with e | e <;> simp [e]
          have hvt : v.seg ∈ [SegmentType.AccountTrie, .StorageTrie] := by
            rw [hv.seg]; rcases hs with e | e <;> simp [e]
          have hiv := hu.iv2
          unfold RowHonest at hrow
          cases hpt : row.pathType with
          | Start => rw [hpt] at hrow; exact absurd hrow id
          | Common =>
            rw [hpt] at hrow
            obtain ⟨d, hd', h1, h2⟩ := hrow
            have hl := sh _ (by simp only [TrieRow.poseidonLookups, hpt, hd']; rfl)
            have p1 := trace_p1 (hl (row.trace H row.old d.1) (by simp))
            have p2 := trace_p1 (hl (row.trace H row.new d.2) (by simp))
            rw [h1] at p1; rw [h2] at p2
            have n1 : OldNode w U r d.1.toFr := by
              rw [oldNode_iff hau hp hu.direction, hu.sibling, hu.oldHash, ho]; exact p1
            have n2 : NewNode w U r d.2.toFr := by
              rw [newNode_iff hau hp hu.direction, hu.sibling, hu.newHash, hn]; exact p2
            have hdr : w.adv .domain r = row.domain.toFr := by rw [hau.domain, hu.domain]
            refine rowRel_trie_common hau hp hσu (by rw [hu.path, hpt]) hsc hbits (branch_mem hb)
              hu.domain ?_ ?_ hseg'
              (by rw [hu.path, hpt] at hpr; rw [hu.seg, hcu.1, hv.seg]; exact hpr)
            · rw [hv.path]; cases row2.pathType <;> decide
            · rw [hv.path]
              cases hp2 : row2.pathType with
              | Start => rw [hp2] at hd'; simp [getDomains] at hd'
              | Common =>
                rw [hp2] at hd'
                simp only [getDomains, Option.some.injEq] at hd'
                subst hd'
                simp only [CommonRel]
                rw [hdr]; exact ⟨n1, n2⟩
              | ExtensionNew =>
                rw [hp2] at hd'
                obtain ⟨d', e1, e2⟩ := Option.map_eq_some_iff.1 hd'
                subst e2
                obtain ⟨g1, g2⟩ := nextDomain_val hb e1
                have e3 : w.adv (.iv 2) r = d'.toFr := by
                  rw [hau.iv]
                  simp only [trieNewDomain, List.head?_cons, hp2, hpt, e1, Option.map_some] at hiv
                  simpa using hiv.symm
                simp only [CommonRel]
                rw [if_neg hvn, hdr, e3, hau.direction, hu.direction, g2]
                exact ⟨extendable_of hb g1, n1, rfl, n2⟩
              | ExtensionOld =>
                rw [hp2] at hd'
                obtain ⟨d', e1, e2⟩ := Option.map_eq_some_iff.1 hd'
                subst e2
                obtain ⟨g1, g2⟩ := nextDomain_val hb e1
                have e3 : w.adv (.iv 2) r = d'.toFr := by
                  rw [hau.iv]
                  simp only [trieNewDomain, List.head?_cons, hp2, hpt, e1, Option.map_some] at hiv
                  simpa using hiv.symm
                simp only [CommonRel]
                rw [if_neg hvn, hdr, e3, hau.direction, hu.direction, g2]
                exact ⟨extendable_of hb g1, n2, rfl, n1⟩
          | ExtensionNew =>
            rw [hpt] at hrow
            obtain ⟨h1, h2, h3, h4, h5⟩ := hrow
            have hl := sh _ (by simp only [TrieRow.poseidonLookups, hpt]; rfl)
            have p2 := trace_p1 (hl (row.trace H row.new row.domain) (by simp))
            rw [h3] at p2
            obtain ⟨q1, q2⟩ := hnew h1
            refine rowRel_trie_extNew hau hp hσu (by rw [hu.path, hpt]) (.inl (by rw [hv.path, h4])) hsc
              hbits (branch_mem hb) hu.domain (by rw [hcu.1]; exact q1) (by rw [hcu.2.2.1]; exact q2)
              (by rw [hu.oldHash, ho, h2]) (by rw [hu.sibling, hu.newHash, hn]; exact p2) ?_ hseg'
              (by rw [hu.path, hpt] at hpr; rw [hu.seg, hcu.1, hv.seg]; exact hpr)
            rw [if_pos hvt, hu.sibling, h5]
          | ExtensionOld =>
            rw [hpt] at hrow
            obtain ⟨h1, h2, h3, h4, h5⟩ := hrow
            have hl := sh _ (by simp only [TrieRow.poseidonLookups, hpt]; rfl)
            have p1 := trace_p1 (hl (row.trace H row.old row.domain) (by simp))
            rw [h3] at p1
            obtain ⟨q1, q2, q3, q4⟩ := hold h1
            have := rowRel_trie_extOld (H := H) (σ' := v.seg) hau hp
              (by rw [hu.seg, q3]) (by rw [hu.path, hpt]) hsc hbits
              (branch_mem hb) hu.domain (by rw [hcu.1]; exact q1) (by rw [hcu.2.2.2]; exact q2)
              (by rw [hu.newHash, hn, h2]) (by rw [hu.sibling, hu.oldHash, ho]; exact p1)
              (by rw [if_neg (by rw [hv.seg, q3]; simp), hu.sibling, h5]) (.inl (by rw [hv.seg, q3]))
            rwa [hv.path, h4]

end Mpt
