import Verif.Types.Proof

set_option autoImplicit false

/-!
# Evaluating `proofFrom` in the kernel

`trieRowsFrom` and `internalFrom` recurse on two lists, which Lean compiles by well-founded recursion; the
kernel does not evaluate that well. Here are equal structurally recursive versions, used only to evaluate the
model on concrete traces.
-/

namespace Mpt.Fixtures
open Mpt Types

/-- The rows below the old path. /repo/src/types/trie.rs:77-135. -/
def trieRightS (key oldLeafHash : Fr) : ℕ → List SMTNode → Option (List TrieRow)
  | _, [] => some []
  | i, new :: news => do
    let direction ← bit true key i
    let row ← rightRow oldLeafHash direction new
    let rest ← trieRightS key oldLeafHash (i + 1) news
    pure (row :: rest)

/-- `trieRowsFrom`, by structural recursion. /repo/src/types/trie.rs:77-135. -/
def trieRowsS (key : Fr) (lo ln : ℕ) (oldLeafHash newLeafHash : Fr) (i : ℕ) :
    List SMTNode → List SMTNode → Option (List TrieRow) :=
  go i
where
  /-- The loop. /repo/src/types/trie.rs:77-135. -/
  go (i : ℕ) : List SMTNode → List SMTNode → Option (List TrieRow)
  | [], news => trieRightS key oldLeafHash i news
  | old :: olds, new :: news => do
    let direction ← bit true key i
    let row ← bothRow lo ln i direction old new
    let rest ← go (i + 1) olds news
    pure (row :: rest)
  | old :: olds, [] => do
    let direction ← bit true key i
    let row ← leftRow newLeafHash direction old
    let rest ← go (i + 1) olds []
    pure (row :: rest)
  termination_by structural olds => olds

theorem trieRightS_eq (key : Fr) (lo ln : ℕ) (a b : Fr) (i : ℕ) (news : List SMTNode) :
    trieRightS key a i news = trieRowsFrom key lo ln a b i [] news := by
  induction news generalizing i with
  | nil => simp [trieRightS, trieRowsFrom]
  | cons n news ih => simp only [trieRightS, trieRowsFrom, ih]

theorem trieRowsS_eq (key : Fr) (lo ln : ℕ) (a b : Fr) (i : ℕ) (olds news : List SMTNode) :
    trieRowsS key lo ln a b i olds news = trieRowsFrom key lo ln a b i olds news := by
  unfold trieRowsS
  induction olds generalizing i news with
  | nil => rw [trieRowsS.go, trieRightS_eq key lo ln a b]
  | cons o olds ih => cases news <;> simp only [trieRowsS.go, trieRowsFrom, ih]

/-- The rows below the old path. /repo/src/types.rs:545-608. -/
def internalRightS (key oldLeafHash : Fr) : ℕ → List SMTNode → Option (List HashRow)
  | _, [] => some []
  | i, new :: news => do
    let direction ← bit true key i
    let d ← HashDomain.ofNat? new.nodeType
    let n ← fr new.value
    let s ← fr new.sibling
    let rest ← internalRightS key oldLeafHash (i + 1) news
    pure (HashRow.mk direction d oldLeafHash n s true false :: rest)

/-- `internalFrom`, by structural recursion. /repo/src/types.rs:545-608. -/
def internalS (key oldLeafHash newLeafHash : Fr) (lo ln : ℕ) (i : ℕ) :
    List SMTNode → List SMTNode → Option (List HashRow) :=
  go i
where
  /-- The loop. /repo/src/types.rs:545-608. -/
  go (i : ℕ) : List SMTNode → List SMTNode → Option (List HashRow)
  | [], news => internalRightS key oldLeafHash i news
  | old :: olds, new :: news => do
    let direction ← bit true key i
    let row ← if old.sibling = new.sibling then do
        let od ← HashDomain.ofNat? old.nodeType
        let nd ← HashDomain.ofNat? new.nodeType
        let d ← commonDomain lo ln i direction od nd
        let o ← fr old.value
        let n ← fr new.value
        let s ← fr old.sibling
        some (HashRow.mk direction d o n s false false)
      else none
    let rest ← go (i + 1) olds news
    pure (row :: rest)
  | old :: olds, [] => do
    let direction ← bit true key i
    let d ← HashDomain.ofNat? old.nodeType
    let o ← fr old.value
    let s ← fr old.sibling
    let rest ← go (i + 1) olds []
    pure (HashRow.mk direction d o newLeafHash s false true :: rest)
  termination_by structural olds => olds

theorem internalRightS_eq (key a b : Fr) (lo ln : ℕ) (i : ℕ) (news : List SMTNode) :
    internalRightS key a i news = internalFrom key a b lo ln i [] news := by
  induction news generalizing i with
  | nil => simp [internalRightS, internalFrom]
  | cons n news ih => simp only [internalRightS, internalFrom, ih]

theorem internalS_eq (key a b : Fr) (lo ln : ℕ) (i : ℕ) (olds news : List SMTNode) :
    internalS key a b lo ln i olds news = internalFrom key a b lo ln i olds news := by
  unfold internalS
  induction olds generalizing i news with
  | nil => rw [internalS.go, internalRightS_eq key a b lo ln]
  | cons o olds ih => cases news <;> simp only [internalS.go, internalFrom, ih]

/-- `trieRowsNew` with `trieRowsS`. /repo/src/types/trie.rs:61-136. -/
def trieRowsNewS (H : HashFn) (key : Fr) (oldNodes newNodes : List SMTNode)
    (oldLeaf newLeaf : Option SMTNode) : Option (List TrieRow) := do
  let oldLeafHash ← bottomHash H oldNodes oldLeaf
  let newLeafHash ← bottomHash H newNodes newLeaf
  trieRowsS key oldNodes.length newNodes.length oldLeafHash newLeafHash 0 oldNodes newNodes

theorem trieRowsNewS_eq (H : HashFn) (key : Fr) (a b : List SMTNode) (c d : Option SMTNode) :
    trieRowsNewS H key a b c d = trieRowsNew H key a b c d := by
  simp only [trieRowsNewS, trieRowsNew, trieRowsS_eq]

/-- `getInternalHashTraces` with `internalS`. /repo/src/types.rs:539-610. -/
def internalTracesS (key : Fr) (oldLeafHash newLeafHash : Fr) (olds news : List SMTNode) :
    Option (List HashRow) :=
  (internalS key oldLeafHash newLeafHash olds.length news.length 0 olds news).map List.reverse

theorem internalTracesS_eq (key a b : Fr) (c d : List SMTNode) :
    internalTracesS key a b c d = getInternalHashTraces key a b c d := by
  simp only [internalTracesS, getInternalHashTraces, internalS_eq]

/-- `storageProofFrom` with `trieRowsNewS`. /repo/src/types/storage.rs:272-314. -/
def storageProofFromS (H : HashFn) (trace : SMTTrace) : Option StorageProof :=
  match trace.commonStateRoot with
  | some root => (fr root).map .Root
  | none => do
    let key ← trace.stateKey.bind fr
    let oldPath ← trace.statePath.1
    let newPath ← trace.statePath.2
    let rows ← trieRowsNewS H key oldPath.path newPath.path oldPath.leaf newPath.leaf
    let upd ← trace.stateUpdate
    let oldEntry ← upd.1
    let newEntry ← upd.2
    if oldEntry.key = newEntry.key then do
      let oldLeaf ← StorageLeaf.new H key oldPath.leaf oldEntry
      let newLeaf ← StorageLeaf.new H key newPath.leaf newEntry
      let proof := StorageProof.Update (u256FromHex oldEntry.key) key rows oldLeaf newLeaf
      let r1 ← proof.oldRoot H
      let r2 ← proof.newRoot H
      let e1 ← fr oldPath.root
      let e2 ← fr newPath.root
      if r1 = e1 ∧ r2 = e2 then some proof else none
    else none

theorem storageProofFromS_eq (H : HashFn) (tr : SMTTrace) :
    storageProofFromS H tr = storageProofFrom H tr := by
  unfold storageProofFromS storageProofFrom
  simp only [trieRowsNewS_eq]
  rfl

/-- `proofFrom` with `trieRowsNewS`, `internalTracesS`. /repo/src/types.rs:406-490. -/
def proofFromS (H : HashFn) (proofType : MPTProofType) (trace : SMTTrace) : Option Proof := do
  let claim ← claimFrom proofType trace
  let storage ← storageProofFromS H trace
  let key := accountKey H claim.address
  let traceKey ← fr trace.accountKey
  if key = traceKey then do
    let rows ← trieRowsNewS H key trace.accountPath.1.path trace.accountPath.2.path
      trace.accountPath.1.leaf trace.accountPath.2.leaf
    let leaf0 ← getLeaf trace.accountPath.1
    let leaf1 ← getLeaf trace.accountPath.2
    let lh0 ← pathLeafHash H trace.accountPath.1
    let lh1 ← pathLeafHash H trace.accountPath.2
    let traces ← internalTracesS key lh0 lh1 trace.accountPath.1.path trace.accountPath.2.path
    let _ ← checkHashTracesNew H none traces
    let sr0 ← storage.oldRoot H
    let sr1 ← storage.newRoot H
    let t0 := sideTraces H claim.address trace.accountUpdate.1 leaf0 sr0
    let t1 := sideTraces H claim.address trace.accountUpdate.2 leaf1 sr1
    if t0.t5.2.2 = lh0 ∧ t1.t5.2.2 = lh1 then do
      let old ← pathFrom H claim.address trace.accountPath.1
      let new ← pathFrom H claim.address trace.accountPath.2
      let a0 ← sideAccount trace.accountUpdate.1 sr0
      let a1 ← sideAccount trace.accountUpdate.2 sr1
      pure ⟨claim, traces, (leaf0, leaf1), t0, t1, storage, old, new, a0, a1, rows⟩
    else none
  else none

theorem proofFromS_eq (H : HashFn) (t : MPTProofType) (tr : SMTTrace) :
    proofFromS H t tr = proofFrom H t tr := by
  unfold proofFromS proofFrom
  simp only [storageProofFromS_eq, trieRowsNewS_eq, internalTracesS_eq]

end Mpt.Fixtures
