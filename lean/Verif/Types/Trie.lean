import Verif.Types.Util

set_option autoImplicit false

/-!
# Model of /repo/src/types/trie.rs

`none` is a panic (`assert!`, `unwrap`, `unreachable!`). `Fr::bit` is modelled as built with overflow
checks (it is never reached for an index of 256 or more by paths of at most 256 nodes).
-/

namespace Mpt.Types
open Mpt Spec

/-- `SMTNode`, /repo/src/serde.rs:266-273: hashes are 32 little-endian bytes. -/
structure SMTNode where
  value : List ℕ
  sibling : List ℕ
  nodeType : ℕ
  deriving DecidableEq, Repr

/-- `TrieRow`, /repo/src/types/trie.rs:10-18. -/
structure TrieRow where
  domain : HashDomain
  old : Fr
  new : Fr
  sibling : Fr
  direction : Bool
  pathType : PathType
  deriving DecidableEq

/-- `leaf_hash`, /repo/src/types/trie.rs:314-316. -/
def trieLeafHash (H : HashFn) (leaf : SMTNode) : Option Fr := do
  let s ← fr leaf.sibling
  let v ← fr leaf.value
  pure (domainHash H s v .Leaf)

/-- `next_domain`, /repo/src/types/trie.rs:280-293. -/
def nextDomain (before : HashDomain) (direction : Bool) : Option HashDomain :=
  match before with
  | .Branch0 => if direction then some .Branch1 else some .Branch2
  | .Branch1 => some .Branch3
  | .Branch2 => some .Branch3
  | _ => none

/-- `get_domains`, /repo/src/types/trie.rs:295-312. -/
def getDomains (nextPathType : PathType) (before : HashDomain) (direction : Bool) :
    Option (HashDomain × HashDomain) :=
  match nextPathType with
  | .Start => none
  | .Common => some (before, before)
  | .ExtensionNew => (nextDomain before direction).map fun d => (before, d)
  | .ExtensionOld => (nextDomain before direction).map fun d => (d, before)

/-- `old_leaf_hash` / `new_leaf_hash` in `TrieRows::new`, /repo/src/types/trie.rs:69-76: the value of
the last node, else the hash of the leaf, else 0. -/
def bottomHash (H : HashFn) (nodes : List SMTNode) (leaf : Option SMTNode) : Option Fr :=
  match nodes.getLast? with
  | some node => fr node.value
  | none => match leaf with
    | some l => trieLeafHash H l
    | none => some 0

/-- The choice of the domain in the `Both` arm of `TrieRows::new`, /repo/src/types/trie.rs:89-107
(the same code is in `get_internal_hash_traces`, /repo/src/types.rs:556-575). `lo`, `ln` are the
lengths of the two paths. -/
def commonDomain (lo ln i : ℕ) (direction : Bool) (oldDomain newDomain : HashDomain) :
    Option HashDomain :=
  if oldDomain ≠ newDomain then
    if lo ≠ ln ∧ i = min lo ln - 1 then
      if i = lo - 1 then
        if checkDomainConsistency oldDomain newDomain direction then some oldDomain else none
      else
        if checkDomainConsistency newDomain oldDomain direction then some newDomain else none
    else none
  else some oldDomain

/-- The `Both` arm of `TrieRows::new`, /repo/src/types/trie.rs:84-117. -/
def bothRow (lo ln i : ℕ) (direction : Bool) (old new : SMTNode) : Option TrieRow :=
  if old.sibling = new.sibling then do
    let oldDomain ← HashDomain.ofNat? old.nodeType
    let newDomain ← HashDomain.ofNat? new.nodeType
    let domain ← commonDomain lo ln i direction oldDomain newDomain
    let o ← fr old.value
    let n ← fr new.value
    let s ← fr old.sibling
    pure ⟨domain, o, n, s, direction, .Common⟩
  else none

/-- The `Left` arm, /repo/src/types/trie.rs:118-125. -/
def leftRow (newLeafHash : Fr) (direction : Bool) (old : SMTNode) : Option TrieRow := do
  let d ← HashDomain.ofNat? old.nodeType
  let o ← fr old.value
  let s ← fr old.sibling
  pure ⟨d, o, newLeafHash, s, direction, .ExtensionOld⟩

/-- The `Right` arm, /repo/src/types/trie.rs:126-133. -/
def rightRow (oldLeafHash : Fr) (direction : Bool) (new : SMTNode) : Option TrieRow := do
  let d ← HashDomain.ofNat? new.nodeType
  let n ← fr new.value
  let s ← fr new.sibling
  pure ⟨d, oldLeafHash, n, s, direction, .ExtensionNew⟩

/-- The `zip_longest().enumerate().map().collect()` of `TrieRows::new`,
/repo/src/types/trie.rs:77-135, from index `i` on. -/
def trieRowsFrom (key : Fr) (lo ln : ℕ) (oldLeafHash newLeafHash : Fr) :
    ℕ → List SMTNode → List SMTNode → Option (List TrieRow)
  | _, [], [] => some []
  | i, old :: olds, new :: news => do
    let direction ← bit true key i
    let row ← bothRow lo ln i direction old new
    let rest ← trieRowsFrom key lo ln oldLeafHash newLeafHash (i + 1) olds news
    pure (row :: rest)
  | i, old :: olds, [] => do
    let direction ← bit true key i
    let row ← leftRow newLeafHash direction old
    let rest ← trieRowsFrom key lo ln oldLeafHash newLeafHash (i + 1) olds []
    pure (row :: rest)
  | i, [], new :: news => do
    let direction ← bit true key i
    let row ← rightRow oldLeafHash direction new
    let rest ← trieRowsFrom key lo ln oldLeafHash newLeafHash (i + 1) [] news
    pure (row :: rest)

/-- `TrieRows::new`, /repo/src/types/trie.rs:61-136. -/
def trieRowsNew (H : HashFn) (key : Fr) (oldNodes newNodes : List SMTNode)
    (oldLeaf newLeaf : Option SMTNode) : Option (List TrieRow) := do
  let oldLeafHash ← bottomHash H oldNodes oldLeaf
  let newLeafHash ← bottomHash H newNodes newLeaf
  trieRowsFrom key oldNodes.length newNodes.length oldLeafHash newLeafHash 0 oldNodes newNodes

namespace TrieRow
variable (H : HashFn)

/-- `TrieRow::hash_domains`, /repo/src/types/trie.rs:46-57. -/
def hashDomains (row : TrieRow) (next : Option PathType) : Option (HashDomain × HashDomain) :=
  if row.pathType = .Common ∧ (next = some .ExtensionNew ∨ next = some .ExtensionOld) then
    match next with
    | some p => getDomains p row.domain row.direction
    | none => none
  else some (row.domain, row.domain)

/-- Hash of a child and the sibling, ordered by the direction: used everywhere in trie.rs. -/
def nodeHash (row : TrieRow) (child : Fr) (d : HashDomain) : Fr :=
  if row.direction then domainHash H row.sibling child d else domainHash H child row.sibling d

/-- `TrieRow::old_hash`, /repo/src/types/trie.rs:25-34. -/
def oldHash (row : TrieRow) (next : Option PathType) : Option Fr := do
  let d ← row.hashDomains next
  pure (if row.pathType = .ExtensionNew then row.old else row.nodeHash H row.old d.1)

/-- `TrieRow::new_hash`, /repo/src/types/trie.rs:35-44. -/
def newHash (row : TrieRow) (next : Option PathType) : Option Fr := do
  let d ← row.hashDomains next
  pure (if row.pathType = .ExtensionOld then row.new else row.nodeHash H row.new d.2)

end TrieRow

/-- A Poseidon request `(left, right, domain, hash)`. /repo/src/types/trie.rs:142. -/
abbrev HashTrace := Fr × Fr × HashDomain × Fr

/-- The `(left, right, domain, domain_hash(left, right, domain))` pushed in trie.rs. -/
def TrieRow.trace (H : HashFn) (row : TrieRow) (child : Fr) (d : HashDomain) : HashTrace :=
  if row.direction then (row.sibling, child, d, domainHash H row.sibling child d)
  else (child, row.sibling, d, domainHash H child row.sibling d)

/-- The body of the loop of `TrieRows::poseidon_lookups`, /repo/src/types/trie.rs:144-188. -/
def TrieRow.poseidonLookups (H : HashFn) (row : TrieRow) (next : Option TrieRow) :
    Option (List HashTrace) :=
  match row.pathType with
  | .Start => none
  | .Common => do
    let d ← match next with
      | some r => getDomains r.pathType row.domain row.direction
      | none => some (row.domain, row.domain)
    pure [row.trace H row.old d.1, row.trace H row.new d.2]
  | .ExtensionOld => some [row.trace H row.old row.domain]
  | .ExtensionNew => some [row.trace H row.new row.domain]

/-- `TrieRows::poseidon_lookups`, /repo/src/types/trie.rs:142-191. -/
def triePoseidonLookups (H : HashFn) : List TrieRow → Option (List HashTrace)
  | [] => some []
  | row :: rows => do
    let l ← row.poseidonLookups H rows.head?
    let rest ← triePoseidonLookups H rows
    pure (l ++ rest)

/-- `TrieRows::key_bit_lookups`, /repo/src/types/trie.rs:193-208, from row `i` on. -/
def trieKeyBitLookupsFrom (key otherKey : Fr) : ℕ → List TrieRow → List (Fr × ℕ × Bool)
  | _, [] => []
  | i, row :: rows =>
    (match row.pathType with
      | .Start => []
      | .Common => [(key, i, row.direction), (otherKey, i, row.direction)]
      | _ => [(key, i, row.direction)]) ++ trieKeyBitLookupsFrom key otherKey (i + 1) rows

/-- `TrieRows::key_bit_lookups`, /repo/src/types/trie.rs:193-208. -/
def trieKeyBitLookups (key otherKey : Fr) (rows : List TrieRow) : List (Fr × ℕ × Bool) :=
  trieKeyBitLookupsFrom key otherKey 0 rows

/-- `TrieRows::old_root`, /repo/src/types/trie.rs:210-215. -/
def trieOldRoot (H : HashFn) (rows : List TrieRow) (leafHash : Option Fr) : Option Fr :=
  match rows with
  | [] => leafHash
  | row :: rest => row.oldHash H (rest.head?.map TrieRow.pathType)

/-- `TrieRows::new_root`, /repo/src/types/trie.rs:217-222. -/
def trieNewRoot (H : HashFn) (rows : List TrieRow) (leafHash : Option Fr) : Option Fr :=
  match rows with
  | [] => leafHash
  | row :: rest => row.newHash H (rest.head?.map TrieRow.pathType)

/-- `TrieRows::check` (test-only helper), /repo/src/types/trie.rs:224-277: `true` iff it returns.
`old`, `new` are the expected hashes of the first row. -/
def trieCheck (H : HashFn) : Fr → Fr → List TrieRow → Bool
  | _, _, [] => true
  | old, new, row :: rows =>
    (match row.pathType with
      | .Start => false
      | .Common =>
        match (match rows.head? with
          | some r => getDomains r.pathType row.domain row.direction
          | none => some (row.domain, row.domain)) with
        | none => false
        | some d => decide (row.nodeHash H row.old d.1 = old) && decide (row.nodeHash H row.new d.2 = new)
      | .ExtensionOld =>
        (match rows.head? with | some r => decide (r.pathType = .ExtensionOld) | none => true) &&
          decide (row.nodeHash H row.old row.domain = old)
      | .ExtensionNew =>
        (match rows.head? with | some r => decide (r.pathType = .ExtensionNew) | none => true) &&
          decide (row.nodeHash H row.new row.domain = new)) &&
    trieCheck H row.old row.new rows

end Mpt.Types
