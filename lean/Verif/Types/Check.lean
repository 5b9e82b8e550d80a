import Verif.Types.Proof

set_option autoImplicit false

/-!
# Model of the self-check of parsed proofs

`StorageProof::check` and `Proof::check`, the test-only functions that the tests of the crate call on
every parsed proof before they hand it to the circuit. `true`: the function returns; `false`: an
assertion fails (or an unwrap panics).
-/

namespace Mpt.Types
open Mpt Spec

/-- The loop over the directions in `StorageProof::check`, /repo/src/types/storage.rs:148-165, from row
`i` on. -/
def checkDirections (oldKey newKey : Fr) : ℕ → List TrieRow → Bool
  | _, [] => true
  | i, row :: rows =>
    (match row.pathType with
      | .Start => false
      | .Common => decide (bit true oldKey i = some row.direction) && decide (bit true newKey i = some row.direction)
      | .ExtensionOld => decide (bit true oldKey i = some row.direction)
      | .ExtensionNew => decide (bit true newKey i = some row.direction)) &&
    checkDirections oldKey newKey (i + 1) rows

/-- `StorageProof::check`, /repo/src/types/storage.rs:136-173. -/
def StorageProof.check (H : HashFn) (p : StorageProof) : Bool :=
  match p with
  | .Root _ => true
  | .Update _ _ rows o n =>
    (match p.oldRoot H, p.newRoot H with
      | some a, some b => trieCheck H a b rows
      | _, _ => false) &&
    checkDirections (o.key H) (n.key H) 0 rows &&
    (match rows.getLast? with
      | some row => decide (o.hash H = row.old) && decide (n.hash H = row.new)
      | none => true)

/-- The loop over the directions in `Proof::check`, /repo/src/types.rs:792-799: the traces are ordered
from the leaf to the root, so the index of the bit is the number of traces that follow. -/
def checkAddressBits (key : Fr) : List HashRow → Bool
  | [] => true
  | r :: rest => decide (bit true key rest.length = some r.direction) && checkAddressBits key rest

/-- The last two comparisons of each side in `Proof::check`, /repo/src/types.rs:829-855: `leaf` and
`top` are the leaf and the leaf hash of the account traces, `bottom` the hash in the first trace. -/
def checkLeaf (H : HashFn) (leaf : Option LeafNode) (top bottom : Fr) : Bool :=
  decide (top = bottom) &&
  match leaf with
  | some l => decide (domainHash H l.key l.valueHash .Leaf = top)
  | none => decide (bottom = 0)

/-- `Proof::check`, /repo/src/types.rs:785-880. -/
def Proof.check (H : HashFn) (p : Proof) : Bool :=
  p.storage.check H &&
  (checkHashTracesNew H none p.addressHashTraces).isSome &&
  checkAddressBits (accountKey H p.claim.address) p.addressHashTraces &&
  match p.addressHashTraces.getLast?, p.addressHashTraces.head? with
  | some top, some bottom =>
    decide (top.hash H top.open_ top.domain = p.claim.oldRoot) &&
    decide (top.hash H top.close top.domain = p.claim.newRoot) &&
    checkLeaf H p.leafs.1 p.oldTraces.t5.2.2 bottom.open_ &&
    checkLeaf H p.leafs.2 p.newTraces.t5.2.2 bottom.close
  | _, _ => false

end Mpt.Types
