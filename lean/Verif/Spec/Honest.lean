import Verif.Spec.Paths

set_option autoImplicit false

/-!
# Specification: honest pairs of paths

What two node paths for the same key, one in the trie before and one in the trie after an update, look
like when only the node at the end of the path was changed. Nothing here mentions the code.
-/

namespace Mpt.Spec
open Mpt (Fr HashFn HashDomain)

/-- How the node at the end of the path is changed: it is replaced or left alone, or a leaf is inserted,
or a leaf is removed. -/
inductive Change
  | same
  | insert
  | delete
  deriving DecidableEq

/-- The levels a split adds: every sibling is empty but the last one, which is the leaf that was there
before. -/
def SplitLevels (other : Fr) : List PathNode → Prop
  | [] => True
  | p :: ps => p.sibling = (if ps.isEmpty then other else 0) ∧ SplitLevels other ps

/-- The lengths of the two paths, given the change; `bo`, `bn` are the hashes at their ends. Inserting
into an empty place keeps the path, inserting next to another leaf makes it longer. -/
def PathShape (c : Change) (bo bn : Fr) : List PathNode → List PathNode → Prop
  | _ :: ps, _ :: qs => PathShape c bo bn ps qs
  | [], [] => (c = .insert → bo = 0) ∧ (c = .delete → bn = 0)
  | [], q :: qs => c = .insert ∧ SplitLevels bo (q :: qs)
  | p :: ps, [] => c = .delete ∧ SplitLevels bn (p :: ps)

/-- Two paths for `key` whose node hashes are right, whose domains are right and whose lengths fit the
change. -/
structure LevelHonest (H : HashFn) (key : Fr) (c : Change) (po pn : List PathNode)
    (bo bn oldRoot newRoot : Fr) : Prop where
  old : PathOK H key 0 po bo oldRoot
  new : PathOK H key 0 pn bn newRoot
  oldTypes : Truthful key 0 po
  newTypes : Truthful key 0 pn
  shape : PathShape c bo bn po pn

end Mpt.Spec
