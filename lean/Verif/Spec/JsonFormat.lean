import Verif.Types.Json
import Verif.Props.Serde

set_option autoImplicit false

/-!
# Specification: the JSON format of a trace

Which JSON value denotes which trace, written as relations. Records are objects, or arrays with the
fields in order.
-/

namespace Mpt.Spec.JsonFormat
open Mpt Types Serde Json Props

/-- The record `v` gives its field number `i`, known under `names`, the value `x`, and only once. -/
def Given (v : Value) (i : ℕ) (names : List String) (x : Value) : Prop :=
  match v with
  | .obj l => ∃ a k b, l = a ++ (k, x) :: b ∧ k ∈ names.map txt ∧ ∀ m ∈ a ++ b, m.1 ∉ names.map txt
  | .arr es => es[i]? = some x
  | _ => False

/-- The record `v` has no value for its field number `i`, known under `names`. -/
def NotGiven (v : Value) (i : ℕ) (names : List String) : Prop :=
  match v with
  | .obj l => ∀ m ∈ l, m.1 ∉ names.map txt
  | .arr es => es.length ≤ i
  | _ => False

/-- A mandatory field. -/
def Req {α : Type} (P : Value → α → Prop) (v : Value) (i : ℕ) (name : String) (a : α) : Prop :=
  ∃ x, Given v i [name] x ∧ P x a

/-- A field with a default value. -/
def Dflt {α : Type} (d : α) (P : Value → α → Prop) (v : Value) (i : ℕ) (names : List String) (a : α) :
    Prop :=
  (∃ x, Given v i names x ∧ P x a) ∨ (NotGiven v i names ∧ a = d)

/-- `null`, or a value. -/
def Nullable {α : Type} (P : Value → α → Prop) (x : Value) (o : Option α) : Prop :=
  (x = .null ∧ o = none) ∨ (x ≠ .null ∧ ∃ a, o = some a ∧ P x a)

/-- A field that may be `null`, or missing if the record is an object. -/
def Opt {α : Type} (P : Value → α → Prop) (v : Value) (i : ℕ) (name : String) (o : Option α) : Prop :=
  (∃ x, Given v i [name] x ∧ Nullable P x o) ∨ (NotGiven v i [name] ∧ (∃ l, v = .obj l) ∧ o = none)

/-- A record with at most `n` fields. -/
def Record (n : ℕ) (v : Value) : Prop := (∃ l, v = .obj l) ∨ ∃ es, v = .arr es ∧ es.length ≤ n

/-- A string of `2 * len` hexadecimal digits of any case, with or without `0x`, denotes its bytes. -/
def Bytes (len : ℕ) (v : Value) (b : List ℕ) : Prop :=
  ∃ s, v = .str false s ∧ b.length = len ∧ IsBytes b ∧
    (if s.take 2 = [48, 120] then s.drop 2 else s).map lower = bytesText b

/-- The text `s` is a numeral of `n` in base `r` (at most 16): an optional `+`, then digits of any case,
with underscores anywhere but at the start. Leading zeros are allowed. -/
def Numeral (r : ℕ) (s : Text) (n : ℕ) : Prop :=
  ∃ t, (s = t ∨ s = 43 :: t) ∧ t ≠ [] ∧ t.head? ≠ some 95 ∧
    ∃ ds : List ℕ, (∀ d ∈ ds, d < r) ∧ (t.filter (· ≠ 95)).map lower = ds.map hexDigit ∧
      n = Nat.ofDigits r ds.reverse

/-- A string that is a hexadecimal numeral, with or without `0x`; a lone `0x` is 0. -/
def HexNumber (v : Value) (n : ℕ) : Prop :=
  ∃ s, v = .str false s ∧
    (Numeral 16 s n ∨ (∃ t, s = 48 :: 120 :: t ∧ Numeral 16 t n) ∨ (s = [48, 120] ∧ n = 0))

/-- A string that is a binary numeral. -/
def BinNumber (v : Value) (n : ℕ) : Prop := ∃ s, v = .str false s ∧ Numeral 2 s n

/-- A JSON truth value. -/
def Truth (v : Value) (b : Bool) : Prop := v = .bool b

/-- The name of a kind of hash. -/
def Kind (v : Value) (t : HashType) : Prop :=
  ∃ name, v = .str false (txt name) ∧
    (name, t) ∈ [("empty", HashType.Empty), ("middle", .Middle), ("leafExt", .LeafExt),
      ("leafExtFinal", .LeafExtFinal), ("leaf", .Leaf)]

/-- A JSON integer of 64 bits. -/
def Number (v : Value) (n : ℕ) : Prop := v = .int n ∧ n < 2 ^ 64

/-- An array of two. -/
def Two {α : Type} (P : Value → α → Prop) (v : Value) (p : α × α) : Prop :=
  ∃ x y, v = .arr [x, y] ∧ P x p.1 ∧ P y p.2

/-- An array. -/
def Many {α : Type} (P : Value → α → Prop) (v : Value) (l : List α) : Prop :=
  ∃ es, v = .arr es ∧ List.Forall₂ P es l

/-- A node. -/
def Node (v : Value) (n : SMTNode) : Prop :=
  Record 3 v ∧ Req (Bytes 32) v 0 "value" n.value ∧ Req (Bytes 32) v 1 "sibling" n.sibling ∧
    Dflt 0 Number v 2 ["node_type"] n.nodeType

/-- A path. -/
def APath (v : Value) (p : Path) : Prop :=
  Record 4 v ∧ Req (Bytes 32) v 0 "root" p.root ∧ Opt Node v 1 "leaf" p.leaf ∧
    Dflt [] (Many Node) v 2 ["path"] p.path ∧ Req HexNumber v 3 "pathPart" p.pathPart

/-- An account. -/
def Account (v : Value) (a : AccountData) : Prop :=
  Record 5 v ∧ Req Number v 0 "nonce" a.nonce ∧ Req HexNumber v 1 "balance" a.balance ∧
    Dflt 0 HexNumber v 2 ["codeHash", "keccakCodeHash"] a.codeHash ∧
    Dflt 0 HexNumber v 3 ["poseidonCodeHash"] a.poseidonCodeHash ∧
    Dflt 0 Number v 4 ["codeSize"] a.codeSize

/-- A storage slot. -/
def Slot (v : Value) (s : StateData) : Prop :=
  Record 2 v ∧ Req (Bytes 32) v 0 "key" s.key ∧ Req (Bytes 32) v 1 "value" s.value

/-- A trace. -/
def ATrace (v : Value) (t : Trace) : Prop :=
  Record 8 v ∧ Req (Bytes 20) v 0 "address" t.address ∧ Req (Bytes 32) v 1 "accountKey" t.accountKey ∧
    Req (Two APath) v 2 "accountPath" t.accountPath ∧
    Req (Two (Nullable Account)) v 3 "accountUpdate" t.accountUpdate ∧
    Req (Two (Nullable APath)) v 4 "statePath" t.statePath ∧
    Opt (Bytes 32) v 5 "commonStateRoot" t.commonStateRoot ∧
    Opt (Bytes 32) v 6 "stateKey" t.stateKey ∧
    Opt (Two (Nullable Slot)) v 7 "stateUpdate" t.stateUpdate

/-- The name of a kind of claim, as a string (escaped or not), or as the only member of an object, with
`null`. -/
def ProofType (v : Value) (t : MPTProofType) : Prop :=
  ∃ name, (name, t) ∈ [("NonceChanged", MPTProofType.NonceChanged), ("BalanceChanged", .BalanceChanged),
      ("CodeHashExists", .CodeHashExists), ("PoseidonCodeHashExists", .PoseidonCodeHashExists),
      ("CodeSizeExists", .CodeSizeExists), ("AccountDoesNotExist", .AccountDoesNotExist),
      ("StorageChanged", .StorageChanged), ("StorageDoesNotExist", .StorageDoesNotExist),
      ("AccountDestructed", .AccountDestructed)] ∧
    ((∃ e, v = .str e (txt name)) ∨ v = .obj [(txt name, .null)])

/-- An update: a kind of claim and a trace. -/
def AnUpdate (v : Value) (u : MPTProofType × Trace) : Prop :=
  ∃ a b, v = .arr [a, b] ∧ ProofType a u.1 ∧ ATrace b u.2

/-- A row of a trie, in the format of the old table files. -/
def ARow (v : Value) (r : Row) : Prop :=
  Record 13 v ∧ Req Truth v 0 "is_first" r.isFirst ∧ Req (Bytes 32) v 1 "sib" r.sib ∧
    Req Number v 2 "depth" r.depth ∧ Req BinNumber v 3 "path" r.path ∧
    Req BinNumber v 4 "path_acc" r.pathAcc ∧ Req Kind v 5 "old_hash_type" r.oldHashType ∧
    Req (Bytes 32) v 6 "old_hash" r.oldHash ∧ Req (Bytes 32) v 7 "old_value" r.oldValue ∧
    Req Kind v 8 "new_hash_type" r.newHashType ∧ Req (Bytes 32) v 9 "new_hash" r.newHash ∧
    Req (Bytes 32) v 10 "new_value" r.newValue ∧ Req (Bytes 32) v 11 "key" r.key ∧
    Req (Bytes 32) v 12 "new_root" r.newRoot

end Mpt.Spec.JsonFormat
