import Verif.Types.Serde
import Verif.Types.Claim

set_option autoImplicit false

/-!
# Reading and writing traces as JSON (/repo/src/serde.rs)

`SMTTrace` and the records in it derive `Serialize` and `Deserialize`; `Row` derives `Deserialize`. The
derived code follows the attributes in /repo/src/serde.rs (names, `default`, `alias`,
`skip_serializing_if`, `deserialize_with`); here it is written out. `serde_json::from_str` and
`to_string` are external: `parse` and `print` model the JSON grammar they implement.

Simplifications: a string with an escape sequence is kept with the escapes in place (the code only ever
borrows strings, which fails for such a string, so only keys of unknown members are affected);
numbers with a fraction or an exponent are kept without their value (no field has such a type);
white space in `str::trim` is restricted to ASCII.
-/

namespace Mpt.Types.Json
open Mpt Types Serde

/-- The bytes of an ASCII string (how a `&str` literal of /repo/src/serde.rs:35-43 is compared). -/
def txt (s : String) : Text := s.toList.map Char.toNat

/-- A JSON value as seen by serde, external (`serde_json`), used at /repo/src/serde.rs:156-158. Strings
remember whether they contained an escape sequence (`serde_json` can then not lend them out as `&'de str`). -/
inductive Value
  | null
  | bool (b : Bool)
  | int (n : ℤ)
  | float
  | str (escaped : Bool) (s : Text)
  | arr (l : List Value)
  | obj (l : List (Text × Value))

/-! ### Deserialising -/

/-- `<&'de str>::deserialize`, used at /repo/src/serde.rs:33, 62, 72, 96: only a string that can be
borrowed from the input. -/
def deStr : Value → Option Text
  | .str false s => some s
  | _ => none

/-- `Deserialize for HexBytes<LEN>`, /repo/src/serde.rs:57-66. -/
def deHex (len : ℕ) (j : Value) : Option (List ℕ) := (deStr j).bind (deserializeHex len)

/-- `de_uint_hex`, /repo/src/serde.rs:92-108. -/
def deHexInt (j : Value) : Option ℕ := (deStr j).bind deUintHex

/-- `de_uint_bin`, /repo/src/serde.rs:68-74. -/
def deBinInt (j : Value) : Option ℕ := (deStr j).bind deUintBin

/-- `u64::deserialize` (and `usize`), used at /repo/src/serde.rs:128, 270, 294, 315. -/
def deU64 : Value → Option ℕ
  | .int n => if 0 ≤ n ∧ n < 2 ^ 64 then some n.toNat else none
  | _ => none

/-- `bool::deserialize`, used at /repo/src/serde.rs:124. -/
def deBool : Value → Option Bool
  | .bool b => some b
  | _ => none

/-- `Option::deserialize`, used at /repo/src/serde.rs:279, 337-349. -/
def deOption {α : Type} (d : Value → Option α) : Value → Option (Option α)
  | .null => some none
  | j => (d j).map some

/-- `Vec::deserialize`, used at /repo/src/serde.rs:282. -/
def deVec {α : Type} (d : Value → Option α) : Value → Option (List α)
  | .arr l => l.mapM d
  | _ => none

/-- `<[T; 2]>::deserialize`, used at /repo/src/serde.rs:335-339, 349. -/
def dePair {α : Type} (d : Value → Option α) : Value → Option (α × α)
  | .arr [a, b] => (d a).bind fun x => (d b).map fun y => (x, y)
  | _ => none

/-- The members of an object that belong to a field with these names (the name and its aliases): the
derived `visit_map` of the records at /repo/src/serde.rs:261-350 reads one, and fails on a second. The
outer `none` is failure, the inner one is absence. -/
def member (names : List Text) (l : List (Text × Value)) : Option (Option Value) :=
  match l.filter fun m => names.contains m.1 with
  | [] => some none
  | [m] => some (some m.2)
  | _ => none

/-- The value of a field: by name in an object (`visit_map`), by position in an array (`visit_seq`), for
the records at /repo/src/serde.rs:121-152, 261-350. -/
def field (j : Value) (pos : ℕ) (names : List Text) : Option (Option Value) :=
  match j with
  | .obj l => member names l
  | .arr l => some l[pos]?
  | _ => none

/-- A field without attributes or with `deserialize_with` only, e.g. /repo/src/serde.rs:286-287. -/
def required {α : Type} (d : Value → Option α) (j : Value) (pos : ℕ) (name : String) : Option α :=
  (field j pos [txt name]).bind fun v => v.bind d

/-- A field with `#[serde(default)]` and aliases, e.g. /repo/src/serde.rs:299-305. -/
def defaulted {α : Type} (dflt : α) (d : Value → Option α) (j : Value) (pos : ℕ) (names : List String) :
    Option α :=
  (field j pos (names.map txt)).bind fun v => match v with
    | none => some dflt
    | some v => d v

/-- A field of type `Option` without `default`, /repo/src/serde.rs:278-279, 340-349: in an object it may
be left out. -/
def optional {α : Type} (d : Value → Option α) (j : Value) (pos : ℕ) (name : String) :
    Option (Option α) :=
  (field j pos [txt name]).bind fun v => match v, j with
    | none, .obj _ => some none
    | none, _ => none
    | some v, _ => deOption d v

/-- A derived record with `n` fields is read from an object or from an array with at most `n` elements
(/repo/src/serde.rs:121-152, 261-350). -/
def shaped (n : ℕ) : Value → Bool
  | .obj _ => true
  | .arr l => l.length ≤ n
  | _ => false

/-- `SMTNode`, /repo/src/serde.rs:260-271. -/
def deNode (j : Value) : Option SMTNode :=
  if shaped 3 j then do
    let value ← required (deHex 32) j 0 "value"
    let sibling ← required (deHex 32) j 1 "sibling"
    let nodeType ← defaulted 0 deU64 j 2 ["node_type"]
    some ⟨value, sibling, nodeType⟩
  else none

/-- `SMTPath`, /repo/src/serde.rs:273-288, with `path_part`, which the rest of the code does not read. -/
structure Path where
  root : List ℕ
  leaf : Option SMTNode
  path : List SMTNode
  pathPart : ℕ
  deriving DecidableEq

/-- `SMTPath`, /repo/src/serde.rs:273-288. -/
def dePath (j : Value) : Option Path :=
  if shaped 4 j then do
    let root ← required (deHex 32) j 0 "root"
    let leaf ← optional deNode j 1 "leaf"
    let path ← defaulted [] (deVec deNode) j 2 ["path"]
    let pathPart ← required deHexInt j 3 "pathPart"
    some ⟨root, leaf, path, pathPart⟩
  else none

/-- `AccountData`, /repo/src/serde.rs:290-316. -/
def deAccount (j : Value) : Option AccountData :=
  if shaped 5 j then do
    let nonce ← required deU64 j 0 "nonce"
    let balance ← required deHexInt j 1 "balance"
    let codeHash ← defaulted 0 deHexInt j 2 ["codeHash", "keccakCodeHash"]
    let poseidonCodeHash ← defaulted 0 deHexInt j 3 ["poseidonCodeHash"]
    let codeSize ← defaulted 0 deU64 j 4 ["codeSize"]
    some ⟨nonce, balance, codeHash, poseidonCodeHash, codeSize⟩
  else none

/-- `StateData`, /repo/src/serde.rs:319-325. -/
def deState (j : Value) : Option StateData :=
  if shaped 2 j then do
    let key ← required (deHex 32) j 0 "key"
    let value ← required (deHex 32) j 1 "value"
    some ⟨key, value⟩
  else none

/-- `SMTTrace`, /repo/src/serde.rs:328-350, with all fields. -/
structure Trace where
  address : List ℕ
  accountKey : List ℕ
  accountPath : Path × Path
  accountUpdate : Option AccountData × Option AccountData
  statePath : Option Path × Option Path
  commonStateRoot : Option (List ℕ)
  stateKey : Option (List ℕ)
  stateUpdate : Option (Option StateData × Option StateData)
  deriving DecidableEq

/-- `SMTTrace`, /repo/src/serde.rs:328-350. -/
def deTrace (j : Value) : Option Trace :=
  if shaped 8 j then do
    let address ← required (deHex 20) j 0 "address"
    let accountKey ← required (deHex 32) j 1 "accountKey"
    let accountPath ← required (dePair dePath) j 2 "accountPath"
    let accountUpdate ← required (dePair (deOption deAccount)) j 3 "accountUpdate"
    let statePath ← required (dePair (deOption dePath)) j 4 "statePath"
    let commonStateRoot ← optional (deHex 32) j 5 "commonStateRoot"
    let stateKey ← optional (deHex 32) j 6 "stateKey"
    let stateUpdate ← optional (dePair (deOption deState)) j 7 "stateUpdate"
    some ⟨address, accountKey, accountPath, accountUpdate, statePath, commonStateRoot, stateKey,
      stateUpdate⟩
  else none

/-- The names of the variants of `MPTProofType` in JSON, /repo/src/mpt_table.rs:9-28. -/
def proofTypeName : MPTProofType → String
  | .NonceChanged => "NonceChanged"
  | .BalanceChanged => "BalanceChanged"
  | .CodeHashExists => "CodeHashExists"
  | .PoseidonCodeHashExists => "PoseidonCodeHashExists"
  | .CodeSizeExists => "CodeSizeExists"
  | .AccountDoesNotExist => "AccountDoesNotExist"
  | .StorageChanged => "StorageChanged"
  | .StorageDoesNotExist => "StorageDoesNotExist"
  | .AccountDestructed => "AccountDestructed"

/-- A variant of `MPTProofType` from its name, /repo/src/mpt_table.rs:6-28. -/
def proofTypeOf (s : Text) : Option MPTProofType :=
  MPTProofType.iter.find? fun t => s = txt (proofTypeName t)

/-- `Deserialize for MPTProofType` (derived), /repo/src/mpt_table.rs:6-28: the name, or an object with
the name as its only member and the value `null`. -/
def deProofType : Value → Option MPTProofType
  | .str _ s => proofTypeOf s
  | .obj [(k, .null)] => proofTypeOf k
  | _ => none

/-- An update `(MPTProofType, SMTTrace)`, as read at /repo/src/tests.rs:1022-1027. -/
def deUpdate : Value → Option (MPTProofType × Trace)
  | .arr [a, b] => (deProofType a).bind fun x => (deTrace b).map fun y => (x, y)
  | _ => none

/-- `HashType`, /repo/src/serde.rs:11-26. -/
inductive HashType
  | Start | Empty | Middle | LeafExt | LeafExtFinal | Leaf
  deriving DecidableEq

/-- `Deserialize for HashType`, /repo/src/serde.rs:28-45. -/
def deHashType (j : Value) : Option HashType :=
  (deStr j).bind fun s =>
    if s = txt "empty" then some .Empty
    else if s = txt "middle" then some .Middle
    else if s = txt "leafExt" then some .LeafExt
    else if s = txt "leafExtFinal" then some .LeafExtFinal
    else if s = txt "leaf" then some .Leaf
    else none

/-- `Row`, /repo/src/serde.rs:121-152. -/
structure Row where
  isFirst : Bool
  sib : List ℕ
  depth : ℕ
  path : ℕ
  pathAcc : ℕ
  oldHashType : HashType
  oldHash : List ℕ
  oldValue : List ℕ
  newHashType : HashType
  newHash : List ℕ
  newValue : List ℕ
  key : List ℕ
  newRoot : List ℕ
  deriving DecidableEq

/-- `Row`, /repo/src/serde.rs:121-152. -/
def deRow (j : Value) : Option Row :=
  if shaped 13 j then do
    let isFirst ← required deBool j 0 "is_first"
    let sib ← required (deHex 32) j 1 "sib"
    let depth ← required deU64 j 2 "depth"
    let path ← required deBinInt j 3 "path"
    let pathAcc ← required deBinInt j 4 "path_acc"
    let oldHashType ← required deHashType j 5 "old_hash_type"
    let oldHash ← required (deHex 32) j 6 "old_hash"
    let oldValue ← required (deHex 32) j 7 "old_value"
    let newHashType ← required deHashType j 8 "new_hash_type"
    let newHash ← required (deHex 32) j 9 "new_hash"
    let newValue ← required (deHex 32) j 10 "new_value"
    let key ← required (deHex 32) j 11 "key"
    let newRoot ← required (deHex 32) j 12 "new_root"
    some ⟨isFirst, sib, depth, path, pathAcc, oldHashType, oldHash, oldValue, newHashType, newHash,
      newValue, key, newRoot⟩
  else none

/-! ### Serialising -/

/-- A string produced by `serialize_str`, /repo/src/serde.rs:47-55, 76-90: it has no character that needs
an escape. -/
def seStr (s : Text) : Value := .str false s

/-- `Serialize for Option` (a field that is not skipped), /repo/src/serde.rs:337-339. -/
def seOption {α : Type} (s : α → Value) : Option α → Value
  | none => .null
  | some a => s a

/-- `Serialize for [T; 2]`, /repo/src/serde.rs:335-339, 349. -/
def sePair {α : Type} (s : α → Value) (p : α × α) : Value := .arr [s p.1, s p.2]

/-- A field with `skip_serializing_if = "Option::is_none"`, /repo/src/serde.rs:278, 340-348. -/
def seSkip {α : Type} (name : String) (s : α → Value) : Option α → List (Text × Value)
  | none => []
  | some a => [(txt name, s a)]

/-- `SMTNode`, /repo/src/serde.rs:260-271. -/
def seNode (n : SMTNode) : Value :=
  .obj [(txt "value", seStr (serializeHex 32 n.value)),
    (txt "sibling", seStr (serializeHex 32 n.sibling)), (txt "node_type", .int n.nodeType)]

/-- `SMTPath`, /repo/src/serde.rs:273-288; `path` is skipped when empty. -/
def sePath (p : Path) : Value :=
  .obj ([(txt "root", seStr (serializeHex 32 p.root))] ++ seSkip "leaf" seNode p.leaf ++
    (if p.path.isEmpty then [] else [(txt "path", .arr (p.path.map seNode))]) ++
    [(txt "pathPart", seStr (seUintHex p.pathPart))])

/-- `AccountData`, /repo/src/serde.rs:290-316. -/
def seAccount (a : AccountData) : Value :=
  .obj [(txt "nonce", .int a.nonce), (txt "balance", seStr (seUintHex a.balance)),
    (txt "codeHash", seStr (seUintHexFixed32 a.codeHash)),
    (txt "poseidonCodeHash", seStr (seUintHexFixed32 a.poseidonCodeHash)),
    (txt "codeSize", .int a.codeSize)]

/-- `StateData`, /repo/src/serde.rs:319-325. -/
def seState (s : StateData) : Value :=
  .obj [(txt "key", seStr (serializeHex 32 s.key)), (txt "value", seStr (serializeHex 32 s.value))]

/-- `SMTTrace`, /repo/src/serde.rs:328-350. -/
def seTrace (t : Trace) : Value :=
  .obj ([(txt "address", seStr (serializeHex 20 t.address)),
      (txt "accountKey", seStr (serializeHex 32 t.accountKey)),
      (txt "accountPath", sePair sePath t.accountPath),
      (txt "accountUpdate", sePair (seOption seAccount) t.accountUpdate),
      (txt "statePath", sePair (seOption sePath) t.statePath)] ++
    seSkip "commonStateRoot" (fun h => seStr (serializeHex 32 h)) t.commonStateRoot ++
    seSkip "stateKey" (fun h => seStr (serializeHex 32 h)) t.stateKey ++
    seSkip "stateUpdate" (sePair (seOption seState)) t.stateUpdate)

/-- `Serialize for MPTProofType` (derived), /repo/src/mpt_table.rs:6-28. -/
def seProofType (t : MPTProofType) : Value := seStr (txt (proofTypeName t))

/-- An update `(MPTProofType, SMTTrace)`. -/
def seUpdate (u : MPTProofType × Trace) : Value := .arr [seProofType u.1, seTrace u.2]

/-! ### Text -/

/-- JSON white space, external (`serde_json`), used at /repo/src/serde.rs:156-158. -/
def isWs (c : ℕ) : Bool := c == 32 || c == 10 || c == 9 || c == 13

/-- Skip white space, external (`serde_json`), used at /repo/src/serde.rs:156-158. -/
def skipWs : Text → Text
  | [] => []
  | c :: r => if isWs c then skipWs r else c :: r

/-- The text of a string up to the closing quote, with a mark when there is an escape sequence, external
(`serde_json`), used at /repo/src/serde.rs:156-158. Control characters are rejected. -/
def pString : Text → Option (Bool × Text × Text)
  | [] => none
  | c :: r =>
    if c = 34 then some (false, [], r)
    else if c = 92 then
      match r with
      | [] => none
      | e :: r' =>
        if [34, 92, 47, 98, 102, 110, 114, 116].contains e then
          (pString r').map fun x => (true, c :: e :: x.2.1, x.2.2)
        else if e = 117 then
          match r' with
          | a :: b :: d :: g :: r'' =>
            if ((hexVal a).isSome && (hexVal b).isSome && (hexVal d).isSome && (hexVal g).isSome) then
              (pString r'').map fun x => (true, c :: e :: a :: b :: d :: g :: x.2.1, x.2.2)
            else none
          | _ => none
        else none
    else if c < 32 then none
    else (pString r).map fun x => (x.1, c :: x.2.1, x.2.2)

/-- Decimal digits, external (`serde_json`), used at /repo/src/serde.rs:156-158. -/
def isDigit (c : ℕ) : Bool := 48 ≤ c && c ≤ 57

/-- The digits at the start of a text, and the rest; external (`serde_json`), used at
/repo/src/serde.rs:156-158. -/
def digits : Text → Text × Text
  | [] => ([], [])
  | c :: r => if isDigit c then let x := digits r; (c :: x.1, x.2) else ([], c :: r)

/-- The number written by decimal digits, external (`serde_json`), used at /repo/src/serde.rs:156-158. -/
def ofDigits (t : Text) : ℕ := t.foldl (fun n c => 10 * n + (c - 48)) 0

/-- An exponent, if there is one: `none` is a malformed one, otherwise whether it was present and the
rest. External (`serde_json`), used at /repo/src/serde.rs:156-158. -/
def pExponent : Text → Option (Bool × Text)
  | [] => some (false, [])
  | c :: r =>
    if c = 101 ∨ c = 69 then
      let r' := match r with
        | s :: r' => if s = 43 ∨ s = 45 then r' else r
        | [] => []
      if (digits r').1.isEmpty then none else some (true, (digits r').2)
    else some (false, c :: r)

/-- The part of a number after the integer digits; `true` when there is a fraction or an exponent.
External (`serde_json`), used at /repo/src/serde.rs:156-158. -/
def pFraction : Text → Option (Bool × Text)
  | [] => some (false, [])
  | c :: r =>
    if c = 46 then
      if (digits r).1.isEmpty then none else (pExponent (digits r).2).map fun x => (true, x.2)
    else pExponent (c :: r)

/-- A number after its sign: no leading zeros; `-0` is a float for `serde_json`. External
(`serde_json`), used at /repo/src/serde.rs:156-158. -/
def pNumber (negative : Bool) (t : Text) : Option (Value × Text) :=
  let d := digits t
  if d.1.isEmpty then none
  else if d.1.head? = some 48 ∧ d.1.length ≠ 1 then none
  else (pFraction d.2).map fun x =>
    (if x.1 then .float
      else if negative then (if ofDigits d.1 = 0 then .float else .int (-(ofDigits d.1 : ℤ)))
      else .int (ofDigits d.1), x.2)

/-- A fixed word (`null`, `true`, `false`) is read off the text; external (`serde_json`), used at
/repo/src/serde.rs:156-158. -/
def pWord (w : Text) (v : Value) (t : Text) : Option (Value × Text) :=
  if t.take w.length = w then some (v, t.drop w.length) else none

mutual

/-- A JSON value at the start of a text, external (`serde_json`), used at /repo/src/serde.rs:156-158. The
first argument bounds the recursion; `parse` gives it the length of the text. -/
def pValue : ℕ → Text → Option (Value × Text)
  | 0, _ => none
  | n + 1, t =>
    match skipWs t with
    | [] => none
    | c :: r =>
      if c = 34 then (pString r).map fun x => (.str x.1 x.2.1, x.2.2)
      else if c = 91 then
        match skipWs r with
        | [] => none
        | c' :: r' => if c' = 93 then some (.arr [], r')
          else (pElements n (c' :: r')).map fun x => (.arr x.1, x.2)
      else if c = 123 then
        match skipWs r with
        | [] => none
        | c' :: r' => if c' = 125 then some (.obj [], r')
          else (pMembers n (c' :: r')).map fun x => (.obj x.1, x.2)
      else if c = 110 then pWord (txt "null") .null (c :: r)
      else if c = 116 then pWord (txt "true") (.bool true) (c :: r)
      else if c = 102 then pWord (txt "false") (.bool false) (c :: r)
      else if c = 45 then pNumber true r
      else pNumber false (c :: r)

/-- One or more array elements and the closing bracket, external (`serde_json`), used at
/repo/src/serde.rs:156-158. -/
def pElements : ℕ → Text → Option (List Value × Text)
  | 0, _ => none
  | n + 1, t =>
    (pValue n t).bind fun x =>
      match skipWs x.2 with
      | [] => none
      | c :: r =>
        if c = 93 then some ([x.1], r)
        else if c = 44 then (pElements n r).map fun y => (x.1 :: y.1, y.2)
        else none

/-- One or more members and the closing brace, external (`serde_json`), used at
/repo/src/serde.rs:156-158. -/
def pMembers : ℕ → Text → Option (List (Text × Value) × Text)
  | 0, _ => none
  | n + 1, t =>
    match skipWs t with
    | [] => none
    | c :: r =>
      if c = 34 then
        (pString r).bind fun k =>
          match skipWs k.2.2 with
          | [] => none
          | c' :: r' =>
            if c' = 58 then
              (pValue n r').bind fun x =>
                match skipWs x.2 with
                | [] => none
                | c'' :: r'' =>
                  if c'' = 125 then some ([(k.2.1, x.1)], r'')
                  else if c'' = 44 then (pMembers n r'').map fun y => ((k.2.1, x.1) :: y.1, y.2)
                  else none
            else none
      else none

end

/-- `serde_json::from_str` up to the value: nothing but white space may follow. External, used at
/repo/src/serde.rs:156-158. -/
def parse (t : Text) : Option Value :=
  (pValue (2 * t.length + 1) t).bind fun x => if (skipWs x.2).isEmpty then some x.1 else none

/-- Decimal digits of a number, external (`serde_json::to_string`); no use in /repo/src, it is what
writing an `SMTTrace` (serde.rs:328) produces. -/
def printNat (n : ℕ) : Text := if n = 0 then [48] else ((Nat.digits 10 n).map (48 + ·)).reverse

mutual

/-- `serde_json::to_string` and `to_string_pretty`, external, used at /repo/src/tests.rs:602; it is what
writing an `SMTTrace` (/repo/src/serde.rs:328) produces. `nl d` is written before an element at depth `d`
and `sp` after a colon: nothing for `to_string`, a line break with two spaces per level and one space for
`to_string_pretty`. The code writes no floats, and no strings that need escapes. -/
def printWith (nl : ℕ → Text) (sp : Text) (d : ℕ) : Value → Text
  | .null => txt "null"
  | .bool true => txt "true"
  | .bool false => txt "false"
  | .int n => (if n < 0 then [45] else []) ++ printNat n.natAbs
  | .float => txt "0.5"
  | .str _ s => 34 :: (s ++ [34])
  | .arr [] => [91, 93]
  | .arr (v :: l) => 91 :: (nl (d + 1) ++ printElements nl sp (d + 1) (v :: l) ++ nl d ++ [93])
  | .obj [] => [123, 125]
  | .obj (m :: l) => 123 :: (nl (d + 1) ++ printMembers nl sp (d + 1) (m :: l) ++ nl d ++ [125])

/-- Array elements with commas between them, external (`serde_json`), for /repo/src/serde.rs:328. -/
def printElements (nl : ℕ → Text) (sp : Text) (d : ℕ) : List Value → Text
  | [] => []
  | [v] => printWith nl sp d v
  | v :: w :: l => printWith nl sp d v ++ 44 :: (nl d ++ printElements nl sp d (w :: l))

/-- Members with commas between them, external (`serde_json`), for /repo/src/serde.rs:328. -/
def printMembers (nl : ℕ → Text) (sp : Text) (d : ℕ) : List (Text × Value) → Text
  | [] => []
  | [(k, v)] => 34 :: (k ++ 34 :: 58 :: (sp ++ printWith nl sp d v))
  | (k, v) :: m :: l =>
    34 :: (k ++ 34 :: 58 :: (sp ++ printWith nl sp d v ++ 44 :: (nl d ++ printMembers nl sp d (m :: l))))

end

/-- `serde_json::to_string`, external, for /repo/src/serde.rs:328. -/
def print (v : Value) : Text := printWith (fun _ => []) [] 0 v

/-- `serde_json::to_string_pretty`, external, used at /repo/src/tests.rs:602. -/
def printPretty (v : Value) : Text := printWith (fun d => 10 :: List.replicate (2 * d) 32) [32] 0 v

/-- `serde_json::from_str::<SMTTrace>`, used at /repo/src/tests.rs:120. -/
def traceFromStr (t : Text) : Option Trace := (parse t).bind deTrace

/-- `serde_json::to_string` of an `SMTTrace` (/repo/src/serde.rs:328). -/
def traceToString (t : Trace) : Text := print (seTrace t)

/-- `serde_json::to_string_pretty` of an `SMTTrace`, used at /repo/src/tests.rs:602. -/
def traceToStringPretty (t : Trace) : Text := printPretty (seTrace t)

/-- `serde_json::from_str::<Vec<(MPTProofType, SMTTrace)>>`, as in /repo/src/tests.rs:1022-1027. -/
def updatesFromStr (t : Text) : Option (List (MPTProofType × Trace)) := (parse t).bind (deVec deUpdate)

/-- `serde_json::to_string` of a `Vec<(MPTProofType, SMTTrace)>`. -/
def updatesToString (us : List (MPTProofType × Trace)) : Text := print (.arr (us.map seUpdate))

/-- `str::trim` on ASCII text, used at /repo/src/serde.rs:157. -/
def trim (t : Text) : Text :=
  let ws := fun c : ℕ => c == 32 || (9 ≤ c && c ≤ 13)
  ((t.dropWhile ws).reverse.dropWhile ws).reverse

/-- `str::split('\n')`, used at /repo/src/serde.rs:157. -/
def splitLines : Text → List Text
  | [] => [[]]
  | c :: r =>
    if c = 10 then [] :: splitLines r
    else match splitLines r with
      | [] => [[c]]
      | l :: ls => (c :: l) :: ls

/-- `Row::from_lines`, /repo/src/serde.rs:155-158. -/
def rowsFromLines (t : Text) : Option (List Row) :=
  (splitLines (trim t)).mapM fun l => (parse l).bind deRow

/-- The part of a path that the rest of the code reads (`path_part`, /repo/src/serde.rs:287, is not
used). -/
def Path.used (p : Path) : SMTPath := ⟨p.root, p.leaf, p.path⟩

/-- The part of a trace that the rest of the code reads (`path_part`, /repo/src/serde.rs:287, is not
used). -/
def Trace.used (t : Trace) : SMTTrace :=
  ⟨t.address, t.accountKey, (t.accountPath.1.used, t.accountPath.2.used), t.accountUpdate,
    (t.statePath.1.map Path.used, t.statePath.2.map Path.used), t.commonStateRoot, t.stateKey,
    t.stateUpdate⟩

end Mpt.Types.Json
