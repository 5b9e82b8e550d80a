import Mathlib.Data.Nat.Digits.Lemmas
import Mathlib.Data.List.Basic
import Verif.Spec.Bytes

set_option autoImplicit false

/-!
# Model of /repo/src/serde.rs

Texts are the byte lists of Rust strings (`str::as_bytes`). The `serde`/`serde_json` machinery that
hands the text of a JSON string to these functions is not modelled. The external functions
`hex::encode`, `hex::decode_to_slice` (hex crate), `BigUint::parse_bytes`, `BigUint::to_str_radix`
(num-bigint crate) and the `{:0>width$}` formatter are modelled from their documentation.
-/

namespace Mpt.Serde

/-- A string, as the list of its bytes.
External (`hex`, `num-bigint`, `std`), used at /repo/src/serde.rs:47-108. -/
abbrev Text := List ℕ

/-- The prefix `"0x"`. External (`hex`, `num-bigint`, `std`), used at /repo/src/serde.rs:47-108. -/
def zeroX : Text := [48, 120]

/-- `hex::encode`'s table `"0123456789abcdef"`.
External (`hex`, `num-bigint`, `std`), used at /repo/src/serde.rs:47-55. -/
def hexChar (d : ℕ) : ℕ := if d < 10 then 48 + d else 87 + d

/-- `hex::encode`. External (`hex`, `num-bigint`, `std`), used at /repo/src/serde.rs:47-55. -/
def hexEncode (b : List ℕ) : Text := b.flatMap fun x : ℕ => [hexChar (x / 16), hexChar (x % 16)]

/-- `hex`'s `val`: the value of one hexadecimal digit of either case.
External (`hex`, `num-bigint`, `std`), used at /repo/src/serde.rs:266-273. -/
def hexVal (c : ℕ) : Option ℕ :=
  if 65 ≤ c ∧ c ≤ 70 then some (c - 55)
  else if 97 ≤ c ∧ c ≤ 102 then some (c - 87)
  else if 48 ≤ c ∧ c ≤ 57 then some (c - 48)
  else none

/-- The loop of `hex::decode_to_slice`: two digits per byte.
External (`hex`, `num-bigint`, `std`), used at /repo/src/serde.rs:266-273. -/
def hexPairs : Text → Option (List ℕ)
  | [] => some []
  | [_] => none
  | a :: b :: rest => do
    let x ← hexVal a
    let y ← hexVal b
    let r ← hexPairs rest
    pure ((x * 16 + y) :: r)

/-- `hex::decode_to_slice` into a slice of `len` bytes (`none` = `Err`).
External (`hex`, `num-bigint`, `std`), used at /repo/src/serde.rs:57-66. -/
def decodeToSlice (len : ℕ) (t : Text) : Option (List ℕ) :=
  if t.length % 2 ≠ 0 then none
  else if t.length / 2 ≠ len then none
  else hexPairs t

/-- `format!("{:0>width$}", s)`: pad with `'0'` on the left.
External (`hex`, `num-bigint`, `std`), used at /repo/src/serde.rs:84-90. -/
def padLeft (width : ℕ) (s : Text) : Text := List.replicate (width - s.length) 48 ++ s

/-- `impl Serialize for HexBytes`, /repo/src/serde.rs:47-55 (also `Debug`/`Display`, 214-224). -/
def serializeHex (len : ℕ) (b : List ℕ) : Text := zeroX ++ padLeft (len * 2) (hexEncode b)

/-- `str::starts_with("0x")`. External (`hex`, `num-bigint`, `std`), used at /repo/src/serde.rs:92-108. -/
def startsZeroX (t : Text) : Bool := zeroX.isPrefixOf t

/-- `TryFrom<&str> for HexBytes` and `Deserialize`, /repo/src/serde.rs:57-66, 238-253
(`none` = `Err`). -/
def deserializeHex (len : ℕ) (t : Text) : Option (List ℕ) :=
  if startsZeroX t then decodeToSlice len (t.drop 2) else decodeToSlice len t

/-- `HexBytes::cast`, /repo/src/serde.rs:198-205: overwrite the first bytes of a zero array. -/
def cast (lnew : ℕ) (b : List ℕ) : List ℕ :=
  (b.zip (List.replicate lnew 0)).map Prod.fst ++ List.replicate (lnew - b.length) 0

/-- `BigUint::to_str_radix(16)`: lower-case digits, most significant first; `"0"` for 0.
External (`hex`, `num-bigint`, `std`), used at /repo/src/serde.rs:76-90. -/
def toHex (n : ℕ) : Text :=
  if n = 0 then [48] else ((Nat.digits 16 n).reverse).map hexChar

/-- Digit values in `BigUint::from_str_radix`: `0-9`, `a-z`, `A-Z`.
External (`hex`, `num-bigint`, `std`), used at /repo/src/serde.rs:92-108. -/
def radixVal (c : ℕ) : Option ℕ :=
  if 48 ≤ c ∧ c ≤ 57 then some (c - 48)
  else if 97 ≤ c ∧ c ≤ 122 then some (c - 97 + 10)
  else if 65 ≤ c ∧ c ≤ 90 then some (c - 65 + 10)
  else none

/-- The digit loop of `BigUint::from_str_radix`: underscores are skipped.
External (`hex`, `num-bigint`, `std`), used at /repo/src/serde.rs:92-108. -/
def radixDigits (radix : ℕ) : Text → Option (List ℕ)
  | [] => some []
  | c :: rest =>
    if c = 95 then radixDigits radix rest
    else do
      let d ← radixVal c
      if d < radix then do
        let r ← radixDigits radix rest
        pure (d :: r)
      else none

/-- `BigUint::parse_bytes` / `from_str_radix`: an optional leading `+` (not followed by another),
not empty, no leading underscore. External (`hex`, `num-bigint`, `std`), used at /repo/src/serde.rs:92-108. -/
def parseBytes (radix : ℕ) (t : Text) : Option ℕ :=
  let s := match t with
    | 43 :: tail => if tail.head? = some 43 then t else tail
    | _ => t
  if s = [] then none
  else if s.head? = some 95 then none
  else (radixDigits radix s).map fun ds => Nat.ofDigits radix ds.reverse

/-- `se_uint_hex`, /repo/src/serde.rs:76-82. -/
def seUintHex (n : ℕ) : Text := zeroX ++ toHex n
/-- `se_uint_hex_fixed32`, /repo/src/serde.rs:84-90. -/
def seUintHexFixed32 (n : ℕ) : Text := zeroX ++ padLeft 64 (toHex n)
/-- `de_uint_hex`, /repo/src/serde.rs:92-108 (`none` = `Err`). -/
def deUintHex (t : Text) : Option ℕ :=
  if startsZeroX t then
    if t.length = 2 then some 0 else parseBytes 16 (t.drop 2)
  else parseBytes 16 t
/-- `de_uint_bin`, /repo/src/serde.rs:68-74. -/
def deUintBin (t : Text) : Option ℕ := parseBytes 2 t

/-- The loop of `Row::fold_flattern_rows`, /repo/src/serde.rs:162-179; `current` is the group being
collected and `out` the groups already finished. -/
def foldLoop {R : Type} (isFirst : R → Bool) (out : List (List R)) (current : List R) :
    List R → List (List R)
  | [] => if current.isEmpty then out else out ++ [current]
  | row :: rows =>
    if isFirst row && !current.isEmpty then foldLoop isFirst (out ++ [current]) [row] rows
    else foldLoop isFirst out (current ++ [row]) rows

/-- `Row::fold_flattern_rows`, /repo/src/serde.rs:162-179; `isFirst` reads the row's `is_first`
flag, the other fields are never looked at. -/
def foldFlatternRows {R : Type} (isFirst : R → Bool) (rows : List R) : List (List R) :=
  foldLoop isFirst [] [] rows

end Mpt.Serde
