import Verif.Types.Json

set_option autoImplicit false

/-!
# Specification: the grammar of JSON texts

RFC 8259, as relations between a text and the value it denotes. A number with a fraction or an exponent, and `-0`,
denote a float, whose value is not kept (no field of a trace holds one); a string keeps its text with the escape
sequences as they are written, and a mark if there is one.
-/

namespace Mpt.Spec.JsonGrammar
open Mpt Types Serde Json

/-- White space: blanks, tabs, line feeds, carriage returns. -/
def Ws (t : Text) : Prop := ∀ c ∈ t, c ∈ [32, 9, 10, 13]

/-- Decimal digits. -/
def Digits (t : Text) : Prop := ∀ c ∈ t, 48 ≤ c ∧ c ≤ 57

/-- A hexadecimal digit of any case. -/
def HexDigit (c : ℕ) : Prop := (48 ≤ c ∧ c ≤ 57) ∨ (65 ≤ c ∧ c ≤ 70) ∨ (97 ≤ c ∧ c ≤ 102)

/-- What may stand between quotes; the mark says whether there is an escape sequence. -/
inductive Chars : Bool → Text → Prop
  | nil : Chars false []
  | plain {e : Bool} {s : Text} (c : ℕ) : 32 ≤ c → c ≠ 34 → c ≠ 92 → Chars e s → Chars e (c :: s)
  | short {e : Bool} {s : Text} (c : ℕ) : c ∈ [34, 92, 47, 98, 102, 110, 114, 116] → Chars e s →
      Chars true (92 :: c :: s)
  | unicode {e : Bool} {s : Text} (a b c d : ℕ) : HexDigit a → HexDigit b → HexDigit c → HexDigit d → Chars e s →
      Chars true (92 :: 117 :: a :: b :: c :: d :: s)

/-- The integer part of a number: no leading zeros. -/
def IntPart (s : Text) (n : ℕ) : Prop :=
  s ≠ [] ∧ Digits s ∧ (s.head? = some 48 → s = [48]) ∧ n = Nat.ofDigits 10 (s.map (· - 48)).reverse

/-- A fraction. -/
def Fraction (f : Text) : Prop := ∃ ds, f = 46 :: ds ∧ ds ≠ [] ∧ Digits ds

/-- An exponent. -/
def Exponent (e : Text) : Prop :=
  ∃ c sign ds, e = c :: (sign ++ ds) ∧ (c = 101 ∨ c = 69) ∧ (sign = [] ∨ sign = [43] ∨ sign = [45]) ∧ ds ≠ [] ∧ Digits ds

/-- A number. -/
inductive Number : Text → Value → Prop
  | nat {s : Text} {n : ℕ} : IntPart s n → Number s (.int n)
  | neg {s : Text} {n : ℕ} : IntPart s n → n ≠ 0 → Number (45 :: s) (.int (-n))
  | negZero : Number [45, 48] .float
  | real {sign s f e : Text} {n : ℕ} : (sign = [] ∨ sign = [45]) → IntPart s n → (f = [] ∨ Fraction f) →
      (e = [] ∨ Exponent e) → (f ≠ [] ∨ e ≠ []) → Number (sign ++ (s ++ (f ++ e))) .float

mutual

/-- The text of a value, without white space around it. -/
inductive IsValue : Text → Value → Prop
  | null : IsValue (txt "null") .null
  | true : IsValue (txt "true") (.bool Bool.true)
  | false : IsValue (txt "false") (.bool Bool.false)
  | number {t : Text} {v : Value} : Number t v → IsValue t v
  | string {e : Bool} {s : Text} : Chars e s → IsValue (34 :: (s ++ [34])) (.str e s)
  | emptyArray {w : Text} : Ws w → IsValue (91 :: (w ++ [93])) (.arr [])
  | array {t : Text} {l : List Value} : IsElements t l → IsValue (91 :: (t ++ [93])) (.arr l)
  | emptyObject {w : Text} : Ws w → IsValue (123 :: (w ++ [125])) (.obj [])
  | object {t : Text} {l : List (Text × Value)} : IsMembers t l → IsValue (123 :: (t ++ [125])) (.obj l)

/-- One or more values with commas between them and white space around them. -/
inductive IsElements : Text → List Value → Prop
  | one {a t b : Text} {v : Value} : Ws a → IsValue t v → Ws b → IsElements (a ++ (t ++ b)) [v]
  | more {a t b s : Text} {v : Value} {l : List Value} : Ws a → IsValue t v → Ws b → IsElements s l →
      IsElements (a ++ (t ++ (b ++ 44 :: s))) (v :: l)

/-- One or more members `"name": value` with commas between them and white space everywhere. -/
inductive IsMembers : Text → List (Text × Value) → Prop
  | one {a k b c t d : Text} {e : Bool} {v : Value} : Ws a → Chars e k → Ws b → Ws c → IsValue t v → Ws d →
      IsMembers (a ++ 34 :: (k ++ 34 :: (b ++ 58 :: (c ++ (t ++ d))))) [(k, v)]
  | more {a k b c t d s : Text} {e : Bool} {v : Value} {l : List (Text × Value)} : Ws a → Chars e k → Ws b → Ws c →
      IsValue t v → Ws d → IsMembers s l →
      IsMembers (a ++ 34 :: (k ++ 34 :: (b ++ 58 :: (c ++ (t ++ (d ++ 44 :: s)))))) ((k, v) :: l)

end

/-- A JSON text: a value with white space around it. -/
def IsJson (text : Text) (v : Value) : Prop := ∃ a t b, Ws a ∧ IsValue t v ∧ Ws b ∧ text = a ++ (t ++ b)

end Mpt.Spec.JsonGrammar
