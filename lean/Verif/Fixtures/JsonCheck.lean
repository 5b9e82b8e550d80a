import Verif.Props.JsonText
import Verif.Fixtures.Traces

set_option autoImplicit false

/-!
# The JSON files of the repository, read and written by the model

`SameFile text x`: the model of `serde_json::from_str` reads the trace `x` of `Fixtures/Traces` from the
text, and the model of `to_string_pretty` writes the text, byte by byte, as the tests of
/repo/src/tests.rs assert (e.g. lines 602-608). By C59 it is enough to evaluate the writer. `utf8%` turns
a string into its bytes at elaboration.
-/

namespace Mpt.Fixtures
open Mpt Types Serde Json Props

/-- The first `n` bytes packed in a number, least significant first. -/
def unpack : ℕ → ℕ → Text
  | 0, _ => []
  | n + 1, x => x % 256 :: unpack n (x / 256)

/-- Packed pieces of a text, one after the other. -/
def unpackAll : List (ℕ × ℕ) → Text
  | [] => []
  | (n, x) :: l => unpack n x ++ unpackAll l

open Lean Elab Term in
/-- The bytes of a string literal, packed in pieces of 64 bytes. -/
elab "utf8% " s:str : term => do
  let rec pieces (fuel : ℕ) (l : List UInt8) : List (List UInt8) :=
    match fuel, l with
    | 0, _ => []
    | _, [] => []
    | n + 1, l => l.take 64 :: pieces n (l.drop 64)
  let bytes := s.getString.toUTF8.toList
  let pack (l : List UInt8) : ℕ := l.foldr (fun b acc => acc * 256 + b.toNat) 0
  let nat := Lean.mkConst ``Nat
  let pairTy := mkApp2 (Lean.mkConst ``Prod [0, 0]) nat nat
  let pairs := (pieces bytes.length bytes).map fun l =>
    mkApp4 (Lean.mkConst ``Prod.mk [0, 0]) nat nat (mkRawNatLit l.length) (mkRawNatLit (pack l))
  let list := pairs.foldr (fun p acc => mkApp3 (Lean.mkConst ``List.cons [0]) pairTy p acc)
    (mkApp (Lean.mkConst ``List.nil [0]) pairTy)
  return mkApp (Lean.mkConst ``unpackAll) list

/-- The text is read as a trace that agrees with `x`, and writing that trace gives the text. -/
def SameFile (text : Text) (x : SMTTrace) : Prop :=
  ∃ t, traceFromStr text = some t ∧ t.used = x ∧ traceToStringPretty t ++ [10] = text

/-- Comparison of texts. -/
def eqText : Text → Text → Bool
  | [], [] => true
  | a :: l, b :: m => if a = b then eqText l m else false
  | _, _ => false

theorem eqText_sound (l m : Text) (h : eqText l m = true) : l = m := by
  induction l generalizing m with
  | nil => cases m with
    | nil => rfl
    | cons => simp [eqText] at h
  | cons a l ih => cases m with
    | nil => simp [eqText] at h
    | cons b m =>
      rw [eqText] at h
      split at h
      · rename_i hab
        rw [hab, ih m h]
      · cases h

/-- A path with its `path_part`. -/
def withPart (n : ℕ) (p : SMTPath) : Path := ⟨p.root, p.leaf, p.path, n⟩

/-- A trace with its four `path_part`s. -/
def withParts (a b c d : ℕ) (x : SMTTrace) : Trace :=
  ⟨x.address, x.accountKey, (withPart a x.accountPath.1, withPart b x.accountPath.2), x.accountUpdate,
    (x.statePath.1.map (withPart c), x.statePath.2.map (withPart d)), x.commonStateRoot, x.stateKey,
    x.stateUpdate⟩

theorem used_withParts (a b c d : ℕ) (x : SMTTrace) : (withParts a b c d x).used = x := by
  obtain ⟨_, _, ⟨_, _⟩, _, ⟨s1, s2⟩, _, _, _⟩ := x
  cases s1 <;> cases s2 <;> rfl

/-- `IsHexBytes`, evaluated. -/
def hexB (len : ℕ) (b : List ℕ) : Bool := (b.all fun x => decide (x < 256)) && decide (b.length = len)

/-- `NodeTyped`, evaluated. -/
def nodeB (n : SMTNode) : Bool := hexB 32 n.value && (hexB 32 n.sibling && decide (n.nodeType < 2 ^ 64))

/-- `PathTyped`, evaluated. -/
def pathB (p : Path) : Bool := hexB 32 p.root && (p.leaf.all nodeB && p.path.all nodeB)

/-- `AccountTyped`, evaluated. -/
def accountB (a : AccountData) : Bool := decide (a.nonce < 2 ^ 64) && decide (a.codeSize < 2 ^ 64)

/-- `StateTyped`, evaluated. -/
def stateB (s : StateData) : Bool := hexB 32 s.key && hexB 32 s.value

/-- `TraceTyped`, evaluated. -/
def typedB (t : Trace) : Bool :=
  hexB 20 t.address && (hexB 32 t.accountKey && ((pathB t.accountPath.1 && pathB t.accountPath.2) &&
    ((t.accountUpdate.1.all accountB && t.accountUpdate.2.all accountB) &&
    ((t.statePath.1.all pathB && t.statePath.2.all pathB) && (t.commonStateRoot.all (hexB 32) &&
    (t.stateKey.all (hexB 32) && t.stateUpdate.all fun u => u.1.all stateB && u.2.all stateB))))))

theorem hexB_sound {len : ℕ} {b : List ℕ} (h : hexB len b = true) : IsHexBytes len b := by
  simp only [hexB, Bool.and_eq_true, List.all_eq_true, decide_eq_true_eq] at h
  exact ⟨fun x hx => h.1 x hx, h.2⟩

theorem all_sound {α : Type} {f : α → Bool} {P : α → Prop} (hf : ∀ a, f a = true → P a) {o : Option α}
    (h : o.all f = true) : ∀ a ∈ o, P a := by
  intro a ha
  cases ha
  exact hf a h

theorem nodeB_sound (n : SMTNode) (h : nodeB n = true) : NodeTyped n := by
  simp only [nodeB, Bool.and_eq_true, decide_eq_true_eq] at h
  exact ⟨hexB_sound h.1, hexB_sound h.2.1, h.2.2⟩

theorem pathB_sound (p : Path) (h : pathB p = true) : PathTyped p := by
  simp only [pathB, Bool.and_eq_true, List.all_eq_true] at h
  exact ⟨hexB_sound h.1, all_sound nodeB_sound h.2.1, fun n hn => nodeB_sound n (h.2.2 n hn)⟩

theorem accountB_sound (a : AccountData) (h : accountB a = true) : AccountTyped a := by
  simpa [accountB, AccountTyped] using h

theorem stateB_sound (s : StateData) (h : stateB s = true) : StateTyped s := by
  simp only [stateB, Bool.and_eq_true] at h
  exact ⟨hexB_sound h.1, hexB_sound h.2⟩

theorem typedB_sound {t : Trace} (h : typedB t = true) : TraceTyped t := by
  simp only [typedB, Bool.and_eq_true] at h
  obtain ⟨h1, h2, h3, h4, h5, h6, h7, h8⟩ := h
  refine ⟨hexB_sound h1, hexB_sound h2, ⟨pathB_sound _ h3.1, pathB_sound _ h3.2⟩,
    ⟨all_sound accountB_sound h4.1, all_sound accountB_sound h4.2⟩,
    ⟨all_sound pathB_sound h5.1, all_sound pathB_sound h5.2⟩, all_sound (fun _ => hexB_sound) h6,
    all_sound (fun _ => hexB_sound) h7, all_sound (fun u hu => ?_) h8⟩
  simp only [Bool.and_eq_true] at hu
  exact ⟨all_sound stateB_sound hu.1, all_sound stateB_sound hu.2⟩

theorem sameFile_of (a b c d : ℕ) (text : Text) (x : SMTTrace)
    (h1 : typedB (withParts a b c d x) = true)
    (h2 : eqText (traceToStringPretty (withParts a b c d x) ++ [10]) text = true) : SameFile text x := by
  have h := eqText_sound _ _ h2
  exact ⟨withParts a b c d x, by
    rw [← h]; exact c59_round_trip_pretty _ (typedB_sound h1) [10] (by decide), used_withParts .., h⟩

end Mpt.Fixtures
