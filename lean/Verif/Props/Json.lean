import Verif.Types.Json
import Verif.Props.Serde

set_option autoImplicit false

/-!
# C59: traces survive being written and read as JSON

`traceFromStr` and `traceToString` model `serde_json::from_str` and `to_string` on `SMTTrace`.
-/

namespace Mpt.Props
open Mpt Spec Types Serde Json

/-- A value of the Rust type `HexBytes<len>`: exactly `len` bytes. -/
def IsHexBytes (len : ℕ) (b : List ℕ) : Prop := IsBytes b ∧ b.length = len

/-- A value of the Rust type `SMTNode`. -/
def NodeTyped (n : SMTNode) : Prop :=
  IsHexBytes 32 n.value ∧ IsHexBytes 32 n.sibling ∧ n.nodeType < 2 ^ 64

/-- A value of the Rust type `SMTPath`. -/
def PathTyped (p : Path) : Prop :=
  IsHexBytes 32 p.root ∧ (∀ n ∈ p.leaf, NodeTyped n) ∧ ∀ n ∈ p.path, NodeTyped n

/-- A value of the Rust type `AccountData`. -/
def AccountTyped (a : AccountData) : Prop := a.nonce < 2 ^ 64 ∧ a.codeSize < 2 ^ 64

/-- A value of the Rust type `StateData`. -/
def StateTyped (s : StateData) : Prop := IsHexBytes 32 s.key ∧ IsHexBytes 32 s.value

/-- A value of the Rust type `SMTTrace`: the sizes that the Rust types guarantee. -/
structure TraceTyped (t : Trace) : Prop where
  address : IsHexBytes 20 t.address
  accountKey : IsHexBytes 32 t.accountKey
  accountPath : PathTyped t.accountPath.1 ∧ PathTyped t.accountPath.2
  accountUpdate : (∀ a ∈ t.accountUpdate.1, AccountTyped a) ∧ ∀ a ∈ t.accountUpdate.2, AccountTyped a
  statePath : (∀ p ∈ t.statePath.1, PathTyped p) ∧ ∀ p ∈ t.statePath.2, PathTyped p
  commonStateRoot : ∀ h ∈ t.commonStateRoot, IsHexBytes 32 h
  stateKey : ∀ h ∈ t.stateKey, IsHexBytes 32 h
  stateUpdate : ∀ u ∈ t.stateUpdate, (∀ s ∈ u.1, StateTyped s) ∧ ∀ s ∈ u.2, StateTyped s

/-! ### Records -/

theorem deHex_se {len : ℕ} {b : List ℕ} (h : IsHexBytes len b) :
    deHex len (seStr (serializeHex len b)) = some b :=
  (c43_round_trip len b h.1 h.2).1

theorem deHexInt_se (n : ℕ) : deHexInt (seStr (seUintHex n)) = some n := (c44_round_trip n).1

theorem deHexInt_seFixed (n : ℕ) : deHexInt (seStr (seUintHexFixed32 n)) = some n :=
  (c44_round_trip n).2.1

theorem deU64_se {n : ℕ} (h : n < 2 ^ 64) : deU64 (.int n) = some n := by
  have h' : (0 : ℤ) ≤ (n : ℤ) ∧ (n : ℤ) < 2 ^ 64 := ⟨by positivity, by exact_mod_cast h⟩
  simp only [deU64, if_pos h', Int.toNat_natCast]

theorem deOption_se {α : Type} {d : Value → Option α} {s : α → Value} {o : Option α}
    (h : ∀ a ∈ o, d (s a) = some a ∧ s a ≠ .null) : deOption d (seOption s o) = some o := by
  cases o with
  | none => rfl
  | some a =>
    obtain ⟨h1, h2⟩ := h a rfl
    show deOption d (s a) = _
    generalize hv : s a = v at h1 h2
    cases v <;> simp_all [deOption]

theorem dePair_se {α : Type} {d : Value → Option α} {s : α → Value} {p : α × α}
    (h1 : d (s p.1) = some p.1) (h2 : d (s p.2) = some p.2) : dePair d (sePair s p) = some p := by
  simp [dePair, sePair, h1, h2]

theorem mapM_map_id {α : Type} {d : Value → Option α} {s : α → Value} (l : List α)
    (h : ∀ a ∈ l, d (s a) = some a) : (l.map s).mapM d = some l := by
  induction l with
  | nil => rfl
  | cons a l ih =>
    simp [List.mapM_cons, h a (by simp), ih (fun b hb => h b (by simp [hb]))]

theorem required_of {α : Type} {d : Value → Option α} {j : Value} {pos : ℕ} {name : String} {v : Value}
    {a : α} (hf : field j pos [txt name] = some (some v)) (hd : d v = some a) :
    required d j pos name = some a := by
  simp [required, hf, hd]

theorem defaulted_of {α : Type} {dflt : α} {d : Value → Option α} {j : Value} {pos : ℕ}
    {names : List String} {v : Value} {a : α} (hf : field j pos (names.map txt) = some (some v))
    (hd : d v = some a) : defaulted dflt d j pos names = some a := by
  simp [defaulted, hf, hd]

theorem deNode_se {n : SMTNode} (h : NodeTyped n) : deNode (seNode n) = some n := by
  have e1 : required (deHex 32) (seNode n) 0 "value" = some n.value := deHex_se h.1
  have e2 : required (deHex 32) (seNode n) 1 "sibling" = some n.sibling := deHex_se h.2.1
  have e3 : defaulted 0 deU64 (seNode n) 2 ["node_type"] = some n.nodeType :=
    defaulted_of (v := .int n.nodeType) rfl (deU64_se h.2.2)
  have e0 : shaped 3 (seNode n) = true := rfl
  simp [deNode, e0, e1, e2, e3]

theorem deState_se {s : StateData} (h : StateTyped s) : deState (seState s) = some s := by
  have e1 : required (deHex 32) (seState s) 0 "key" = some s.key := deHex_se h.1
  have e2 : required (deHex 32) (seState s) 1 "value" = some s.value := deHex_se h.2
  have e0 : shaped 2 (seState s) = true := rfl
  simp [deState, e0, e1, e2]

theorem deAccount_se {a : AccountData} (h : AccountTyped a) : deAccount (seAccount a) = some a := by
  have e1 : required deU64 (seAccount a) 0 "nonce" = some a.nonce :=
    required_of (v := .int a.nonce) rfl (deU64_se h.1)
  have e2 : required deHexInt (seAccount a) 1 "balance" = some a.balance := deHexInt_se _
  have e3 : defaulted 0 deHexInt (seAccount a) 2 ["codeHash", "keccakCodeHash"] = some a.codeHash :=
    deHexInt_seFixed _
  have e4 : defaulted 0 deHexInt (seAccount a) 3 ["poseidonCodeHash"] = some a.poseidonCodeHash :=
    deHexInt_seFixed _
  have e5 : defaulted 0 deU64 (seAccount a) 4 ["codeSize"] = some a.codeSize :=
    defaulted_of (v := .int a.codeSize) rfl (deU64_se h.2)
  have e0 : shaped 5 (seAccount a) = true := rfl
  simp [deAccount, e0, e1, e2, e3, e4, e5]

theorem dePath_se {p : Path} (h : PathTyped p) : dePath (sePath p) = some p := by
  obtain ⟨root, leaf, path, part⟩ := p
  obtain ⟨hr, hl, hp⟩ := h
  have e1 : required (deHex 32) (sePath ⟨root, leaf, path, part⟩) 0 "root" = some root := by
    have := deHex_se hr
    cases leaf <;> cases path <;> exact this
  have e2 : optional deNode (sePath ⟨root, leaf, path, part⟩) 1 "leaf" = some leaf := by
    cases leaf with
    | none => cases path <;> rfl
    | some n =>
      have : deOption deNode (seNode n) = some (some n) := by
        have := deNode_se (hl n rfl)
        show (deNode (seNode n)).map some = _
        rw [this]; rfl
      cases path <;> exact this
  have e3 : defaulted [] (deVec deNode) (sePath ⟨root, leaf, path, part⟩) 2 ["path"] = some path := by
    have : deVec deNode (.arr (path.map seNode)) = some path :=
      mapM_map_id path fun n hn => deNode_se (hp n hn)
    cases path with
    | nil => cases leaf <;> rfl
    | cons n l => cases leaf <;> exact this
  have e4 : required deHexInt (sePath ⟨root, leaf, path, part⟩) 3 "pathPart" = some part := by
    have := deHexInt_se part
    cases leaf <;> cases path <;> exact this
  have e0 : shaped 4 (sePath ⟨root, leaf, path, part⟩) = true := rfl
  simp [dePath, e0, e1, e2, e3, e4]

theorem optional_of {α : Type} {d : Value → Option α} {j : Value} {pos : ℕ} {name : String} {v : Value}
    {a : Option α} (hf : field j pos [txt name] = some (some v)) (hd : deOption d v = some a) :
    optional d j pos name = some a := by
  simp [Json.optional, hf, hd]

theorem optional_absent {α : Type} {d : Value → Option α} {l : List (Text × Value)} {pos : ℕ}
    {name : String} (hf : field (.obj l) pos [txt name] = some none) :
    optional d (.obj l) pos name = some none := by
  simp [Json.optional, hf]

theorem deOption_some {α : Type} {d : Value → Option α} {v : Value} {a : α} (hv : v ≠ .null)
    (h : d v = some a) : deOption d v = some (some a) := by
  cases v <;> simp_all [deOption]

/-- Reading the JSON value of a trace gives the trace back. -/
theorem deTrace_se {t : Trace} (h : TraceTyped t) : deTrace (seTrace t) = some t := by
  obtain ⟨address, accountKey, accountPath, accountUpdate, statePath, root, key, update⟩ := t
  obtain ⟨h1, h2, h3, h4, h5, h6, h7, h8⟩ := h
  have v1 := deHex_se h1
  have v2 := deHex_se h2
  have v3 : dePair dePath (sePair sePath accountPath) = some accountPath :=
    dePair_se (dePath_se h3.1) (dePath_se h3.2)
  have v4 : dePair (deOption deAccount) (sePair (seOption seAccount) accountUpdate) =
      some accountUpdate :=
    dePair_se (deOption_se fun a ha => ⟨deAccount_se (h4.1 a ha), by simp [seAccount]⟩)
      (deOption_se fun a ha => ⟨deAccount_se (h4.2 a ha), by simp [seAccount]⟩)
  have v5 : dePair (deOption dePath) (sePair (seOption sePath) statePath) = some statePath :=
    dePair_se (deOption_se fun a ha => ⟨dePath_se (h5.1 a ha), by simp [sePath]⟩)
      (deOption_se fun a ha => ⟨dePath_se (h5.2 a ha), by simp [sePath]⟩)
  have v6 : ∀ r ∈ root, deOption (deHex 32) (seStr (serializeHex 32 r)) = some (some r) :=
    fun r hr => deOption_some (by simp [seStr]) (deHex_se (h6 r hr))
  have v7 : ∀ r ∈ key, deOption (deHex 32) (seStr (serializeHex 32 r)) = some (some r) :=
    fun r hr => deOption_some (by simp [seStr]) (deHex_se (h7 r hr))
  have v8 : ∀ u ∈ update, deOption (dePair (deOption deState)) (sePair (seOption seState) u) =
      some (some u) := fun u hu => deOption_some (by simp [sePair])
    (dePair_se (deOption_se fun a ha => ⟨deState_se ((h8 u hu).1 a ha), by simp [seState]⟩)
      (deOption_se fun a ha => ⟨deState_se ((h8 u hu).2 a ha), by simp [seState]⟩))
  generalize hj : seTrace ⟨address, accountKey, accountPath, accountUpdate, statePath, root, key, update⟩
    = j
  have e0 : shaped 8 j = true := by rw [← hj]; rfl
  have e1 : required (deHex 20) j 0 "address" = some address :=
    required_of (by rw [← hj]; cases root <;> cases key <;> cases update <;> rfl) v1
  have e2 : required (deHex 32) j 1 "accountKey" = some accountKey :=
    required_of (by rw [← hj]; cases root <;> cases key <;> cases update <;> rfl) v2
  have e3 : required (dePair dePath) j 2 "accountPath" = some accountPath :=
    required_of (by rw [← hj]; cases root <;> cases key <;> cases update <;> rfl) v3
  have e4 : required (dePair (deOption deAccount)) j 3 "accountUpdate" = some accountUpdate :=
    required_of (by rw [← hj]; cases root <;> cases key <;> cases update <;> rfl) v4
  have e5 : required (dePair (deOption dePath)) j 4 "statePath" = some statePath :=
    required_of (by rw [← hj]; cases root <;> cases key <;> cases update <;> rfl) v5
  have e6 : optional (deHex 32) j 5 "commonStateRoot" = some root := by
    cases root with
    | none => rw [← hj]; exact optional_absent (by cases key <;> cases update <;> rfl)
    | some r => exact optional_of (by rw [← hj]; cases key <;> cases update <;> rfl) (v6 r rfl)
  have e7 : optional (deHex 32) j 6 "stateKey" = some key := by
    cases key with
    | none => rw [← hj]; exact optional_absent (by cases root <;> cases update <;> rfl)
    | some r => exact optional_of (by rw [← hj]; cases root <;> cases update <;> rfl) (v7 r rfl)
  have e8 : optional (dePair (deOption deState)) j 7 "stateUpdate" = some update := by
    cases update with
    | none => rw [← hj]; exact optional_absent (by cases root <;> cases key <;> rfl)
    | some r => exact optional_of (by rw [← hj]; cases root <;> cases key <;> rfl) (v8 r rfl)
  simp [deTrace, e0, e1, e2, e3, e4, e5, e6, e7, e8]

end Mpt.Props
