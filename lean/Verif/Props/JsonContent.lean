import Verif.Props.JsonText

set_option autoImplicit false

/-!
# C59: what matters in the JSON of a trace

The order of the members of an object and members the code does not know are irrelevant; members given
twice are refused; left out members are refused, or mean the documented default.
-/

namespace Mpt.Props
open Mpt Spec Types Serde Json

/-- The names of the members of `SMTTrace` and of the records in it, as they appear in JSON. -/
def memberNames : List String :=
  ["value", "sibling", "node_type", "root", "leaf", "path", "pathPart", "nonce", "balance", "codeHash",
    "keccakCodeHash", "poseidonCodeHash", "codeSize", "key", "address", "accountKey", "accountPath",
    "accountUpdate", "statePath", "commonStateRoot", "stateKey", "stateUpdate"]

/-- Two JSON values that differ only in the order of object members and in members with other names than
those of `memberNames`, anywhere inside. -/
inductive SameContent : Value → Value → Prop
  | refl (v : Value) : SameContent v v
  | symm {v w : Value} : SameContent v w → SameContent w v
  | trans {u v w : Value} : SameContent u v → SameContent v w → SameContent u w
  | reorder {l l' : List (Text × Value)} : l.Perm l' → SameContent (.obj l) (.obj l')
  | unknown (k : Text) (v : Value) (l : List (Text × Value)) :
      k ∉ memberNames.map txt → SameContent (.obj ((k, v) :: l)) (.obj l)
  | inMember (k : Text) {v w : Value} (l : List (Text × Value)) :
      SameContent v w → SameContent (.obj ((k, v) :: l)) (.obj ((k, w) :: l))
  | inElement (a b : List Value) {v w : Value} :
      SameContent v w → SameContent (.arr (a ++ v :: b)) (.arr (a ++ w :: b))

/-- A reader that only sees the content. -/
def Respects {α : Type} (d : Value → Option α) : Prop := ∀ v w, SameContent v w → d v = d w

theorem sameContent_str {e : Bool} {s : Text} {v w : Value} (h : SameContent v w) :
    (v = .str e s ↔ w = .str e s) := by
  induction h with
  | refl => rfl
  | symm _ ih => exact ih.symm
  | trans _ _ ih1 ih2 => exact ih1.trans ih2
  | _ => simp

theorem sameContent_null {v w : Value} (h : SameContent v w) : (v = .null ↔ w = .null) := by
  induction h with
  | refl => rfl
  | symm _ ih => exact ih.symm
  | trans _ _ ih1 ih2 => exact ih1.trans ih2
  | _ => simp

theorem sameContent_int {n : ℤ} {v w : Value} (h : SameContent v w) : (v = .int n ↔ w = .int n) := by
  induction h with
  | refl => rfl
  | symm _ ih => exact ih.symm
  | trans _ _ ih1 ih2 => exact ih1.trans ih2
  | _ => simp

theorem respects_bind {α β : Type} {d : Value → Option α} (h : Respects d) (f : α → Option β) :
    Respects fun v => (d v).bind f := fun v w hvw => by simp only [h v w hvw]

theorem respects_str : Respects deStr := by
  intro v w h
  cases v with
  | str e s => rw [(sameContent_str h).1 rfl]
  | _ =>
    cases w with
    | str e s => exact absurd ((sameContent_str h).2 rfl) (by simp)
    | _ => rfl

theorem respects_u64 : Respects deU64 := by
  intro v w h
  cases v with
  | int n => rw [(sameContent_int h).1 rfl]
  | _ =>
    cases w with
    | int n => exact absurd ((sameContent_int h).2 rfl) (by simp)
    | _ => rfl

theorem respects_hex (len : ℕ) : Respects (deHex len) := respects_bind respects_str _
theorem respects_hexInt : Respects deHexInt := respects_bind respects_str _

theorem deOption_ne {α : Type} (d : Value → Option α) {v : Value} (h : v ≠ .null) :
    deOption d v = (d v).map some := by cases v <;> simp_all [deOption]

theorem respects_option {α : Type} {d : Value → Option α} (hd : Respects d) : Respects (deOption d) := by
  intro v w h
  by_cases hv : v = .null
  · rw [hv, (sameContent_null h).1 hv]
  · rw [deOption_ne d hv, deOption_ne d (fun hw => hv ((sameContent_null h).2 hw)), hd v w h]

/-- The same content, spelled out for arrays. -/
theorem sameContent_arr {v w : Value} (h : SameContent v w) :
    (∀ l, v = .arr l → ∃ l', w = .arr l' ∧ List.Forall₂ SameContent l l') ∧
    ∀ l', w = .arr l' → ∃ l, v = .arr l ∧ List.Forall₂ SameContent l l' := by
  have hrefl : ∀ l : List Value, List.Forall₂ SameContent l l := fun l =>
    List.forall₂_same.2 fun v _ => .refl v
  have hflip : ∀ l l' : List Value, List.Forall₂ SameContent l l' → List.Forall₂ SameContent l' l := by
    intro l l' h
    exact (List.Forall₂.imp (fun _ _ h => SameContent.symm h) h.flip)
  have htrans : ∀ a b c : List Value, List.Forall₂ SameContent a b → List.Forall₂ SameContent b c →
      List.Forall₂ SameContent a c := by
    intro a b c h1 h2
    induction h1 generalizing c with
    | nil => cases h2; exact .nil
    | cons hab _ ih =>
      cases h2 with
      | cons hbc h2 => exact .cons (hab.trans hbc) (ih _ h2)
  induction h with
  | refl v => exact ⟨fun l hl => ⟨l, hl, hrefl l⟩, fun l hl => ⟨l, hl, hrefl l⟩⟩
  | symm _ ih =>
    exact ⟨fun l hl => (ih.2 l hl).imp fun l' h => ⟨h.1, hflip _ _ h.2⟩,
      fun l hl => (ih.1 l hl).imp fun l' h => ⟨h.1, hflip _ _ h.2⟩⟩
  | trans _ _ ih1 ih2 =>
    constructor
    · intro l hl
      obtain ⟨m, hm, h1⟩ := ih1.1 l hl
      obtain ⟨k, hk, h2⟩ := ih2.1 m hm
      exact ⟨k, hk, htrans _ _ _ h1 h2⟩
    · intro l hl
      obtain ⟨m, hm, h1⟩ := ih2.2 l hl
      obtain ⟨k, hk, h2⟩ := ih1.2 m hm
      exact ⟨k, hk, htrans _ _ _ h2 h1⟩
  | reorder _ => exact ⟨by simp, by simp⟩
  | unknown _ _ _ _ => exact ⟨by simp, by simp⟩
  | inMember _ _ _ _ => exact ⟨by simp, by simp⟩
  | inElement a b hvw _ =>
    have key : List.Forall₂ SameContent (a ++ _ :: b) (a ++ _ :: b) :=
      List.rel_append (hrefl a) (.cons hvw (hrefl b))
    constructor
    · intro l hl
      cases hl
      exact ⟨_, rfl, key⟩
    · intro l hl
      cases hl
      exact ⟨_, rfl, key⟩

theorem sameContent_obj {v w : Value} (h : SameContent v w) :
    (∃ l, v = .obj l) ↔ ∃ l, w = .obj l := by
  induction h with
  | refl => rfl
  | symm _ ih => exact ih.symm
  | trans _ _ ih1 ih2 => exact ih1.trans ih2
  | _ => simp

theorem respects_vec {α : Type} {d : Value → Option α} (hd : Respects d) : Respects (deVec d) := by
  intro v w h
  obtain ⟨h1, h2⟩ := sameContent_arr h
  by_cases hv : ∃ l, v = .arr l
  · obtain ⟨l, rfl⟩ := hv
    obtain ⟨l', rfl, hl⟩ := h1 l rfl
    simp only [deVec]
    clear h h1 h2
    induction hl with
    | nil => rfl
    | cons hab _ ih => simp [List.mapM_cons, hd _ _ hab, ih]
  · have hw : ¬ ∃ l, w = .arr l := fun ⟨l, hl⟩ => hv ((h2 l hl).imp fun _ h => h.1)
    cases v <;> cases w <;> simp_all [deVec]

theorem respects_pair {α : Type} {d : Value → Option α} (hd : Respects d) : Respects (dePair d) := by
  intro v w h
  obtain ⟨h1, h2⟩ := sameContent_arr h
  by_cases hv : ∃ l, v = .arr l
  · obtain ⟨l, rfl⟩ := hv
    obtain ⟨l', rfl, hl⟩ := h1 l rfl
    cases hl with
    | nil => rfl
    | cons h3 hl =>
      cases hl with
      | nil => rfl
      | cons h4 hl =>
        cases hl with
        | nil => simp [dePair, hd _ _ h3, hd _ _ h4]
        | cons _ _ => rfl
  · have hw : ¬ ∃ l, w = .arr l := fun ⟨l, hl⟩ => hv ((h2 l hl).imp fun _ h => h.1)
    cases v <;> cases w <;> simp_all [dePair]

/-! ### Fields -/

theorem member_perm (names : List Text) {l l' : List (Text × Value)} (h : l.Perm l') :
    member names l = member names l' := by
  unfold member
  have hp := h.filter fun m => names.contains m.1
  generalize l.filter (fun m => names.contains m.1) = a at hp
  generalize l'.filter (fun m => names.contains m.1) = b at hp
  match a, b, hp with
  | [], b, hp => rw [List.nil_perm.1 hp]
  | [m], b, hp => rw [List.singleton_perm.1 hp]
  | _ :: _ :: _, [], hp => exact absurd hp.length_eq (by simp)
  | _ :: _ :: _, [_], hp => exact absurd hp.length_eq (by simp)
  | _ :: _ :: _, _ :: _ :: _, _ => rfl

theorem field_same {α : Type} {d : Value → Option α} (hd : Respects d) {names : List Text}
    (hn : ∀ k ∈ names, k ∈ memberNames.map txt) (pos : ℕ) {v w : Value} (h : SameContent v w) :
    (field v pos names).map (fun o => o.map d) = (field w pos names).map (fun o => o.map d) := by
  induction h with
  | refl => rfl
  | symm _ ih => exact ih.symm
  | trans _ _ ih1 ih2 => exact ih1.trans ih2
  | reorder h => simp only [field, member_perm names h]
  | unknown k v l hk =>
    have : names.contains k = false := by
      simp only [List.contains_eq_mem, decide_eq_false_iff_not]
      exact fun h => hk (hn k h)
    simp only [field, member, List.filter_cons, this, Bool.false_eq_true, if_false]
  | @inMember k v w l hvw _ =>
    simp only [field, member, List.filter_cons]
    cases hc : names.contains k with
    | false => rfl
    | true =>
      simp only [if_true]
      cases l.filter (fun m => names.contains m.1) with
      | nil => simp [hd _ _ hvw]
      | cons _ _ => rfl
  | @inElement a b v w hvw _ =>
    simp only [field, Option.map_some, Option.some.injEq]
    by_cases hp : pos < a.length
    · rw [List.getElem?_append_left hp, List.getElem?_append_left hp]
    · rw [List.getElem?_append_right (by omega), List.getElem?_append_right (by omega)]
      cases pos - a.length with
      | zero => simp [hd _ _ hvw]
      | succ n => rfl

theorem required_same {α : Type} {d : Value → Option α} (hd : Respects d) (pos : ℕ) (name : String)
    (hn : name ∈ memberNames) : Respects fun j => required d j pos name := by
  intro v w h
  have key := field_same hd (names := [txt name]) (by simpa using List.mem_map_of_mem hn) pos h
  have e : ∀ j, required d j pos name =
      ((field j pos [txt name]).map (fun o => o.map d)).bind fun o => o.bind id := by
    intro j
    unfold required
    cases field j pos [txt name] with
    | none => rfl
    | some o => cases o <;> rfl
  simp only [e, key]

theorem defaulted_same {α : Type} (dflt : α) {d : Value → Option α} (hd : Respects d) (pos : ℕ)
    (names : List String) (hn : ∀ n ∈ names, n ∈ memberNames) :
    Respects fun j => defaulted dflt d j pos names := by
  intro v w h
  have key := field_same hd (names := names.map txt)
    (by intro k hk
        obtain ⟨n, hn', rfl⟩ := List.mem_map.1 hk
        exact List.mem_map_of_mem (hn n hn')) pos h
  have e : ∀ j, defaulted dflt d j pos names =
      ((field j pos (names.map txt)).map (fun o => o.map d)).bind fun o => o.getD (some dflt) := by
    intro j
    unfold defaulted
    cases field j pos (names.map txt) with
    | none => rfl
    | some o => cases o <;> rfl
  simp only [e, key]

/-- The value is an object. -/
def isObj : Value → Bool
  | .obj _ => true
  | _ => false

theorem isObj_same {v w : Value} (h : SameContent v w) : isObj v = isObj w := by
  have key := sameContent_obj h
  have e : ∀ j, isObj j = true ↔ ∃ l, j = .obj l := by intro j; cases j <;> simp [isObj]
  exact Bool.eq_iff_iff.2 ((e v).trans (key.trans (e w).symm))

theorem optional_same {α : Type} {d : Value → Option α} (hd : Respects d) (pos : ℕ) (name : String)
    (hn : name ∈ memberNames) : Respects fun j => Json.optional d j pos name := by
  intro v w h
  have key := field_same (respects_option hd) (names := [txt name])
    (by simpa using List.mem_map_of_mem hn) pos h
  have e : ∀ j, Json.optional d j pos name =
      ((field j pos [txt name]).map (fun o => o.map (deOption d))).bind fun o =>
        o.getD (if isObj j then some none else none) := by
    intro j
    unfold Json.optional
    cases field j pos [txt name] with
    | none => rfl
    | some o => cases o with
      | none => cases j <;> rfl
      | some v => cases j <;> rfl
  simp only [e, key, isObj_same h]

theorem shaped_same (n : ℕ) {v w : Value} (h : SameContent v w) : shaped n v = shaped n w := by
  induction h with
  | refl => rfl
  | symm _ ih => exact ih.symm
  | trans _ _ ih1 ih2 => exact ih1.trans ih2
  | inElement a b _ _ => simp [shaped]
  | _ => rfl

theorem respects_node : Respects deNode := by
  intro v w h
  have e1 := required_same (respects_hex 32) 0 "value" (by decide) v w h
  have e2 := required_same (respects_hex 32) 1 "sibling" (by decide) v w h
  have e3 := defaulted_same 0 respects_u64 2 ["node_type"] (by decide) v w h
  simp only [deNode, shaped_same 3 h, e1, e2, e3]

theorem respects_path : Respects dePath := by
  intro v w h
  have e1 := required_same (respects_hex 32) 0 "root" (by decide) v w h
  have e2 := optional_same respects_node 1 "leaf" (by decide) v w h
  have e3 := defaulted_same [] (respects_vec respects_node) 2 ["path"] (by decide) v w h
  have e4 := required_same respects_hexInt 3 "pathPart" (by decide) v w h
  simp only [dePath, shaped_same 4 h, e1, e2, e3, e4]

theorem respects_account : Respects deAccount := by
  intro v w h
  have e1 := required_same respects_u64 0 "nonce" (by decide) v w h
  have e2 := required_same respects_hexInt 1 "balance" (by decide) v w h
  have e3 := defaulted_same 0 respects_hexInt 2 ["codeHash", "keccakCodeHash"] (by decide) v w h
  have e4 := defaulted_same 0 respects_hexInt 3 ["poseidonCodeHash"] (by decide) v w h
  have e5 := defaulted_same 0 respects_u64 4 ["codeSize"] (by decide) v w h
  simp only [deAccount, shaped_same 5 h, e1, e2, e3, e4, e5]

theorem respects_state : Respects deState := by
  intro v w h
  have e1 := required_same (respects_hex 32) 0 "key" (by decide) v w h
  have e2 := required_same (respects_hex 32) 1 "value" (by decide) v w h
  simp only [deState, shaped_same 2 h, e1, e2]

/-- C59: the order of the members of an object, at any depth, and members with unknown names have no
influence on the trace that is read, nor on whether reading succeeds. -/
theorem c59_content (v w : Value) (h : SameContent v w) : deTrace v = deTrace w := by
  have e1 := required_same (respects_hex 20) 0 "address" (by decide) v w h
  have e2 := required_same (respects_hex 32) 1 "accountKey" (by decide) v w h
  have e3 := required_same (respects_pair respects_path) 2 "accountPath" (by decide) v w h
  have e4 := required_same (respects_pair (respects_option respects_account)) 3 "accountUpdate"
    (by decide) v w h
  have e5 := required_same (respects_pair (respects_option respects_path)) 4 "statePath" (by decide) v w h
  have e6 := optional_same (respects_hex 32) 5 "commonStateRoot" (by decide) v w h
  have e7 := optional_same (respects_hex 32) 6 "stateKey" (by decide) v w h
  have e8 := optional_same (respects_pair (respects_option respects_state)) 7 "stateUpdate" (by decide)
    v w h
  simp only [deTrace, shaped_same 8 h, e1, e2, e3, e4, e5, e6, e7, e8]

end Mpt.Props
