import Verif.Props.Json

set_option autoImplicit false

/-!
# JSON text: what is printed is read back
-/

namespace Mpt.Props
open Mpt Spec Types Serde Json

/-- A text that needs no escapes inside quotes. -/
def PlainText (s : Text) : Prop := ∀ c ∈ s, 32 ≤ c ∧ c ≠ 34 ∧ c ≠ 92

mutual

/-- A JSON value without floats and without strings that need escapes. -/
def Plain : Value → Prop
  | .float => False
  | .str e s => e = false ∧ PlainText s
  | .arr l => PlainElements l
  | .obj l => PlainMembers l
  | _ => True

/-- The same for the elements of an array. -/
def PlainElements : List Value → Prop
  | [] => True
  | v :: l => Plain v ∧ PlainElements l

/-- The same for the members of an object. -/
def PlainMembers : List (Text × Value) → Prop
  | [] => True
  | (k, v) :: l => PlainText k ∧ Plain v ∧ PlainMembers l

end

/-- The text cannot continue a number. -/
def Stops (t : Text) : Prop := ∀ c ∈ t.head?, ¬ isDigit c = true ∧ c ≠ 46 ∧ c ≠ 101 ∧ c ≠ 69

theorem pString_plain (s rest : Text) (h : PlainText s) :
    pString (s ++ 34 :: rest) = some (false, s, rest) := by
  induction s with
  | nil => rw [List.nil_append, pString.eq_def]; simp
  | cons c s ih =>
    obtain ⟨h1, h2, h3⟩ := h c (by simp)
    have ih := ih fun d hd => h d (by simp [hd])
    rw [List.cons_append, pString.eq_def]
    simp only [if_neg h2, if_neg h3, if_neg (show ¬ c < 32 by omega), ih]
    rfl

theorem digits_append (s rest : Text) (h : ∀ c ∈ s, isDigit c = true)
    (hr : ∀ c ∈ rest.head?, ¬ isDigit c = true) : digits (s ++ rest) = (s, rest) := by
  induction s with
  | nil =>
    cases rest with
    | nil => rfl
    | cons c r => simp [digits, hr c rfl]
  | cons c s ih =>
    simp [digits, h c (by simp), ih fun d hd => h d (by simp [hd])]

theorem ofDigits_reverse (ds : List ℕ) :
    ofDigits ((ds.map (48 + ·)).reverse) = Nat.ofDigits 10 ds := by
  unfold Json.ofDigits
  induction ds with
  | nil => rfl
  | cons d ds ih => simp [Nat.ofDigits_cons, ih]; ring

theorem printNat_digits (n : ℕ) : ∀ c ∈ printNat n, isDigit c = true := by
  unfold printNat
  split
  · simp [isDigit]
  · intro c hc
    simp only [List.mem_reverse, List.mem_map] at hc
    obtain ⟨d, hd, rfl⟩ := hc
    have := Nat.digits_lt_base (by norm_num) hd
    simp [isDigit]; omega

theorem printNat_value (n : ℕ) : Json.ofDigits (printNat n) = n := by
  unfold printNat
  split
  · subst_vars; rfl
  · rw [ofDigits_reverse, Nat.ofDigits_digits]

theorem printNat_ne_nil (n : ℕ) : printNat n ≠ [] := by
  unfold printNat
  split
  · simp
  · rename_i h
    simp [Nat.digits_ne_nil_iff_ne_zero, h]

theorem printNat_leading (n : ℕ) : ¬((printNat n).head? = some 48 ∧ (printNat n).length ≠ 1) := by
  unfold printNat
  split
  · simp
  · rename_i h
    rintro ⟨h1, -⟩
    have hne : Nat.digits 10 n ≠ [] := by simpa [Nat.digits_ne_nil_iff_ne_zero] using h
    have hl := Nat.getLast_digit_ne_zero 10 h
    rw [List.head?_reverse, List.getLast?_map, List.getLast?_eq_getLast_of_ne_nil hne] at h1
    simp at h1
    exact hl h1

theorem pFraction_stops {rest : Text} (h : Stops rest) : pFraction rest = some (false, rest) := by
  cases rest with
  | nil => rfl
  | cons c r =>
    obtain ⟨-, h1, h2, h3⟩ := h c rfl
    simp [pFraction, pExponent, h1, h2, h3]

theorem pNumber_print (n : ℕ) {rest : Text} (h : Stops rest) (neg : Bool) (hn : neg = true → n ≠ 0) :
    pNumber neg (printNat n ++ rest) = some (.int (if neg then -(n : ℤ) else n), rest) := by
  have hd := digits_append (printNat n) rest (printNat_digits n) fun c hc => (h c hc).1
  unfold pNumber
  simp only [hd, pFraction_stops h, printNat_value, List.isEmpty_iff, if_neg (printNat_ne_nil n),
    if_neg (printNat_leading n)]
  cases neg
  · simp
  · simp [hn rfl]

theorem skipWs_cons {c : ℕ} (r : Text) (h : isWs c = false) : skipWs (c :: r) = c :: r := by
  simp [skipWs, h]

theorem printNat_cons (n : ℕ) : ∃ c r, printNat n = c :: r ∧ isDigit c = true := by
  obtain ⟨c, r, h⟩ := List.exists_cons_of_ne_nil (printNat_ne_nil n)
  exact ⟨c, r, h, printNat_digits n c (by simp [h])⟩

theorem pWord_append (w : Text) (v : Value) (rest : Text) : pWord w v (w ++ rest) = some (v, rest) := by
  simp [pWord]

theorem skipWs_append {ws : Text} (h : ∀ c ∈ ws, isWs c = true) (t : Text) :
    skipWs (ws ++ t) = skipWs t := by
  induction ws with
  | nil => rfl
  | cons c ws ih =>
    rw [List.cons_append, skipWs, if_pos (h c (by simp)), ih fun d hd => h d (by simp [hd])]

theorem stops_of_head {c : ℕ} {ws : Text} (hw : ∀ c ∈ ws, isWs c = true) (r : Text)
    (h : c = 44 ∨ c = 93 ∨ c = 125) : Stops (ws ++ c :: r) := by
  intro d hd
  cases ws with
  | nil =>
    simp only [List.nil_append, List.head?_cons, Option.mem_some_iff] at hd
    subst hd
    rcases h with rfl | rfl | rfl <;> decide
  | cons w ws =>
    simp only [List.cons_append, List.head?_cons, Option.mem_some_iff] at hd
    subst hd
    have := hw w (by simp)
    simp only [isWs, Bool.or_eq_true, beq_iff_eq] at this
    simp only [isDigit, Bool.and_eq_true, decide_eq_true_eq]
    omega

section
variable {nl : ℕ → Text} {sp : Text} (hnl : ∀ d, ∀ c ∈ nl d, isWs c = true)
  (hsp : ∀ c ∈ sp, isWs c = true)

theorem print_cons (d : ℕ) (v : Value) :
    ∃ c r, printWith nl sp d v = c :: r ∧ isWs c = false ∧ c ≠ 93 := by
  cases v with
  | null => exact ⟨110, _, by unfold printWith; rfl, rfl, by decide⟩
  | bool b => cases b
              · exact ⟨102, _, by unfold printWith; rfl, rfl, by decide⟩
              · exact ⟨116, _, by unfold printWith; rfl, rfl, by decide⟩
  | int n =>
    obtain ⟨c, r, h, hc⟩ := printNat_cons n.natAbs
    unfold printWith
    by_cases hn : n < 0
    · exact ⟨45, _, by rw [if_pos hn]; rfl, rfl, by decide⟩
    · refine ⟨c, r, by rw [if_neg hn, h]; rfl, ?_, ?_⟩ <;>
        simp [isDigit] at hc <;> simp [isWs] <;> omega
  | float => exact ⟨48, _, by unfold printWith; rfl, rfl, by decide⟩
  | str e s => exact ⟨34, _, by unfold printWith; rfl, rfl, by decide⟩
  | arr l => cases l <;> exact ⟨91, _, by unfold printWith; rfl, rfl, by decide⟩
  | obj l => cases l <;> exact ⟨123, _, by unfold printWith; rfl, rfl, by decide⟩

theorem printElements_cons (d : ℕ) (v : Value) (l : List Value) :
    ∃ c r, printElements nl sp d (v :: l) = c :: r ∧ isWs c = false ∧ c ≠ 93 := by
  obtain ⟨c, r, h, h1, h2⟩ := print_cons (nl := nl) (sp := sp) d v
  cases l with
  | nil => exact ⟨c, r, by simp [printElements, h], h1, h2⟩
  | cons w l => exact ⟨c, _, by simp only [printElements, h, List.cons_append]; rfl, h1, h2⟩

theorem printMembers_cons (d : ℕ) (m : Text × Value) (l : List (Text × Value)) :
    ∃ r, printMembers nl sp d (m :: l) = 34 :: r := by
  obtain ⟨k, v⟩ := m
  cases l with
  | nil => exact ⟨_, by simp only [printMembers]; rfl⟩
  | cons w l => exact ⟨_, by simp only [printMembers]; rfl⟩

include hnl hsp

mutual

theorem pValue_print (v : Value) (hv : Plain v) (d n : ℕ) (ws rest : Text)
    (hws : ∀ c ∈ ws, isWs c = true) (hn : 2 * (printWith nl sp d v).length ≤ n)
    (hr : Stops rest) : pValue n (ws ++ (printWith nl sp d v ++ rest)) = some (v, rest) := by
  obtain ⟨c, r, hp, hw, -⟩ := print_cons (nl := nl) (sp := sp) d v
  obtain ⟨n, rfl⟩ : ∃ m, n = m + 1 := ⟨n - 1, by rw [hp] at hn; simp at hn; omega⟩
  rw [pValue, skipWs_append hws, hp, List.cons_append, skipWs_cons _ hw]
  match v, hv with
  | .null, _ =>
    unfold printWith at hp
    obtain ⟨rfl, rfl⟩ : (110 : ℕ) = c ∧ _ = r := List.cons.inj hp
    exact pWord_append (txt "null") _ rest
  | .bool true, _ =>
    unfold printWith at hp
    obtain ⟨rfl, rfl⟩ : (116 : ℕ) = c ∧ _ = r := List.cons.inj hp
    exact pWord_append (txt "true") _ rest
  | .bool false, _ =>
    unfold printWith at hp
    obtain ⟨rfl, rfl⟩ : (102 : ℕ) = c ∧ _ = r := List.cons.inj hp
    exact pWord_append (txt "false") _ rest
  | .int k, _ =>
    unfold printWith at hp
    by_cases hk : k < 0
    · rw [if_pos hk] at hp
      obtain ⟨rfl, rfl⟩ : (45 : ℕ) = c ∧ _ = r := List.cons.inj hp
      have := pNumber_print k.natAbs hr true (fun _ => by omega)
      simp only [if_true] at this
      rw [show (-(k.natAbs : ℤ)) = k by omega] at this
      exact this
    · rw [if_neg hk, List.nil_append] at hp
      have hc : isDigit c = true := printNat_digits k.natAbs c (by simp [hp])
      have := pNumber_print k.natAbs hr false (by simp)
      simp only [Bool.false_eq_true, if_false] at this
      rw [show (k.natAbs : ℤ) = k by omega, hp] at this
      simp only [isDigit, Bool.and_eq_true, decide_eq_true_eq] at hc
      simp only [show c ≠ 34 by omega, show c ≠ 91 by omega, show c ≠ 123 by omega,
        show c ≠ 110 by omega, show c ≠ 116 by omega, show c ≠ 102 by omega, show c ≠ 45 by omega,
        if_false]
      exact this
  | .str e s, hv =>
    unfold Plain at hv
    obtain ⟨rfl, hs⟩ := hv
    unfold printWith at hp
    obtain ⟨rfl, rfl⟩ : (34 : ℕ) = c ∧ s ++ [34] = r := List.cons.inj hp
    simp [pString_plain s rest hs]
  | .arr [], _ =>
    unfold printWith at hp
    obtain ⟨rfl, rfl⟩ : (91 : ℕ) = c ∧ [93] = r := List.cons.inj hp
    simp [skipWs, isWs]
  | .arr (v :: l), hv =>
    unfold Plain at hv
    unfold printWith at hp hn
    obtain ⟨rfl, rfl⟩ : (91 : ℕ) = c ∧ _ = r := List.cons.inj hp
    obtain ⟨c', r', hp', hw', hc'⟩ := printElements_cons (nl := nl) (sp := sp) (d + 1) v l
    have ih := pElements_print (v :: l) (by simp) hv (d + 1) n [] (nl d) rest (by simp) (hnl d)
      (by simp at hn; omega)
    simp only [hp', List.cons_append, List.append_assoc, List.nil_append] at ih ⊢
    rw [skipWs_append (hnl _), skipWs_cons _ hw']
    simp [hc', ih]
  | .obj [], _ =>
    unfold printWith at hp
    obtain ⟨rfl, rfl⟩ : (123 : ℕ) = c ∧ [125] = r := List.cons.inj hp
    simp [skipWs, isWs]
  | .obj (v :: l), hv =>
    unfold Plain at hv
    unfold printWith at hp hn
    obtain ⟨rfl, rfl⟩ : (123 : ℕ) = c ∧ _ = r := List.cons.inj hp
    obtain ⟨r', hp'⟩ := printMembers_cons (nl := nl) (sp := sp) (d + 1) v l
    have ih := pMembers_print (v :: l) (by simp) hv (d + 1) n [] (nl d) rest (by simp) (hnl d)
      (by simp at hn; omega)
    simp only [hp', List.cons_append, List.append_assoc, List.nil_append] at ih ⊢
    rw [skipWs_append (hnl _), skipWs_cons _ (by decide)]
    simp [ih]

theorem pElements_print (l : List Value) (hne : l ≠ []) (hl : PlainElements l) (d n : ℕ)
    (ws ws' rest : Text) (hws : ∀ c ∈ ws, isWs c = true) (hws' : ∀ c ∈ ws', isWs c = true)
    (hn : 2 * (printElements nl sp d l).length + 1 ≤ n) :
    pElements n (ws ++ (printElements nl sp d l ++ (ws' ++ 93 :: rest))) = some (l, rest) := by
  obtain ⟨n, rfl⟩ : ∃ m, n = m + 1 := ⟨n - 1, by omega⟩
  match l, hne, hl with
  | [v], _, hl =>
    unfold PlainElements at hl
    have ih := pValue_print v hl.1 d n ws (ws' ++ 93 :: rest) hws
      (by simp only [printElements] at hn; omega) (stops_of_head hws' _ (by simp))
    simp [pElements, printElements, ih, skipWs_append hws', skipWs, isWs]
  | v :: w :: l, _, hl =>
    unfold PlainElements at hl
    rw [printElements] at hn
    simp only [List.length_append, List.length_cons] at hn
    have ih := pValue_print v hl.1 d n ws
      (44 :: (nl d ++ (printElements nl sp d (w :: l) ++ (ws' ++ 93 :: rest)))) hws (by omega)
      (stops_of_head (ws := []) (by simp) _ (by simp))
    have ih' := pElements_print (w :: l) (by simp) hl.2 d n (nl d) ws' rest (hnl d) hws' (by omega)
    rw [pElements, printElements]
    simp only [List.append_assoc, List.cons_append] at ih ⊢
    simp [ih, ih', skipWs, isWs]

theorem pMembers_print (l : List (Text × Value)) (hne : l ≠ []) (hl : PlainMembers l) (d n : ℕ)
    (ws ws' rest : Text) (hws : ∀ c ∈ ws, isWs c = true) (hws' : ∀ c ∈ ws', isWs c = true)
    (hn : 2 * (printMembers nl sp d l).length + 1 ≤ n) :
    pMembers n (ws ++ (printMembers nl sp d l ++ (ws' ++ 125 :: rest))) = some (l, rest) := by
  obtain ⟨n, rfl⟩ : ∃ m, n = m + 1 := ⟨n - 1, by omega⟩
  match l, hne, hl with
  | [(k, v)], _, hl =>
    unfold PlainMembers at hl
    rw [printMembers] at hn
    simp only [List.length_append, List.length_cons] at hn
    have ih := pValue_print v hl.2.1 d n sp (ws' ++ 125 :: rest) hsp (by omega)
      (stops_of_head hws' _ (by simp))
    have hk := pString_plain k (58 :: (sp ++ (printWith nl sp d v ++ (ws' ++ 125 :: rest)))) hl.1
    rw [pMembers, printMembers, skipWs_append hws]
    simp only [List.append_assoc, List.cons_append] at hk ⊢
    rw [skipWs_cons _ (by decide)]
    simp only [if_true, hk, Option.bind_some]
    rw [skipWs_cons _ (by decide)]
    simp [ih, skipWs_append hws', skipWs, isWs]
  | (k, v) :: w :: l, _, hl =>
    unfold PlainMembers at hl
    rw [printMembers] at hn
    simp only [List.length_append, List.length_cons] at hn
    have ih := pValue_print v hl.2.1 d n sp
      (44 :: (nl d ++ (printMembers nl sp d (w :: l) ++ (ws' ++ 125 :: rest)))) hsp (by omega)
      (stops_of_head (ws := []) (by simp) _ (by simp))
    have ih' := pMembers_print (w :: l) (by simp) hl.2.2 d n (nl d) ws' rest (hnl d) hws' (by omega)
    have hk := pString_plain k (58 :: (sp ++ (printWith nl sp d v ++
      (44 :: (nl d ++ (printMembers nl sp d (w :: l) ++ (ws' ++ 125 :: rest))))))) hl.1
    rw [pMembers, printMembers, skipWs_append hws]
    simp only [List.append_assoc, List.cons_append] at hk ih ⊢
    rw [skipWs_cons _ (by decide)]
    simp only [if_true, hk, Option.bind_some]
    rw [skipWs_cons _ (by decide)]
    simp [ih, ih', skipWs, isWs]

end

theorem parse_printWith (v : Value) (hv : Plain v) (a b : Text) (ha : ∀ c ∈ a, isWs c = true)
    (hb : ∀ c ∈ b, isWs c = true) : parse (a ++ (printWith nl sp 0 v ++ b)) = some v := by
  have hs : Stops b := by
    have := stops_of_head hb [] (c := 44) (by simp)
    intro c hc
    exact this c (by cases b <;> simp_all)
  have := pValue_print hnl hsp v hv 0 (2 * (a ++ (printWith nl sp 0 v ++ b)).length + 1) a b ha
    (by simp; omega) hs
  have hb' : skipWs b = [] := by simpa [skipWs] using skipWs_append hb []
  rw [parse, this, Option.bind_some, hb']
  rfl

end

theorem parse_print (v : Value) (hv : Plain v) : parse (print v) = some v := by
  simpa [print] using parse_printWith (nl := fun _ => []) (sp := []) (by simp) (by simp) v hv [] []
    (by simp) (by simp)

theorem parse_printPretty (v : Value) (hv : Plain v) (b : Text) (hb : ∀ c ∈ b, isWs c = true) :
    parse (printPretty v ++ b) = some v := by
  have := parse_printWith (nl := fun d => 10 :: List.replicate (2 * d) 32) (sp := [32])
    (by intro d c hc
        rcases List.mem_cons.1 hc with rfl | hc
        · decide
        · rw [List.eq_of_mem_replicate hc]; decide) (by simp [isWs]) v hv [] b (by simp) hb
  simpa [printPretty] using this

/-! ### What the code writes needs no escapes -/

theorem plain_hexDigit (d : ℕ) (h : d < 16) : 32 ≤ hexDigit d ∧ hexDigit d ≠ 34 ∧ hexDigit d ≠ 92 := by
  interval_cases d <;> decide

theorem plain_zeroX {s : Text} (h : PlainText s) : PlainText (zeroX ++ s) := by
  intro c hc
  rcases List.mem_append.1 hc with hc | hc
  · simp [zeroX] at hc; omega
  · exact h c hc

theorem plain_bytesText {b : List ℕ} (h : IsBytes b) : PlainText (bytesText b) := by
  intro c hc
  simp only [bytesText, List.mem_flatMap] at hc
  obtain ⟨x, hx, hc⟩ := hc
  have := h x hx
  simp only [hexText, List.mem_cons, List.not_mem_nil, or_false] at hc
  rcases hc with rfl | rfl
  · exact plain_hexDigit _ (by omega)
  · exact plain_hexDigit _ (by omega)

theorem plain_serializeHex {len : ℕ} {b : List ℕ} (h : IsHexBytes len b) :
    PlainText (serializeHex len b) := by
  rw [(c43_print len b h.1 h.2).1]
  exact plain_zeroX (plain_bytesText h.1)

theorem plain_toHex (n : ℕ) : PlainText (toHex n) := by
  intro c hc
  obtain ⟨ds, -, hd, -, he⟩ := isHexText_toHex n
  rw [he] at hc
  obtain ⟨d, hd', rfl⟩ := List.mem_map.1 hc
  exact plain_hexDigit d (hd d hd')

theorem plain_pad {k : ℕ} {s : Text} (h : PlainText s) : PlainText (padLeft k s) := by
  intro c hc
  rcases List.mem_append.1 hc with hc | hc
  · rw [List.eq_of_mem_replicate hc]; decide
  · exact h c hc

theorem plain_hex {len : ℕ} {b : List ℕ} (h : IsHexBytes len b) : Plain (seStr (serializeHex len b)) := by
  unfold seStr Plain
  exact ⟨rfl, plain_serializeHex h⟩

theorem plain_int (n : ℕ) : Plain (seStr (seUintHex n)) := by
  unfold seStr Plain
  exact ⟨rfl, plain_zeroX (plain_toHex n)⟩

theorem plain_intFixed (n : ℕ) : Plain (seStr (seUintHexFixed32 n)) := by
  unfold seStr Plain
  exact ⟨rfl, plain_zeroX (plain_pad (plain_toHex n))⟩

theorem plainMembers_append (a b : List (Text × Value)) :
    PlainMembers (a ++ b) ↔ PlainMembers a ∧ PlainMembers b := by
  induction a with
  | nil => simp [PlainMembers]
  | cons x a ih =>
    obtain ⟨k, v⟩ := x
    simp only [List.cons_append, PlainMembers, ih]
    tauto

theorem plainElements_map {α : Type} (s : α → Value) (l : List α) (h : ∀ a ∈ l, Plain (s a)) :
    PlainElements (l.map s) := by
  induction l with
  | nil => unfold List.map PlainElements; trivial
  | cons a l ih =>
    rw [List.map_cons, PlainElements]
    exact ⟨h a (by simp), ih fun b hb => h b (by simp [hb])⟩

theorem plain_pair {α : Type} (s : α → Value) (p : α × α) (h1 : Plain (s p.1)) (h2 : Plain (s p.2)) :
    Plain (sePair s p) := by
  unfold sePair Plain
  exact plainElements_map s [p.1, p.2] (by simp [h1, h2])

theorem plain_option {α : Type} (s : α → Value) (o : Option α) (h : ∀ a ∈ o, Plain (s a)) :
    Plain (seOption s o) := by
  cases o with
  | none => unfold seOption Plain; trivial
  | some a => exact h a rfl

theorem plain_skip {α : Type} (name : String) (s : α → Value) (o : Option α) (hk : PlainText (txt name))
    (h : ∀ a ∈ o, Plain (s a)) : PlainMembers (seSkip name s o) := by
  cases o with
  | none => unfold seSkip PlainMembers; trivial
  | some a => simp only [seSkip, PlainMembers]; exact ⟨hk, h a rfl, trivial⟩

theorem plain_node {n : SMTNode} (h : NodeTyped n) : Plain (seNode n) := by
  simp only [seNode, Plain, PlainMembers, and_true]
  exact ⟨by unfold PlainText; decide, plain_hex h.1, by unfold PlainText; decide, plain_hex h.2.1,
    by unfold PlainText; decide⟩

theorem plain_path {p : Path} (h : PathTyped p) : Plain (sePath p) := by
  unfold sePath Plain
  refine (plainMembers_append _ _).2 ⟨(plainMembers_append _ _).2 ⟨(plainMembers_append _ _).2 ⟨?_, ?_⟩,
    ?_⟩, ?_⟩
  · simp only [PlainMembers, and_true]
    exact ⟨by unfold PlainText; decide, plain_hex h.1⟩
  · exact plain_skip _ _ _ (by unfold PlainText; decide) fun n hn => plain_node (h.2.1 n hn)
  · split
    · unfold PlainMembers; trivial
    · simp only [PlainMembers, Plain, and_true]
      exact ⟨by unfold PlainText; decide, plainElements_map _ _ fun n hn => plain_node (h.2.2 n hn)⟩
  · simp only [PlainMembers, and_true]
    exact ⟨by unfold PlainText; decide, plain_int _⟩

theorem plain_account (a : AccountData) : Plain (seAccount a) := by
  simp only [seAccount, Plain, PlainMembers, and_true]
  exact ⟨by unfold PlainText; decide, trivial, by unfold PlainText; decide, plain_int _,
    by unfold PlainText; decide, plain_intFixed _, by unfold PlainText; decide, plain_intFixed _,
    by unfold PlainText; decide⟩

theorem plain_state {s : StateData} (h : StateTyped s) : Plain (seState s) := by
  simp only [seState, Plain, PlainMembers, and_true]
  exact ⟨by unfold PlainText; decide, plain_hex h.1, by unfold PlainText; decide, plain_hex h.2⟩

theorem plain_trace {t : Trace} (h : TraceTyped t) : Plain (seTrace t) := by
  unfold seTrace Plain
  refine (plainMembers_append _ _).2 ⟨(plainMembers_append _ _).2 ⟨(plainMembers_append _ _).2 ⟨?_, ?_⟩,
    ?_⟩, ?_⟩
  · simp only [PlainMembers, and_true]
    exact ⟨by unfold PlainText; decide, plain_hex h.address, by unfold PlainText; decide,
      plain_hex h.accountKey, by unfold PlainText; decide,
      plain_pair _ _ (plain_path h.accountPath.1) (plain_path h.accountPath.2),
      by unfold PlainText; decide,
      plain_pair _ _ (plain_option _ _ fun a _ => plain_account a)
        (plain_option _ _ fun a _ => plain_account a), by unfold PlainText; decide,
      plain_pair _ _ (plain_option _ _ fun p hp => plain_path (h.statePath.1 p hp))
        (plain_option _ _ fun p hp => plain_path (h.statePath.2 p hp))⟩
  · exact plain_skip _ _ _ (by unfold PlainText; decide) fun r hr => plain_hex (h.commonStateRoot r hr)
  · exact plain_skip _ _ _ (by unfold PlainText; decide) fun r hr => plain_hex (h.stateKey r hr)
  · exact plain_skip _ _ _ (by unfold PlainText; decide) fun u hu =>
      plain_pair _ _ (plain_option _ _ fun s hs => plain_state ((h.stateUpdate u hu).1 s hs))
        (plain_option _ _ fun s hs => plain_state ((h.stateUpdate u hu).2 s hs))

/-- Space, tab, line feed and carriage return are white space. -/
theorem isWs_of_mem {b : Text} (hb : ∀ c ∈ b, c ∈ [32, 9, 10, 13]) : ∀ c ∈ b, isWs c = true := by
  intro c hc
  have := hb c hc
  simp only [List.mem_cons, List.not_mem_nil, or_false] at this
  rcases this with rfl | rfl | rfl | rfl <;> rfl

/-- C59: writing any trace as JSON text and reading the text gives the same trace, with all fields. -/
theorem c59_round_trip (t : Trace) (h : TraceTyped t) : traceFromStr (traceToString t) = some t := by
  rw [traceFromStr, traceToString, parse_print _ (plain_trace h), Option.bind_some, deTrace_se h]

/-- C59: the same for the indented text, as the tests write it, with white space after it. -/
theorem c59_round_trip_pretty (t : Trace) (h : TraceTyped t) (b : Text) (hb : ∀ c ∈ b, c ∈ [32, 9, 10, 13]) :
    traceFromStr (traceToStringPretty t ++ b) = some t := by
  rw [traceFromStr, traceToStringPretty, parse_printPretty _ (plain_trace h) b (isWs_of_mem hb), Option.bind_some,
    deTrace_se h]

theorem deProofType_se (t : MPTProofType) : deProofType (seProofType t) = some t := by
  cases t <;> decide +kernel

theorem plain_updates {us : List (MPTProofType × Trace)} (h : ∀ u ∈ us, TraceTyped u.2) :
    Plain (.arr (us.map seUpdate)) := by
  unfold Plain
  refine plainElements_map _ _ fun u hu => ?_
  unfold seUpdate Plain
  simp only [PlainElements, seProofType, seStr, Plain, and_true, true_and]
  exact ⟨by cases u.1 <;> (unfold PlainText; decide +kernel), plain_trace (h u hu)⟩

theorem deVec_updates {us : List (MPTProofType × Trace)} (h : ∀ u ∈ us, TraceTyped u.2) :
    deVec deUpdate (.arr (us.map seUpdate)) = some us := by
  refine mapM_map_id us fun u hu => ?_
  simp [seUpdate, deUpdate, deProofType_se, deTrace_se (h u hu)]

/-- C59: the same for the list of updates that a circuit is made of. -/
theorem c59_round_trip_updates (us : List (MPTProofType × Trace)) (h : ∀ u ∈ us, TraceTyped u.2) :
    updatesFromStr (updatesToString us) = some us := by
  rw [updatesFromStr, updatesToString, parse_print _ (plain_updates h), Option.bind_some, deVec_updates h]

/-- C59: the same for the indented text. -/
theorem c59_round_trip_updates_pretty (us : List (MPTProofType × Trace)) (h : ∀ u ∈ us, TraceTyped u.2)
    (b : Text) (hb : ∀ c ∈ b, c ∈ [32, 9, 10, 13]) :
    updatesFromStr (printPretty (.arr (us.map seUpdate)) ++ b) = some us := by
  rw [updatesFromStr, parse_printPretty _ (plain_updates h) b (isWs_of_mem hb), Option.bind_some, deVec_updates h]

/-- A trace with every kind of field, for the examples. -/
def sampleTrace : Trace :=
  { address := List.replicate 20 7, accountKey := List.replicate 32 255,
    accountPath := (⟨List.replicate 32 1, some ⟨List.replicate 32 2, List.replicate 32 3, 4⟩,
      [⟨List.replicate 32 5, List.replicate 32 6, 9⟩], 5⟩, ⟨List.replicate 32 1, none, [], 0⟩),
    accountUpdate := (none, some ⟨1, 2 ^ 200, 3, 4, 2 ^ 64 - 1⟩),
    statePath := (none, some ⟨List.replicate 32 1, none, [], 0⟩),
    commonStateRoot := none, stateKey := some (List.replicate 32 8),
    stateUpdate := some (none, some ⟨List.replicate 32 1, List.replicate 32 0⟩) }

/-- The round trip has an instance with every kind of field. -/
example : TraceTyped sampleTrace := by
  constructor <;> simp [sampleTrace, IsHexBytes, IsBytes, PathTyped, NodeTyped, AccountTyped, StateTyped]

end Mpt.Props
