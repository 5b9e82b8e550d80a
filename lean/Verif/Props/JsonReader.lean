import Verif.Props.JsonText
import Verif.Spec.JsonGrammar

set_option autoImplicit false

/-!
# C68: the reader accepts exactly the JSON texts

The reader of `Types/Json` against the grammar of `Spec/JsonGrammar`.
-/

namespace Mpt.Props
open Mpt Spec Types Serde Json Spec.JsonGrammar

theorem ws_iff {t : Text} : Ws t ↔ ∀ c ∈ t, isWs c = true := by
  unfold Ws isWs
  constructor <;> intro h c hc <;> have := h c hc
  · simp at this
    rcases this with rfl | rfl | rfl | rfl <;> rfl
  · simp at this ⊢
    omega

theorem digits_iff {t : Text} : Digits t ↔ ∀ c ∈ t, isDigit c = true := by
  unfold Digits isDigit
  simp

theorem skipWs_split (t : Text) : ∃ a, Ws a ∧ t = a ++ skipWs t := by
  induction t with
  | nil => exact ⟨[], by simp [Ws], rfl⟩
  | cons c r ih =>
    unfold skipWs
    split
    · rename_i h
      obtain ⟨a, h1, h2⟩ := ih
      refine ⟨c :: a, ws_iff.2 ?_, by rw [List.cons_append, ← h2]⟩
      intro d hd
      rcases List.mem_cons.1 hd with rfl | hd
      · exact h
      · exact ws_iff.1 h1 d hd
    · exact ⟨[], by simp [Ws], rfl⟩

theorem digits_split (t : Text) : t = (digits t).1 ++ (digits t).2 ∧ Digits (digits t).1 := by
  induction t with
  | nil => exact ⟨rfl, by simp [digits, Digits]⟩
  | cons c r ih =>
    unfold digits
    split
    · rename_i h
      refine ⟨by simp [← ih.1], digits_iff.2 ?_⟩
      intro d hd
      rcases List.mem_cons.1 hd with rfl | hd
      · exact h
      · exact digits_iff.1 ih.2 d hd
    · exact ⟨rfl, by simp [Digits]⟩

theorem hexVal_digit (c : ℕ) : (hexVal c).isSome = true ↔ HexDigit c := by
  unfold hexVal HexDigit
  split
  · simp; omega
  · split
    · simp; omega
    · split
      · simp; omega
      · simp; omega

theorem ofDigits_eq (s : Text) : Json.ofDigits s = Nat.ofDigits 10 (s.map (· - 48)).reverse := by
  unfold Json.ofDigits
  induction s using List.reverseRecOn with
  | nil => rfl
  | append_singleton s c ih =>
    rw [List.foldl_append, List.map_append, List.reverse_append]
    simp only [List.foldl_cons, List.foldl_nil, List.map_cons, List.map_nil, List.reverse_cons, List.reverse_nil,
      List.nil_append, List.cons_append]
    rw [Nat.ofDigits_cons, ih]
    simp [Nat.add_comm]

/-! ## What is read is JSON -/

theorem pString_sound (n : ℕ) : ∀ (t : Text) (e : Bool) (s r : Text), t.length ≤ n → pString t = some (e, s, r) →
    Chars e s ∧ t = s ++ 34 :: r := by
  induction n with
  | zero =>
    intro t e s r h1 h
    obtain rfl := List.length_eq_zero_iff.1 (Nat.le_zero.1 h1)
    simp [pString] at h
  | succ n ih =>
    intro t e s r h1 h
    rw [pString.eq_def] at h
    split at h
    · cases h
    · rename_i c u
      simp only [List.length_cons] at h1
      split at h
      · rename_i hc
        subst hc
        cases h
        exact ⟨.nil, rfl⟩
      · split at h
        · rename_i hc
          subst hc
          split at h
          · cases h
          · rename_i d u'
            simp only [List.length_cons] at h1
            split at h
            · rename_i hd
              obtain ⟨x, hx, hy⟩ := Option.map_eq_some_iff.1 h
              cases hy
              obtain ⟨i1, i2⟩ := ih u' x.1 x.2.1 x.2.2 (by omega) hx
              exact ⟨.short d (by simpa using hd) i1, by rw [i2]; rfl⟩
            · split at h
              · rename_i hd
                subst hd
                split at h
                · rename_i a b d g r''
                  simp only [List.length_cons] at h1
                  split at h
                  · rename_i hh
                    simp only [Bool.and_eq_true, hexVal_digit] at hh
                    obtain ⟨x, hx, hy⟩ := Option.map_eq_some_iff.1 h
                    cases hy
                    obtain ⟨i1, i2⟩ := ih r'' x.1 x.2.1 x.2.2 (by omega) hx
                    exact ⟨.unicode a b d g hh.1.1.1 hh.1.1.2 hh.1.2 hh.2 i1, by rw [i2]; rfl⟩
                  · cases h
                · cases h
              · cases h
        · split at h
          · cases h
          · rename_i k1 k2 k3
            obtain ⟨x, hx, hy⟩ := Option.map_eq_some_iff.1 h
            cases hy
            obtain ⟨i1, i2⟩ := ih u x.1 x.2.1 x.2.2 (by omega) hx
            exact ⟨.plain c (by omega) k1 k2 i1, by rw [i2]; rfl⟩

theorem pExponent_sound {t : Text} {b : Bool} {r : Text} (h : pExponent t = some (b, r)) :
    ∃ e, t = e ++ r ∧ (if b then Exponent e else e = []) := by
  unfold pExponent at h
  split at h
  · cases h; exact ⟨[], rfl, rfl⟩
  · rename_i c u
    split at h
    · rename_i hc
      have key : ∀ sign u' : Text, (sign = [] ∨ sign = [43] ∨ sign = [45]) → u = sign ++ u' →
          (if (digits u').1.isEmpty = true then none else some (true, (digits u').2)) = some (b, r) →
          ∃ e, c :: u = e ++ r ∧ (if b then Exponent e else e = []) := by
        intro sign u' hs hu h
        split at h
        · cases h
        · rename_i hne
          cases h
          obtain ⟨d1, d2⟩ := digits_split u'
          refine ⟨c :: (sign ++ (digits u').1), ?_, ?_⟩
          · rw [hu, List.cons_append, List.append_assoc, ← d1]
          · exact ⟨c, sign, _, rfl, hc, hs, by simpa using hne, d2⟩
      cases u with
      | nil => exact key [] [] (.inl rfl) rfl h
      | cons s r' =>
        simp only at h
        by_cases hs : s = 43 ∨ s = 45
        · rw [if_pos hs] at h
          exact key [s] r' (by rcases hs with rfl | rfl <;> simp) rfl h
        · rw [if_neg hs] at h
          exact key [] (s :: r') (.inl rfl) rfl h
    · cases h
      exact ⟨[], rfl, rfl⟩

theorem pFraction_sound {t : Text} {b : Bool} {r : Text} (h : pFraction t = some (b, r)) :
    ∃ f e, t = f ++ (e ++ r) ∧ (f = [] ∨ Fraction f) ∧ (e = [] ∨ Exponent e) ∧ (b = true ↔ f ≠ [] ∨ e ≠ []) := by
  unfold pFraction at h
  split at h
  · cases h; exact ⟨[], [], rfl, .inl rfl, .inl rfl, by simp⟩
  · rename_i c u
    split at h
    · rename_i hc
      subst hc
      split at h
      · cases h
      · rename_i hne
        obtain ⟨⟨b', r'⟩, hx, hy⟩ := Option.map_eq_some_iff.1 h
        cases hy
        obtain ⟨d1, d2⟩ := digits_split u
        obtain ⟨e, e1, e2⟩ := pExponent_sound hx
        refine ⟨46 :: (digits u).1, e, ?_, .inr ⟨_, rfl, by simpa using hne, d2⟩, ?_, by simp⟩
        · rw [← e1, List.cons_append, ← d1]
        · cases b'
          · exact .inl e2
          · exact .inr e2
    · obtain ⟨e, e1, e2⟩ := pExponent_sound h
      refine ⟨[], e, by simpa using e1, .inl rfl, ?_, ?_⟩
      · cases b
        · exact .inl e2
        · exact .inr e2
      · cases b
        · obtain rfl : e = [] := e2
          simp
        · obtain ⟨c', sign, ds, rfl, -⟩ : Exponent e := e2
          simp

theorem intPart_zero {s : Text} (h : IntPart s 0) : s = [48] := by
  obtain ⟨h1, h2, h3, h4⟩ := h
  cases s with
  | nil => exact absurd rfl h1
  | cons c s =>
    have hc := h2 c (by simp)
    by_cases h0 : c = 48
    · exact h3 (by rw [h0]; rfl)
    · exfalso
      rw [List.map_cons, List.reverse_cons, Nat.ofDigits_append, Nat.ofDigits_singleton] at h4
      have : 0 < 10 ^ (s.map (· - 48)).reverse.length * (c - 48) := Nat.mul_pos (by positivity) (by omega)
      omega

theorem pNumber_sound {neg : Bool} {t : Text} {v : Value} {r : Text} (h : pNumber neg t = some (v, r)) :
    ∃ b, Number ((if neg then [45] else []) ++ b) v ∧ t = b ++ r := by
  unfold pNumber at h
  simp only at h
  obtain ⟨d1, d2⟩ := digits_split t
  revert h d1 d2
  generalize digits t = d
  obtain ⟨s, u⟩ := d
  intro h d1 d2
  simp only at h d1 d2
  split at h
  · cases h
  · rename_i hne
    split at h
    · cases h
    · rename_i hz
      obtain ⟨⟨b, r'⟩, hx, hy⟩ := Option.map_eq_some_iff.1 h
      cases hy
      obtain ⟨f, e, f1, f2, f3, f4⟩ := pFraction_sound hx
      have hI : IntPart s (Json.ofDigits s) := by
        refine ⟨by simpa using hne, d2, fun hh => ?_, ofDigits_eq s⟩
        by_contra hs
        refine hz ⟨hh, fun hl => hs ?_⟩
        obtain ⟨c, rfl⟩ := List.length_eq_one_iff.1 hl
        simpa using hh
      refine ⟨s ++ (f ++ e), ?_, by rw [d1, f1]; simp⟩
      cases b with
      | true =>
        exact .real (by cases neg <;> simp) hI f2 f3 (f4.1 rfl)
      | false =>
        have hf : f = [] := by
          by_contra hf
          exact absurd (f4.2 (.inl hf)) (by simp)
        have he : e = [] := by
          by_contra he
          exact absurd (f4.2 (.inr he)) (by simp)
        subst hf he
        simp only [List.append_nil, Bool.false_eq_true, if_false]
        cases neg with
        | false => exact .nat hI
        | true =>
          simp only [if_true]
          split
          · rename_i h0
            have : s = [48] := intPart_zero (h0 ▸ hI)
            subst this
            exact .negZero
          · rename_i h0
            exact .neg hI h0

theorem take_eq {w t : Text} (h : t.take w.length = w) : t = w ++ t.drop w.length := by
  conv_lhs => rw [← List.take_append_drop w.length t, h]

theorem pWord_sound {w t r : Text} {x v : Value} (h : pWord w x t = some (v, r)) : v = x ∧ t = w ++ r := by
  unfold pWord at h
  split at h
  · rename_i hw
    cases h
    exact ⟨rfl, take_eq hw⟩
  · cases h

theorem ws_append {a b : Text} (ha : Ws a) (hb : Ws b) : Ws (a ++ b) := by
  intro c hc
  rcases List.mem_append.1 hc with h | h
  · exact ha c h
  · exact hb c h

theorem elements_ws {w t : Text} {l : List Value} (hw : Ws w) (h : IsElements t l) : IsElements (w ++ t) l := by
  cases h with
  | one h1 h2 h3 =>
    rw [← List.append_assoc]
    exact .one (ws_append hw h1) h2 h3
  | more h1 h2 h3 h4 =>
    rw [← List.append_assoc]
    exact .more (ws_append hw h1) h2 h3 h4

theorem members_ws {w t : Text} {l : List (Text × Value)} (hw : Ws w) (h : IsMembers t l) :
    IsMembers (w ++ t) l := by
  cases h with
  | one h1 h2 h3 h4 h5 h6 =>
    rw [← List.append_assoc]
    exact .one (ws_append hw h1) h2 h3 h4 h5 h6
  | more h1 h2 h3 h4 h5 h6 h7 =>
    rw [← List.append_assoc]
    exact .more (ws_append hw h1) h2 h3 h4 h5 h6 h7

/-- What the reader reads is a value, after white space. -/
theorem reads_sound (n : ℕ) :
    (∀ (t : Text) (v : Value) (r : Text), pValue n t = some (v, r) →
      ∃ a b, Ws a ∧ IsValue b v ∧ t = a ++ (b ++ r)) ∧
    (∀ (t : Text) (l : List Value) (r : Text), pElements n t = some (l, r) →
      ∃ b, IsElements b l ∧ t = b ++ 93 :: r) ∧
    (∀ (t : Text) (l : List (Text × Value)) (r : Text), pMembers n t = some (l, r) →
      ∃ b, IsMembers b l ∧ t = b ++ 125 :: r) := by
  induction n with
  | zero => refine ⟨fun t v r h => ?_, fun t v r h => ?_, fun t v r h => ?_⟩ <;> simp [pValue, pElements, pMembers] at h
  | succ n ih =>
    obtain ⟨ih1, ih2, ih3⟩ := ih
    refine ⟨fun t v r h => ?_, fun t l r h => ?_, fun t l r h => ?_⟩
    · unfold pValue at h
      obtain ⟨a, ha, ht⟩ := skipWs_split t
      refine ⟨a, ?_⟩
      rw [ht]
      suffices hs : ∃ b, IsValue b v ∧ skipWs t = b ++ r by
        obtain ⟨b, h1, h2⟩ := hs
        exact ⟨b, ha, h1, by rw [← h2, ← ht]⟩
      revert h
      generalize skipWs t = u
      intro h
      split at h
      · cases h
      · rename_i c u
        split at h
        · rename_i hc
          subst hc
          obtain ⟨x, hx, hy⟩ := Option.map_eq_some_iff.1 h
          cases hy
          obtain ⟨i1, i2⟩ := pString_sound _ u x.1 x.2.1 x.2.2 le_rfl hx
          exact ⟨_, .string i1, by simp [i2]⟩
        · split at h
          · rename_i hc
            subst hc
            obtain ⟨w, hw, hu⟩ := skipWs_split u
            split at h
            · cases h
            · rename_i c' r' hr
              rw [hr] at hu
              split at h
              · rename_i hc
                subst hc
                cases h
                exact ⟨_, .emptyArray hw, by simp [hu]⟩
              · obtain ⟨x, hx, hy⟩ := Option.map_eq_some_iff.1 h
                cases hy
                obtain ⟨b, i1, i2⟩ := ih2 _ x.1 x.2 hx
                exact ⟨_, .array (elements_ws hw i1), by simp [hu, i2]⟩
          · split at h
            · rename_i hc
              subst hc
              obtain ⟨w, hw, hu⟩ := skipWs_split u
              split at h
              · cases h
              · rename_i c' r' hr
                rw [hr] at hu
                split at h
                · rename_i hc
                  subst hc
                  cases h
                  exact ⟨_, .emptyObject hw, by simp [hu]⟩
                · obtain ⟨x, hx, hy⟩ := Option.map_eq_some_iff.1 h
                  cases hy
                  obtain ⟨b, i1, i2⟩ := ih3 _ x.1 x.2 hx
                  exact ⟨_, .object (members_ws hw i1), by simp [hu, i2]⟩
            · split at h
              · obtain ⟨rfl, h'⟩ := pWord_sound h
                exact ⟨_, .null, h'⟩
              · split at h
                · obtain ⟨rfl, h'⟩ := pWord_sound h
                  exact ⟨_, .true, h'⟩
                · split at h
                  · obtain ⟨rfl, h'⟩ := pWord_sound h
                    exact ⟨_, .false, h'⟩
                  · split at h
                    · rename_i hc
                      subst hc
                      obtain ⟨b, h1, h2⟩ := pNumber_sound h
                      exact ⟨_, .number h1, by simp [h2]⟩
                    · obtain ⟨b, h1, h2⟩ := pNumber_sound h
                      exact ⟨b, .number (by simpa using h1), h2⟩
    · unfold pElements at h
      obtain ⟨⟨v, u⟩, hx, h⟩ := Option.bind_eq_some_iff.1 h
      obtain ⟨a, b, ha, hb, ht⟩ := ih1 _ _ _ hx
      obtain ⟨w, hw, hu⟩ := skipWs_split u
      simp only at h
      split at h
      · cases h
      · rename_i c r' hr
        rw [hr] at hu
        split at h
        · rename_i hc
          subst hc
          cases h
          exact ⟨_, .one ha hb hw, by simp [ht, hu]⟩
        · split at h
          · rename_i hc
            subst hc
            obtain ⟨x, hx, hy⟩ := Option.map_eq_some_iff.1 h
            cases hy
            obtain ⟨s, i1, i2⟩ := ih2 _ x.1 x.2 hx
            exact ⟨_, .more ha hb hw i1, by simp [ht, hu, i2]⟩
          · cases h
    · unfold pMembers at h
      obtain ⟨a, ha, ht⟩ := skipWs_split t
      split at h
      · cases h
      · rename_i c u hr
        rw [hr] at ht
        split at h
        · rename_i hc
          subst hc
          obtain ⟨k, hk, h⟩ := Option.bind_eq_some_iff.1 h
          obtain ⟨k1, k2⟩ := pString_sound _ u k.1 k.2.1 k.2.2 le_rfl hk
          obtain ⟨w, hw, hu⟩ := skipWs_split k.2.2
          split at h
          · cases h
          · rename_i c' r' hr'
            rw [hr'] at hu
            split at h
            · rename_i hc
              subst hc
              obtain ⟨⟨v, u'⟩, hx, h⟩ := Option.bind_eq_some_iff.1 h
              obtain ⟨a', b, ha', hb, ht'⟩ := ih1 _ _ _ hx
              obtain ⟨w', hw', hu'⟩ := skipWs_split u'
              simp only at h
              split at h
              · cases h
              · rename_i c'' r'' hr''
                rw [hr''] at hu'
                split at h
                · rename_i hc
                  subst hc
                  cases h
                  exact ⟨_, .one ha k1 hw ha' hb hw', by simp [ht, k2, hu, ht', hu']⟩
                · split at h
                  · rename_i hc
                    subst hc
                    obtain ⟨x, hx, hy⟩ := Option.map_eq_some_iff.1 h
                    cases hy
                    obtain ⟨s, i1, i2⟩ := ih3 _ x.1 x.2 hx
                    exact ⟨_, .more ha k1 hw ha' hb hw' i1, by simp [ht, k2, hu, ht', hu', i2]⟩
                  · cases h
            · cases h
        · cases h

/-! ## Every text of the grammar is read -/

theorem pString_complete {e : Bool} {s : Text} (h : Chars e s) (rest : Text) :
    pString (s ++ 34 :: rest) = some (e, s, rest) := by
  induction h with
  | nil => rw [List.nil_append, pString.eq_def]; simp
  | plain c h1 h2 h3 _ ih =>
    rw [List.cons_append, pString.eq_def]
    simp [h2, h3, Nat.not_lt.2 h1, ih]
  | short c h1 _ ih =>
    rw [List.cons_append, List.cons_append, pString.eq_def]
    simp only [ih]
    rw [if_neg (by decide), if_pos trivial, if_pos (by simpa using h1)]
    rfl
  | unicode a b c d ha hb hc hd _ ih =>
    simp only [List.cons_append]
    rw [pString.eq_def]
    simp only [ih]
    rw [if_neg (by decide), if_pos trivial, if_neg (by decide), if_pos trivial,
      if_pos (by simp [(hexVal_digit _).2 ha, (hexVal_digit _).2 hb, (hexVal_digit _).2 hc, (hexVal_digit _).2 hd])]
    rfl

theorem pExponent_complete {e : Text} (h : Exponent e) {rest : Text} (hr : Stops rest) :
    pExponent (e ++ rest) = some (true, rest) := by
  obtain ⟨c, sign, ds, rfl, hc, hs, hne, hd⟩ := h
  have hdig := digits_append ds rest (digits_iff.1 hd) fun x hx => (hr x hx).1
  obtain ⟨d, ds', rfl⟩ := List.exists_cons_of_ne_nil hne
  have hd0 := hd d (by simp)
  simp only [List.cons_append, pExponent, if_pos hc]
  rcases hs with rfl | rfl | rfl
  · have h1 : ¬(d = 43 ∨ d = 45) := by omega
    simp only [List.nil_append, List.cons_append] at hdig ⊢
    simp only [if_neg h1, hdig]
    simp
  · simp only [List.cons_append, List.nil_append] at hdig ⊢
    simp [hdig]
  · simp only [List.cons_append, List.nil_append] at hdig ⊢
    simp [hdig]

theorem exponent_head {e : Text} (h : Exponent e) : ∃ c r, e = c :: r ∧ (c = 101 ∨ c = 69) := by
  obtain ⟨c, sign, ds, rfl, hc, -⟩ := h
  exact ⟨c, _, rfl, hc⟩

theorem pFraction_complete {f e : Text} (hf : f = [] ∨ Fraction f) (he : e = [] ∨ Exponent e)
    (hfe : f ≠ [] ∨ e ≠ []) {rest : Text} (hr : Stops rest) :
    pFraction (f ++ (e ++ rest)) = some (true, rest) := by
  have hrest : ∀ c ∈ (e ++ rest).head?, ¬ isDigit c = true := by
    rcases he with rfl | he
    · exact fun c hc => (hr c hc).1
    · obtain ⟨c, r, rfl, hc⟩ := exponent_head he
      intro d hd
      simp only [List.cons_append, List.head?_cons, Option.mem_some_iff] at hd
      subst hd
      rcases hc with rfl | rfl <;> decide
  rcases hf with rfl | ⟨ds, rfl, hne, hd⟩
  · rcases he with rfl | he
    · simp at hfe
    · have hx := pExponent_complete he hr
      obtain ⟨c, r, rfl, hc⟩ := exponent_head he
      simp only [List.nil_append, List.cons_append] at hx ⊢
      rw [pFraction, if_neg (by omega), hx]
  · have hdig := digits_append ds (e ++ rest) (digits_iff.1 hd) hrest
    rw [List.cons_append, pFraction, if_pos rfl, hdig]
    have h1 : ds.isEmpty = false := by simpa using hne
    simp only [h1]
    rcases he with rfl | he
    · cases rest with
      | nil => rfl
      | cons c r =>
        obtain ⟨-, -, h2, h3⟩ := hr c rfl
        simp [pExponent, h2, h3]
    · rw [pExponent_complete he hr]; rfl

theorem pNumber_complete {s : Text} {n : ℕ} (h : IntPart s n) {t rest : Text} {b : Bool} (neg : Bool)
    (ht : ∀ c ∈ t.head?, ¬ isDigit c = true) (hf : pFraction t = some (b, rest)) :
    pNumber neg (s ++ t) = some (if b then .float else if neg then (if n = 0 then .float else .int (-n)) else .int n,
      rest) := by
  obtain ⟨h1, h2, h3, h4⟩ := h
  have hdig := digits_append s t (digits_iff.1 h2) ht
  unfold pNumber
  have hl : ¬(s.head? = some 48 ∧ s.length ≠ 1) := by
    rintro ⟨h5, h6⟩
    rw [h3 h5] at h6
    exact h6 rfl
  simp only [hdig, hf, List.isEmpty_iff, if_neg h1, if_neg hl, ofDigits_eq, ← h4]
  rfl

theorem intPart_head {s : Text} {n : ℕ} (h : IntPart s n) : ∃ c r, s = c :: r ∧ 48 ≤ c ∧ c ≤ 57 := by
  obtain ⟨c, r, rfl⟩ := List.exists_cons_of_ne_nil h.1
  exact ⟨c, r, rfl, h.2.1 c (by simp)⟩

theorem number_head {t : Text} {v : Value} (h : Number t v) :
    ∃ c r, t = c :: r ∧ (c = 45 ∨ (48 ≤ c ∧ c ≤ 57)) := by
  cases h with
  | nat h => obtain ⟨c, r, rfl, hc⟩ := intPart_head h; exact ⟨c, r, rfl, .inr hc⟩
  | neg h => exact ⟨_, _, rfl, .inl rfl⟩
  | negZero => exact ⟨_, _, rfl, .inl rfl⟩
  | real hs h =>
    rcases hs with rfl | rfl
    · obtain ⟨c, r, rfl, hc⟩ := intPart_head h; exact ⟨c, _, rfl, .inr hc⟩
    · exact ⟨_, _, rfl, .inl rfl⟩

theorem value_head {t : Text} {v : Value} (h : IsValue t v) :
    ∃ c r, t = c :: r ∧ isWs c = false ∧ c ≠ 93 ∧ c ≠ 125 := by
  cases h with
  | null => exact ⟨110, _, rfl, rfl, by decide⟩
  | true => exact ⟨116, _, rfl, rfl, by decide⟩
  | false => exact ⟨102, _, rfl, rfl, by decide⟩
  | number h =>
    obtain ⟨c, r, rfl, hc⟩ := number_head h
    refine ⟨c, r, rfl, ?_, by omega, by omega⟩
    have : ¬ isWs c = true := by
      intro hw
      have := ws_iff (t := [c]).2 (by simpa using hw) c (by simp)
      simp at this
      omega
    simpa using this
  | string => exact ⟨34, _, rfl, rfl, by decide⟩
  | emptyArray => exact ⟨91, _, rfl, rfl, by decide⟩
  | array => exact ⟨91, _, rfl, rfl, by decide⟩
  | emptyObject => exact ⟨123, _, rfl, rfl, by decide⟩
  | object => exact ⟨123, _, rfl, rfl, by decide⟩

theorem skipWs_value {a t : Text} {v : Value} (ha : Ws a) (h : IsValue t v) (rest : Text) :
    skipWs (a ++ (t ++ rest)) = t ++ rest := by
  obtain ⟨c, r, rfl, hw, -⟩ := value_head h
  rw [skipWs_append (ws_iff.1 ha), List.cons_append, skipWs_cons _ hw]

theorem skipWs_skipWs (t : Text) : skipWs (skipWs t) = skipWs t := by
  induction t with
  | nil => rfl
  | cons c t ih =>
    by_cases h : isWs c = true
    · simp only [skipWs, if_pos h, ih]
    · rw [skipWs_cons t (by simpa using h), skipWs_cons t (by simpa using h)]

theorem pElements_skipWs (n : ℕ) (t : Text) : pElements n (skipWs t) = pElements n t := by
  cases n with
  | zero => simp [pElements]
  | succ n =>
    cases n with
    | zero => simp [pElements, pValue]
    | succ n => simp only [pElements, pValue, skipWs_skipWs]

theorem pMembers_skipWs (n : ℕ) (t : Text) : pMembers n (skipWs t) = pMembers n t := by
  cases n with
  | zero => simp [pMembers]
  | succ n => simp only [pMembers, skipWs_skipWs]

theorem elements_head {t : Text} {l : List Value} (h : IsElements t l) (rest : Text) :
    ∃ c r, skipWs (t ++ rest) = c :: r ∧ c ≠ 93 := by
  cases h with
  | @one a t b v ha hv hb =>
    obtain ⟨c, r, rfl, -, h1, -⟩ := value_head hv
    rw [List.append_assoc, List.append_assoc, skipWs_value ha hv]
    exact ⟨c, _, rfl, h1⟩
  | @more a t b s v l ha hv hb hs =>
    obtain ⟨c, r, rfl, -, h1, -⟩ := value_head hv
    rw [List.append_assoc, List.append_assoc, skipWs_value ha hv]
    exact ⟨c, _, rfl, h1⟩

theorem members_head {t : Text} {l : List (Text × Value)} (h : IsMembers t l) (rest : Text) :
    ∃ r, skipWs (t ++ rest) = 34 :: r := by
  cases h with
  | one ha =>
    rw [List.append_assoc, skipWs_append (ws_iff.1 ha), List.cons_append, skipWs_cons _ rfl]
    exact ⟨_, rfl⟩
  | more ha =>
    rw [List.append_assoc, skipWs_append (ws_iff.1 ha), List.cons_append, skipWs_cons _ rfl]
    exact ⟨_, rfl⟩

theorem pNumber_value {t : Text} {v : Value} (h : Number t v) {rest : Text} (hr : Stops rest) :
    (∃ r, t = 45 :: r ∧ pNumber true (r ++ rest) = some (v, rest)) ∨
      (t.head? ≠ some 45 ∧ pNumber false (t ++ rest) = some (v, rest)) := by
  have hstop : ∀ c ∈ rest.head?, ¬ isDigit c = true := fun c hc => (hr c hc).1
  cases h with
  | @nat s n h =>
    right
    obtain ⟨c, r, rfl, hc⟩ := intPart_head h
    refine ⟨by simp; omega, ?_⟩
    rw [pNumber_complete h false hstop (pFraction_stops hr)]
    rfl
  | @neg s n h hn =>
    left
    refine ⟨_, rfl, ?_⟩
    rw [pNumber_complete h true hstop (pFraction_stops hr)]
    simp [hn]
  | negZero =>
    left
    refine ⟨_, rfl, ?_⟩
    rw [pNumber_complete (s := [48]) (n := 0) ⟨by simp, by intro c hc; simp at hc; omega, by simp, rfl⟩ true hstop
      (pFraction_stops hr)]
    rfl
  | @real sign s f e n hs h hf he hfe =>
    have hd : ∀ c ∈ (f ++ (e ++ rest)).head?, ¬ isDigit c = true := by
      rcases hf with rfl | ⟨ds, rfl, -⟩
      · rcases he with rfl | he
        · exact hstop
        · obtain ⟨c, r, rfl, hc⟩ := exponent_head he
          intro d hd
          simp only [List.nil_append, List.cons_append, List.head?_cons, Option.mem_some_iff] at hd
          subst hd
          rcases hc with rfl | rfl <;> decide
      · intro d hd
        simp only [List.cons_append, List.head?_cons, Option.mem_some_iff] at hd
        subst hd
        decide
    have hx := pFraction_complete hf he hfe hr
    rcases hs with rfl | rfl
    · right
      have hh := pNumber_complete h false hd hx
      obtain ⟨c, r, rfl, hc⟩ := intPart_head h
      refine ⟨by simp; omega, ?_⟩
      simpa [List.append_assoc] using hh
    · left
      refine ⟨_, rfl, ?_⟩
      have hh := pNumber_complete h true hd hx
      simpa [List.append_assoc] using hh

mutual

theorem pValue_complete {t : Text} {v : Value} (h : IsValue t v) (n : ℕ) (a rest : Text) (ha : Ws a)
    (hn : 2 * t.length ≤ n + 1) (hr : Stops rest) : pValue n (a ++ (t ++ rest)) = some (v, rest) := by
  obtain ⟨n, rfl⟩ : ∃ m, n = m + 1 := by
    obtain ⟨c, r, rfl, -⟩ := value_head h
    exact ⟨n - 1, by simp at hn; omega⟩
  rw [pValue, skipWs_value ha h]
  match h with
  | .null => exact pWord_append (txt "null") _ rest
  | .true => exact pWord_append (txt "true") _ rest
  | .false => exact pWord_append (txt "false") _ rest
  | .number h =>
    rcases pNumber_value h hr with ⟨r, rfl, h1⟩ | ⟨h0, h1⟩
    · simpa using h1
    · obtain ⟨c, r, rfl, hc⟩ := number_head h
      have hc' : 48 ≤ c ∧ c ≤ 57 := by
        rcases hc with rfl | hc
        · simp at h0
        · exact hc
      rw [List.cons_append] at h1 ⊢
      simp only [h1]
      rw [if_neg (by omega), if_neg (by omega), if_neg (by omega), if_neg (by omega), if_neg (by omega),
        if_neg (by omega), if_neg (by omega)]
  | .string hs =>
    simp [pString_complete hs]
  | @IsValue.emptyArray w hw =>
    have : skipWs (w ++ 93 :: rest) = 93 :: rest := by
      rw [skipWs_append (ws_iff.1 hw), skipWs_cons _ rfl]
    simp [this]
  | @IsValue.array t l hl =>
    have h1 := pElements_complete hl n rest (by simp at hn; omega)
    obtain ⟨c, r, h2, h3⟩ := elements_head hl (93 :: rest)
    rw [← pElements_skipWs, h2] at h1
    simp [h2, h3, h1]
  | @IsValue.emptyObject w hw =>
    have : skipWs (w ++ 125 :: rest) = 125 :: rest := by
      rw [skipWs_append (ws_iff.1 hw), skipWs_cons _ rfl]
    simp [this]
  | @IsValue.object t l hl =>
    have h1 := pMembers_complete hl n rest (by simp at hn; omega)
    obtain ⟨r, h2⟩ := members_head hl (125 :: rest)
    rw [← pMembers_skipWs, h2] at h1
    simp [h2, h1]

theorem pElements_complete {t : Text} {l : List Value} (h : IsElements t l) (n : ℕ) (rest : Text)
    (hn : 2 * t.length ≤ n) : pElements n (t ++ 93 :: rest) = some (l, rest) := by
  match h with
  | @IsElements.one a t b v ha hv hb =>
    obtain ⟨n, rfl⟩ : ∃ m, n = m + 1 := by
      obtain ⟨c, r, rfl, -⟩ := value_head hv
      exact ⟨n - 1, by simp at hn; omega⟩
    have h1 := pValue_complete hv n a (b ++ 93 :: rest) ha (by simp at hn; omega)
      (stops_of_head (ws_iff.1 hb) rest (by simp))
    have h2 : skipWs (b ++ 93 :: rest) = 93 :: rest := by
      rw [skipWs_append (ws_iff.1 hb), skipWs_cons _ rfl]
    simp only [List.append_assoc, pElements, h1, Option.bind_some, h2]
    rfl
  | @IsElements.more a t b s v l ha hv hb hs =>
    obtain ⟨n, rfl⟩ : ∃ m, n = m + 1 := by
      obtain ⟨c, r, rfl, -⟩ := value_head hv
      exact ⟨n - 1, by simp at hn; omega⟩
    have h1 := pValue_complete hv n a (b ++ 44 :: (s ++ 93 :: rest)) ha (by simp at hn; omega)
      (stops_of_head (ws_iff.1 hb) _ (by simp))
    have h2 : skipWs (b ++ 44 :: (s ++ 93 :: rest)) = 44 :: (s ++ 93 :: rest) := by
      rw [skipWs_append (ws_iff.1 hb), skipWs_cons _ rfl]
    have h3 := pElements_complete hs n rest (by simp at hn; omega)
    simp only [List.append_assoc, List.cons_append, pElements, h1, Option.bind_some, h2, h3]
    rfl

theorem pMembers_complete {t : Text} {l : List (Text × Value)} (h : IsMembers t l) (n : ℕ) (rest : Text)
    (hn : 2 * t.length ≤ n) : pMembers n (t ++ 125 :: rest) = some (l, rest) := by
  match h with
  | @IsMembers.one a k b c t d e v ha hk hb hc hv hd =>
    obtain ⟨n, rfl⟩ : ∃ m, n = m + 1 := ⟨n - 1, by simp at hn; omega⟩
    have h1 := pValue_complete hv n c (d ++ 125 :: rest) hc (by simp at hn; omega)
      (stops_of_head (ws_iff.1 hd) rest (by simp))
    have h2 : skipWs (d ++ 125 :: rest) = 125 :: rest := by
      rw [skipWs_append (ws_iff.1 hd), skipWs_cons _ rfl]
    have h3 : skipWs (b ++ 58 :: (c ++ (t ++ (d ++ 125 :: rest)))) = 58 :: (c ++ (t ++ (d ++ 125 :: rest))) := by
      rw [skipWs_append (ws_iff.1 hb), skipWs_cons _ rfl]
    have h4 := pString_complete hk (b ++ 58 :: (c ++ (t ++ (d ++ 125 :: rest))))
    simp only [List.append_assoc, List.cons_append, pMembers, skipWs_append (ws_iff.1 ha),
      skipWs_cons (c := 34) _ rfl, if_true, h4, Option.bind_some, h3, h1, h2]
  | @IsMembers.more a k b c t d s e v l ha hk hb hc hv hd hs =>
    obtain ⟨n, rfl⟩ : ∃ m, n = m + 1 := ⟨n - 1, by simp at hn; omega⟩
    have h1 := pValue_complete hv n c (d ++ 44 :: (s ++ 125 :: rest)) hc (by simp at hn; omega)
      (stops_of_head (ws_iff.1 hd) _ (by simp))
    have h2 : skipWs (d ++ 44 :: (s ++ 125 :: rest)) = 44 :: (s ++ 125 :: rest) := by
      rw [skipWs_append (ws_iff.1 hd), skipWs_cons _ rfl]
    have h3 : skipWs (b ++ 58 :: (c ++ (t ++ (d ++ 44 :: (s ++ 125 :: rest))))) =
        58 :: (c ++ (t ++ (d ++ 44 :: (s ++ 125 :: rest)))) := by
      rw [skipWs_append (ws_iff.1 hb), skipWs_cons _ rfl]
    have h4 := pString_complete hk (b ++ 58 :: (c ++ (t ++ (d ++ 44 :: (s ++ 125 :: rest)))))
    have h5 := pMembers_complete hs n rest (by simp at hn; omega)
    simp only [List.append_assoc, List.cons_append, pMembers, skipWs_append (ws_iff.1 ha),
      skipWs_cons (c := 34) _ rfl, if_true, h4, Option.bind_some, h3, h1, h2, h5]
    rfl

end

theorem stops_ws {b : Text} (hb : Ws b) : Stops b := by
  have := stops_of_head (ws_iff.1 hb) [] (c := 44) (by simp)
  intro c hc
  exact this c (by cases b <;> simp_all)

theorem skipWs_nil {b : Text} : skipWs b = [] ↔ Ws b := by
  constructor
  · intro h
    obtain ⟨a, ha, hb⟩ := skipWs_split b
    rw [h, List.append_nil] at hb
    rwa [hb]
  · intro h
    have := skipWs_append (ws_iff.1 h) []
    simpa [skipWs] using this

/-- **C68.** The reader accepts exactly the JSON texts, and gives the value the text denotes. -/
theorem c68_json (t : Text) (v : Value) : parse t = some v ↔ IsJson t v := by
  unfold parse
  constructor
  · intro h
    obtain ⟨⟨w, r⟩, h1, h2⟩ := Option.bind_eq_some_iff.1 h
    obtain ⟨a, b, ha, hb, ht⟩ := (reads_sound _).1 _ _ _ h1
    simp only [List.isEmpty_iff, Option.ite_none_right_eq_some] at h2
    obtain ⟨h3, h4⟩ := h2
    cases h4
    exact ⟨a, b, r, ha, hb, skipWs_nil.1 h3, ht⟩
  · rintro ⟨a, b, r, ha, hb, hr, rfl⟩
    rw [pValue_complete hb _ a r ha (by simp; omega) (stops_ws hr)]
    simp [skipWs_nil.2 hr]

/-- A text of the grammar with white space, an escape, an exponent, an empty array and nesting, and the value it
denotes (as it is printed; a float is printed as `0.5`). -/
example : ∃ v, IsJson (txt " {\"a\" : [1, -25e+3,\"x\\n\" ], \"b\":{\"c\":[ ]}, \"d\": -7 }\n") v ∧
    print v = txt "{\"a\":[1,0.5,\"x\\n\"],\"b\":{\"c\":[]},\"d\":-7}" := by
  have h : (parse (txt " {\"a\" : [1, -25e+3,\"x\\n\" ], \"b\":{\"c\":[ ]}, \"d\": -7 }\n")).map print =
    some (txt "{\"a\":[1,0.5,\"x\\n\"],\"b\":{\"c\":[]},\"d\":-7}") := by decide +kernel
  obtain ⟨v, h1, h2⟩ := Option.map_eq_some_iff.1 h
  exact ⟨v, (c68_json _ _).1 h1, h2⟩

/-- Texts that are not in the grammar: a leading zero, a trailing comma, two values, a bare word, an open bracket, an
unknown escape, a fraction without digits, a sign alone, nothing. -/
example : ∀ t ∈ [txt "01", txt "[1,]", txt "1 2", txt "nul", txt "[1", txt "\"\\x\"", txt "1.", txt "-", txt ""],
    ∀ v, ¬ IsJson t v := by
  have hn : ∀ t ∈ [txt "01", txt "[1,]", txt "1 2", txt "nul", txt "[1", txt "\"\\x\"", txt "1.", txt "-", txt ""],
      (parse t).isNone = true := by decide +kernel
  intro t ht v h
  have := hn t ht
  rw [(c68_json t v).2 h] at this
  cases this

end Mpt.Props
