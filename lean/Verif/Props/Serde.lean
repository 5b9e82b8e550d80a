import Verif.Types.Serde
import Mathlib.Tactic.IntervalCases

set_option autoImplicit false

/-!
# Properties C43, C44, C49: text encodings and row grouping
-/

namespace Mpt.Props
open Mpt Mpt.Spec Mpt.Serde

/-! ## Specification -/

/-- ASCII lower-casing. -/
def lower (c : ℕ) : ℕ := if 65 ≤ c ∧ c ≤ 90 then c + 32 else c

/-- The lower-case hexadecimal digit of a number below 16, as an ASCII code. -/
def hexDigit (d : ℕ) : ℕ := ("0123456789abcdef".toList.map Char.toNat).getD d 0

/-- The `k` lower-case hexadecimal digits of `n`, most significant first. -/
def hexText : ℕ → ℕ → Text
  | 0, _ => []
  | k + 1, n => hexDigit (n / 16 ^ k % 16) :: hexText k n

/-- Two lower-case digits per byte. -/
def bytesText (b : List ℕ) : Text := b.flatMap (hexText 2)

/-! ## Digits -/

theorem hexChar_eq (d : ℕ) (h : d < 16) : hexChar d = hexDigit d := by
  interval_cases d <;> rfl

theorem hexVal_some (c d : ℕ) (h : hexVal c = some d) : d < 16 ∧ lower c = hexDigit d := by
  simp only [hexVal] at h
  split at h
  · rename_i hc
    obtain ⟨h1, h2⟩ := hc
    simp only [Option.some.injEq] at h
    subst h
    interval_cases c <;> exact ⟨by norm_num, rfl⟩
  · split at h
    · rename_i _ hc
      obtain ⟨h1, h2⟩ := hc
      simp only [Option.some.injEq] at h
      subst h
      interval_cases c <;> exact ⟨by norm_num, rfl⟩
    · split at h
      · rename_i _ _ hc
        obtain ⟨h1, h2⟩ := hc
        simp only [Option.some.injEq] at h
        subst h
        interval_cases c <;> exact ⟨by norm_num, rfl⟩
      · cases h

theorem hexDigit_cases (d : ℕ) (h : d < 16) :
    (d < 10 ∧ hexDigit d = 48 + d) ∨ (10 ≤ d ∧ hexDigit d = 87 + d) := by
  rw [← hexChar_eq d h, hexChar]
  split <;> omega

theorem hexVal_of_lower (c d : ℕ) (h : d < 16) (hc : lower c = hexDigit d) : hexVal c = some d := by
  rcases hexDigit_cases d h with ⟨h1, h2⟩ | ⟨h1, h2⟩ <;> rw [h2] at hc <;>
    simp only [lower] at hc <;> simp only [hexVal]
  · split at hc
    · omega
    · rw [if_neg (by omega), if_neg (by omega), if_pos (by omega)]
      congr 1; omega
  · split at hc
    · rw [if_pos (by omega)]
      congr 1; omega
    · rw [if_neg (by omega), if_pos (by omega)]
      congr 1; omega

theorem hexVal_iff (c d : ℕ) : hexVal c = some d ↔ d < 16 ∧ lower c = hexDigit d :=
  ⟨hexVal_some c d, fun h => hexVal_of_lower c d h.1 h.2⟩

theorem lower_hexDigit (d : ℕ) (h : d < 16) : lower (hexDigit d) = hexDigit d := by
  interval_cases d <;> rfl

theorem hexDigit_inj (a b : ℕ) (ha : a < 16) (hb : b < 16) (h : hexDigit a = hexDigit b) : a = b := by
  rcases hexDigit_cases a ha with ⟨_, h1⟩ | ⟨_, h1⟩ <;>
    rcases hexDigit_cases b hb with ⟨_, h2⟩ | ⟨_, h2⟩ <;> omega

/-! ## C43 -/

theorem bytesText_cons (x : ℕ) (b : List ℕ) : bytesText (x :: b) =
    hexDigit (x / 16 % 16) :: hexDigit (x % 16) :: bytesText b := by
  simp [bytesText, hexText]

theorem hexEncode_eq (b : List ℕ) (h : IsBytes b) : hexEncode b = bytesText b := by
  induction b with
  | nil => rfl
  | cons x b ih =>
    rw [isBytes_cons] at h
    rw [bytesText_cons, ← ih h.2, Nat.mod_eq_of_lt (a := x / 16) (by omega), ← hexChar_eq,
      ← hexChar_eq] <;> first | omega | rfl

theorem bytesText_length (b : List ℕ) : (bytesText b).length = 2 * b.length := by
  induction b with
  | nil => rfl
  | cons x b ih => rw [bytesText_cons]; simp [ih]; omega

theorem hexPairs_iff (t : Text) (b : List ℕ) :
    hexPairs t = some b ↔ IsBytes b ∧ t.map lower = bytesText b := by
  induction t using List.twoStepInduction generalizing b with
  | nil =>
    simp only [hexPairs, List.map_nil]
    constructor
    · intro h; cases h; exact ⟨isBytes_nil, rfl⟩
    · rintro ⟨_, h⟩
      have := congrArg List.length h
      rw [bytesText_length] at this
      have : b = [] := List.length_eq_zero_iff.1 (by simpa using this)
      rw [this]
  | singleton a =>
    simp only [hexPairs, reduceCtorEq, false_iff, not_and]
    intro _ h
    have := congrArg List.length h
    rw [bytesText_length] at this
    simp at this
    omega
  | cons_cons a c rest ih _ =>
    simp only [hexPairs, Option.bind_eq_bind, Option.pure_def, List.map_cons]
    constructor
    · intro h
      simp only [Option.bind_eq_some_iff, Option.some.injEq] at h
      obtain ⟨x, hx, y, hy, r, hr, rfl⟩ := h
      obtain ⟨h1, h2⟩ := (hexVal_iff _ _).1 hx
      obtain ⟨h3, h4⟩ := (hexVal_iff _ _).1 hy
      obtain ⟨h5, h6⟩ := (ih r).1 hr
      refine ⟨isBytes_cons.2 ⟨by omega, h5⟩, ?_⟩
      rw [bytesText_cons, h2, h4, h6, show (x * 16 + y) / 16 % 16 = x by omega,
        show (x * 16 + y) % 16 = y by omega]
    · rintro ⟨h1, h2⟩
      cases b with
      | nil => simp [bytesText] at h2
      | cons x b =>
        rw [isBytes_cons] at h1
        rw [bytesText_cons] at h2
        simp only [List.cons.injEq] at h2
        simp only [Option.bind_eq_some_iff, Option.some.injEq]
        refine ⟨x / 16 % 16, (hexVal_iff _ _).2 ⟨by omega, h2.1⟩, x % 16,
          (hexVal_iff _ _).2 ⟨by omega, h2.2.1⟩, b, (ih b).2 ⟨h1.2, h2.2.2⟩, ?_⟩
        congr 1
        have := h1.1
        omega

/-- The text without a leading `0x`. -/
def strip (t : Text) : Text := if t.take 2 = [48, 120] then t.drop 2 else t

theorem startsZeroX_iff (t : Text) : startsZeroX t = true ↔ t.take 2 = [48, 120] := by
  rcases t with _ | ⟨a, _ | ⟨b, t⟩⟩
  · simp [startsZeroX, zeroX, List.isPrefixOf]
  · simp [startsZeroX, zeroX, List.isPrefixOf]
  · have h1 : (48 = a) ↔ (a = 48) := eq_comm
    have h2 : (120 = b) ↔ (b = 120) := eq_comm
    simp only [startsZeroX, zeroX, List.isPrefixOf, Bool.and_eq_true, beq_iff_eq, h1, h2,
      List.take_succ_cons, List.take_zero, List.cons.injEq, and_true]

/-- C43, parsing: a text is parsed to `b` exactly when, after dropping an optional `0x` and
lower-casing, it is the `2 * len` lower-case hexadecimal digits of the `len` bytes `b`. In
particular a text of any other length, or with a non-hexadecimal character, is rejected. -/
theorem c43_parse (len : ℕ) (t : Text) (b : List ℕ) :
    deserializeHex len t = some b ↔
      b.length = len ∧ IsBytes b ∧ (strip t).map lower = bytesText b := by
  have key : ∀ s : Text, decodeToSlice len s = some b ↔
      b.length = len ∧ IsBytes b ∧ s.map lower = bytesText b := by
    intro s
    simp only [decodeToSlice]
    constructor
    · intro h
      split at h
      · cases h
      · split at h
        · cases h
        · obtain ⟨h1, h2⟩ := (hexPairs_iff _ _).1 h
          have := congrArg List.length h2
          rw [bytesText_length, List.length_map] at this
          exact ⟨by omega, h1, h2⟩
    · rintro ⟨h1, h2, h3⟩
      have := congrArg List.length h3
      rw [bytesText_length, List.length_map] at this
      rw [if_neg (by omega), if_neg (by omega)]
      exact (hexPairs_iff _ _).2 ⟨h2, h3⟩
  simp only [deserializeHex, strip]
  by_cases h : t.take 2 = [48, 120]
  · rw [if_pos ((startsZeroX_iff t).2 h), if_pos h, key]
  · rw [if_neg (fun h2 => h ((startsZeroX_iff t).1 h2)), if_neg h, key]

/-- C43, printing: `0x` and exactly `2 * len` lower-case digits. -/
theorem c43_print (len : ℕ) (b : List ℕ) (h : IsBytes b) (hl : b.length = len) :
    serializeHex len b = [48, 120] ++ bytesText b ∧ (bytesText b).length = 2 * len := by
  have h1 := bytesText_length b
  refine ⟨?_, by rw [h1, hl]⟩
  rw [serializeHex, padLeft, hexEncode_eq b h, h1, hl, Nat.mul_comm, Nat.sub_self]
  simp [zeroX]

theorem map_lower_bytesText (b : List ℕ) : (bytesText b).map lower = bytesText b := by
  induction b with
  | nil => rfl
  | cons x b ih =>
    rw [bytesText_cons]
    simp only [List.map_cons, ih]
    rw [lower_hexDigit _ (by omega), lower_hexDigit _ (by omega)]

/-- C43, round trip, with and without the prefix. -/
theorem c43_round_trip (len : ℕ) (b : List ℕ) (h : IsBytes b) (hl : b.length = len) :
    deserializeHex len (serializeHex len b) = some b ∧
      deserializeHex len (bytesText b) = some b := by
  constructor
  · rw [(c43_print len b h hl).1, c43_parse]
    exact ⟨hl, h, by simp [strip, map_lower_bytesText]⟩
  · rw [c43_parse]
    refine ⟨hl, h, ?_⟩
    rw [strip, if_neg, map_lower_bytesText]
    intro hc
    rcases b with _ | ⟨x, b⟩
    · simp [bytesText] at hc
    · rw [bytesText_cons] at hc
      simp only [List.take_succ_cons, List.take_zero, List.cons.injEq, and_true] at hc
      rcases hexDigit_cases (x % 16) (by omega) with ⟨_, h2⟩ | ⟨_, h2⟩ <;> omega

/-- C43, casting to `lnew` bytes: truncation or zero extension. -/
theorem c43_cast (lnew : ℕ) (b : List ℕ) :
    cast lnew b = (b ++ List.replicate (lnew - b.length) 0).take lnew := by
  have : (b.zip (List.replicate lnew 0)).map Prod.fst = b.take lnew := by
    induction b generalizing lnew with
    | nil => simp
    | cons x b ih =>
      cases lnew with
      | zero => simp
      | succ k => simp [List.replicate_succ, ih]
  rw [Serde.cast, this, List.take_append]
  congr 1
  rw [List.take_replicate, Nat.min_self]

/-- Non-vacuity: `HexBytes<2>` prints as `0x0aff`, and parses `0x0AfF`; it rejects `0x0af`. -/
example : serializeHex 2 [10, 255] = "0x0aff".toList.map Char.toNat ∧
    deserializeHex 2 ("0x0AfF".toList.map Char.toNat) = some [10, 255] ∧
    deserializeHex 2 ("0x0af".toList.map Char.toNat) = none := by decide

/-! ## C44 -/

theorem radixVal_hexDigit (d : ℕ) (h : d < 16) : radixVal (hexDigit d) = some d := by
  interval_cases d <;> rfl

theorem radixDigits_map (ds : List ℕ) (h : ∀ d ∈ ds, d < 16) :
    radixDigits 16 (ds.map hexDigit) = some ds := by
  induction ds with
  | nil => rfl
  | cons d ds ih =>
    have hd := h d (by simp)
    simp only [List.map_cons, radixDigits]
    rw [if_neg (by rcases hexDigit_cases d hd with ⟨_, h2⟩ | ⟨_, h2⟩ <;> omega),
      radixVal_hexDigit d hd]
    simp [hd, ih (fun x hx => h x (by simp [hx]))]

theorem parse_digits (ds : List ℕ) (hne : ds ≠ []) (h : ∀ d ∈ ds, d < 16) :
    parseBytes 16 (ds.map hexDigit) = some (Nat.ofDigits 16 ds.reverse) := by
  rcases ds with _ | ⟨d, ds⟩
  · exact absurd rfl hne
  have hd := h d (by simp)
  have hc : hexDigit d ≠ 43 ∧ hexDigit d ≠ 95 := by
    rcases hexDigit_cases d hd with ⟨_, h2⟩ | ⟨_, h2⟩ <;> omega
  have hm := radixDigits_map (d :: ds) h
  simp only [List.map_cons] at hm ⊢
  generalize hexDigit d = c at *
  simp only [parseBytes]
  split
  · rename_i heq
    simp only [List.cons.injEq] at heq
    exact absurd heq.1 hc.1
  · rw [if_neg (by simp), if_neg (by simpa using hc.2), hm]
    rfl

/-- The lower-case hexadecimal digits of `n` without leading zeros (`0` for 0), possibly preceded by
zeros. -/
def IsHexText (n : ℕ) (t : Text) : Prop :=
  ∃ ds : List ℕ, ds ≠ [] ∧ (∀ d ∈ ds, d < 16) ∧ Nat.ofDigits 16 ds.reverse = n ∧ t = ds.map hexDigit

theorem deUintHex_of_hexText {n : ℕ} {t : Text} (h : IsHexText n t) :
    deUintHex t = some n ∧ deUintHex (zeroX ++ t) = some n := by
  obtain ⟨ds, hne, hlt, rfl, rfl⟩ := h
  have hp := parse_digits ds hne hlt
  constructor
  · rw [deUintHex, if_neg, hp]
    intro hs
    rw [startsZeroX_iff] at hs
    rcases ds with _ | ⟨a, _ | ⟨b, ds⟩⟩
    · simp at hs
    · simp at hs
    · simp only [List.map_cons, List.take_succ_cons, List.take_zero, List.cons.injEq, and_true] at hs
      have hb := hlt b (by simp)
      rcases hexDigit_cases b hb with ⟨_, h2⟩ | ⟨_, h2⟩ <;> omega
  · rw [deUintHex, if_pos ((startsZeroX_iff _).2 (by simp [zeroX])), if_neg]
    · simpa [zeroX] using hp
    · have := List.length_pos_iff.2 hne
      simp [zeroX]
      intro h
      exact absurd h hne

theorem isHexText_toHex (n : ℕ) : IsHexText n (toHex n) := by
  rw [toHex]
  split
  · rename_i h
    subst h
    exact ⟨[0], by simp, by simp, by simp, rfl⟩
  · rename_i h
    refine ⟨(Nat.digits 16 n).reverse, by simpa [Nat.digits_eq_nil_iff_eq_zero] using h, ?_, ?_, ?_⟩
    · intro d hd
      exact Nat.digits_lt_base (by norm_num) (by simpa using hd)
    · rw [List.reverse_reverse, Nat.ofDigits_digits]
    · apply List.map_congr_left
      intro d hd
      exact hexChar_eq d (Nat.digits_lt_base (m := n) (by norm_num) (by simpa using hd))

theorem isHexText_pad {n : ℕ} {t : Text} (k : ℕ) (h : IsHexText n t) :
    IsHexText n (List.replicate k 48 ++ t) := by
  obtain ⟨ds, hne, hlt, rfl, rfl⟩ := h
  refine ⟨List.replicate k 0 ++ ds, by simp [hne], ?_, ?_, ?_⟩
  · intro d hd
    simp only [List.mem_append, List.mem_replicate] at hd
    rcases hd with ⟨_, rfl⟩ | hd
    · norm_num
    · exact hlt d hd
  · rw [List.reverse_append, Nat.ofDigits_append]
    simp [Nat.ofDigits_replicate_zero]
  · simp [List.map_append, List.map_replicate, hexDigit]

/-- C44: parsing a printed number gives it back, for both printers, with and without the prefix; the
bare prefix is 0. -/
theorem c44_round_trip (n : ℕ) :
    deUintHex (seUintHex n) = some n ∧ deUintHex (seUintHexFixed32 n) = some n ∧
    deUintHex ((seUintHex n).drop 2) = some n ∧ deUintHex ((seUintHexFixed32 n).drop 2) = some n ∧
    deUintHex [48, 120] = some 0 := by
  have h1 := deUintHex_of_hexText (isHexText_toHex n)
  have h2 := deUintHex_of_hexText (isHexText_pad (64 - (toHex n).length) (isHexText_toHex n))
  exact ⟨h1.2, h2.2, h1.1, h2.1, rfl⟩

theorem toHex_length (n : ℕ) (hn : n ≠ 0) : (toHex n).length = (Nat.digits 16 n).length := by
  simp [toHex, hn]

/-- C44: the fixed encoding has exactly 64 digits if and only if the number is below `2^256`. -/
theorem c44_fixed_width (n : ℕ) : ((seUintHexFixed32 n).drop 2).length = 64 ↔ n < 2 ^ 256 := by
  have e : ((seUintHexFixed32 n).drop 2).length = 64 - (toHex n).length + (toHex n).length := by
    simp [seUintHexFixed32, zeroX, padLeft]
  have h2 : (toHex n).length ≤ 64 ↔ n < 2 ^ 256 := by
    by_cases hn : n = 0
    · subst hn; simp [toHex]
    · rw [toHex_length n hn, show (2 : ℕ) ^ 256 = 16 ^ 64 by norm_num]
      exact Nat.digits_length_le_iff (by norm_num) n
  rw [e, ← h2]
  omega

/-- C44, letter case and separators: what else is accepted. Any mixture of cases parses like its
lower-case form; underscores after the first digit are ignored; one leading `+` is ignored. -/
theorem c44_case (c d : ℕ) (hd : d < 16) : radixVal c = some d ↔ lower c = hexDigit d := by
  constructor
  · intro h
    simp only [radixVal] at h
    have : hexVal c = some d := by
      simp only [hexVal]
      split at h
      · rw [if_neg (by omega), if_neg (by omega), if_pos (by omega)]; exact h
      · split at h
        · rename_i h1 h2
          simp only [Option.some.injEq] at h
          rw [if_neg (by omega), if_pos (by omega)]; congr 1; omega
        · split at h
          · simp only [Option.some.injEq] at h
            rw [if_pos (by omega)]; congr 1; omega
          · cases h
    exact ((hexVal_iff _ _).1 this).2
  · intro h
    have := (hexVal_iff c d).2 ⟨hd, h⟩
    simp only [hexVal] at this
    simp only [radixVal]
    split at this
    · simp only [Option.some.injEq] at this
      rw [if_neg (by omega), if_neg (by omega), if_pos (by omega)]; congr 1; omega
    · split at this
      · simp only [Option.some.injEq] at this
        rw [if_neg (by omega), if_pos (by omega)]; congr 1; omega
      · split at this
        · rw [if_pos (by omega)]; exact this
        · cases this

/-- Non-vacuity. -/
example : seUintHex 0xAB01 = "0xab01".toList.map Char.toNat ∧
    deUintHex ("0xaB_01".toList.map Char.toNat) = some 0xab01 ∧
    deUintHex ("+ab01".toList.map Char.toNat) = some 0xab01 ∧
    deUintHex ("0xxyz".toList.map Char.toNat) = none := by
  refine ⟨?_, by decide, by decide, by decide⟩
  simp [seUintHex, toHex, zeroX, hexChar]

/-! ## C49 -/

/-- The groups of `rows`: their concatenation is `rows`, no group is empty, no row inside a group
other than its first one is marked, and every group after the first one begins with a marked row. -/
structure IsGrouping {R : Type} (isFirst : R → Bool) (rows : List R) (groups : List (List R)) :
    Prop where
  flatten : groups.flatten = rows
  nonempty : ∀ g ∈ groups, g ≠ []
  inner : ∀ g ∈ groups, ∀ r ∈ g.tail, isFirst r = false
  heads : ∀ g ∈ groups.tail, ∀ r ∈ g.head?, isFirst r = true

theorem foldLoop_spec {R : Type} (isFirst : R → Bool) (rows out : _) (current : List R)
    (h1 : ∀ g ∈ out, g ≠ []) (h2 : ∀ g ∈ out, ∀ r ∈ g.tail, isFirst r = false)
    (h3 : ∀ g ∈ out.tail, ∀ r ∈ g.head?, isFirst r = true)
    (h4 : ∀ r ∈ current.tail, isFirst r = false)
    (h5 : out ≠ [] → current ≠ [] ∧ ∀ r ∈ current.head?, isFirst r = true) :
    IsGrouping isFirst (out.flatten ++ current ++ rows) (foldLoop isFirst out current rows) := by
  have tail_snoc : ∀ (g : List R), ∀ x ∈ (out ++ [g]).tail, x ∈ out.tail ∨ (out ≠ [] ∧ x = g) := by
    intro g x hx
    cases out with
    | nil => simp at hx
    | cons a out =>
      simp only [List.cons_append, List.tail_cons, List.mem_append, List.mem_singleton] at hx
      rcases hx with hx | hx
      · exact .inl hx
      · exact .inr ⟨by simp, hx⟩
  have snoc : current ≠ [] → (∀ g ∈ out ++ [current], g ≠ []) ∧
      (∀ g ∈ out ++ [current], ∀ r ∈ g.tail, isFirst r = false) ∧
      (∀ g ∈ (out ++ [current]).tail, ∀ r ∈ g.head?, isFirst r = true) := by
    intro hc
    refine ⟨?_, ?_, ?_⟩
    · intro g hg
      simp only [List.mem_append, List.mem_singleton] at hg
      rcases hg with hg | rfl
      · exact h1 g hg
      · exact hc
    · intro g hg
      simp only [List.mem_append, List.mem_singleton] at hg
      rcases hg with hg | rfl
      · exact h2 g hg
      · exact h4
    · intro g hg
      rcases tail_snoc current g hg with hg | ⟨ho, rfl⟩
      · exact h3 g hg
      · exact (h5 ho).2
  induction rows generalizing out current with
  | nil =>
    simp only [foldLoop, List.append_nil]
    split
    · rename_i he
      have : current = [] := List.isEmpty_iff.1 he
      subst this
      exact ⟨by simp, h1, h2, h3⟩
    · rename_i he
      obtain ⟨a, b, c⟩ := snoc (fun h => he (by simp [h]))
      exact ⟨by simp, a, b, c⟩
  | cons row rows ih =>
    simp only [foldLoop]
    split
    · rename_i hc
      simp only [Bool.and_eq_true, Bool.not_eq_true', List.isEmpty_eq_false_iff] at hc
      obtain ⟨a, b, c⟩ := snoc hc.2
      have := ih (out ++ [current]) [row] a b c (by simp) (fun _ => ⟨by simp, by simp [hc.1]⟩) ?_ ?_
      · convert this using 1
        simp
      · intro g x hx
        simp only [List.append_assoc] at hx
        cases out with
        | nil => simp at hx ⊢; tauto
        | cons a out => simp at hx ⊢; tauto
      · intro _
        refine ⟨?_, ?_, ?_⟩
        · intro g hg
          simp only [List.mem_append, List.mem_singleton] at hg
          rcases hg with hg | rfl
          · exact a g (by simpa using hg)
          · simp
        · intro g hg
          simp only [List.mem_append, List.mem_singleton] at hg
          rcases hg with hg | rfl
          · exact b g (by simpa using hg)
          · simp
        · intro g hg r hr
          have : g ∈ (out ++ [current]).tail ∨ g = [row] := by
            cases out with
            | nil => simp at hg ⊢; exact hg
            | cons x out => simp at hg ⊢; tauto
          rcases this with h | rfl
          · exact c g h r hr
          · simp only [List.head?_cons, Option.mem_def, Option.some.injEq] at hr
            subst hr; exact hc.1
    · rename_i hc
      have h4' : ∀ r ∈ (current ++ [row]).tail, isFirst r = false := by
        intro r hr
        rcases current with _ | ⟨x, current⟩
        · simp at hr
        · simp only [List.cons_append, List.tail_cons, List.mem_append, List.mem_singleton] at hr
          rcases hr with hr | rfl
          · exact h4 r hr
          · simpa using hc
      have h5' : out ≠ [] → (current ++ [row]) ≠ [] ∧
          ∀ r ∈ (current ++ [row]).head?, isFirst r = true := by
        intro ho
        obtain ⟨hne, hh⟩ := h5 ho
        refine ⟨by simp, ?_⟩
        rcases current with _ | ⟨x, current⟩
        · exact absurd rfl hne
        · simpa using hh
      have := ih out (current ++ [row]) h1 h2 h3 h4' h5' ?_ ?_
      · convert this using 1
        simp
      · intro g x hx
        cases out with
        | nil => simp at hx
        | cons a out => simp at hx ⊢; tauto
      · intro _
        refine ⟨?_, ?_, ?_⟩
        · intro g hg
          simp only [List.mem_append, List.mem_singleton] at hg
          rcases hg with hg | rfl
          · exact h1 g hg
          · simp
        · intro g hg
          simp only [List.mem_append, List.mem_singleton] at hg
          rcases hg with hg | rfl
          · exact h2 g hg
          · exact h4'
        · intro g hg r hr
          have : g ∈ out.tail ∨ (out ≠ [] ∧ g = current ++ [row]) := by
            cases out with
            | nil => simp at hg
            | cons x out => simp at hg ⊢; tauto
          rcases this with h | ⟨ho, rfl⟩
          · exact h3 g h r hr
          · exact (h5' ho).2 r hr

/-- C49: the groups. -/
theorem c49_grouping {R : Type} (isFirst : R → Bool) (rows : List R) :
    IsGrouping isFirst rows (foldFlatternRows isFirst rows) := by
  have := foldLoop_spec isFirst rows [] [] (by simp) (by simp) (by simp) (by simp) (by simp)
  simpa [foldFlatternRows] using this

theorem span_unique {R : Type} (isFirst : R → Bool) (a b x y : List R)
    (ha : ∀ r ∈ a, isFirst r = false) (hb : ∀ r ∈ b, isFirst r = false)
    (hx : ∀ r ∈ x.head?, isFirst r = true) (hy : ∀ r ∈ y.head?, isFirst r = true)
    (h : a ++ x = b ++ y) : a = b ∧ x = y := by
  induction a generalizing b with
  | nil =>
    cases b with
    | nil => exact ⟨rfl, h⟩
    | cons r b =>
      simp only [List.nil_append, List.cons_append] at h
      subst h
      have h1 := hx r (by simp)
      have h2 := hb r (by simp)
      rw [h1] at h2; cases h2
  | cons r a ih =>
    cases b with
    | nil =>
      simp only [List.nil_append, List.cons_append] at h
      subst h
      have h1 := hy r (by simp)
      have h2 := ha r (by simp)
      rw [h1] at h2; cases h2
    | cons r' b =>
      simp only [List.cons_append, List.cons.injEq] at h
      obtain ⟨h1, h2⟩ := ih b (fun r hr => ha r (by simp [hr])) (fun r hr => hb r (by simp [hr])) h.2
      exact ⟨by rw [h.1, h1], h2⟩

/-- The four conditions determine the groups, so `c49_grouping` says everything. -/
theorem c49_grouping_unique {R : Type} (isFirst : R → Bool) (rows : List R) (g1 g2 : List (List R))
    (h1 : IsGrouping isFirst rows g1) (h2 : IsGrouping isFirst rows g2) : g1 = g2 := by
  induction g1 generalizing rows g2 with
  | nil =>
    cases g2 with
    | nil => rfl
    | cons g g2 =>
      have := h2.flatten.trans h1.flatten.symm
      have hg := h2.nonempty g (by simp)
      simp at this
      exact absurd this.1 hg
  | cons g g1 ih =>
    cases g2 with
    | nil =>
      have := h1.flatten.trans h2.flatten.symm
      have hg := h1.nonempty g (by simp)
      simp at this
      exact absurd this.1 hg
    | cons g' g2 =>
      have hhead : ∀ gs : List (List R), (∀ g ∈ gs, g ≠ []) →
          (∀ g ∈ gs, ∀ r ∈ g.head?, isFirst r = true) → ∀ r ∈ gs.flatten.head?, isFirst r = true := by
        intro gs hne hh r hr
        cases gs with
        | nil => simp at hr
        | cons a gs =>
          rcases a with _ | ⟨x, a⟩
          · exact absurd rfl (hne [] (by simp))
          · exact hh (x :: a) (by simp) r (by simpa using hr)
      have e := h1.flatten.trans h2.flatten.symm
      rcases g with _ | ⟨x, g⟩
      · exact absurd rfl (h1.nonempty [] (by simp))
      rcases g' with _ | ⟨y, g'⟩
      · exact absurd rfl (h2.nonempty [] (by simp))
      simp only [List.flatten_cons, List.cons_append, List.cons.injEq] at e
      obtain ⟨rfl, e⟩ := e
      obtain ⟨e1, e2⟩ := span_unique isFirst g g' _ _
        (fun r hr => h1.inner (x :: g) (by simp) r (by simpa using hr))
        (fun r hr => h2.inner (x :: g') (by simp) r (by simpa using hr))
        (hhead g1 (fun a ha => h1.nonempty a (by simp [ha])) (fun a ha => h1.heads a (by simpa using ha)))
        (hhead g2 (fun a ha => h2.nonempty a (by simp [ha])) (fun a ha => h2.heads a (by simpa using ha)))
        e
      subst e1
      congr 1
      refine ih g1.flatten g2 ⟨rfl, fun a ha => h1.nonempty a (by simp [ha]),
        fun a ha => h1.inner a (by simp [ha]),
        fun a ha => h1.heads a (by simpa using List.mem_of_mem_tail ha)⟩
        ⟨e2.symm, fun a ha => h2.nonempty a (by simp [ha]),
        fun a ha => h2.inner a (by simp [ha]),
        fun a ha => h2.heads a (by simpa using List.mem_of_mem_tail ha)⟩

/-- Non-vacuity: rows 1..5 of which 3 and 4 are marked. -/
example : foldFlatternRows (fun r : ℕ => r == 3 || r == 4) [1, 2, 3, 4, 5] = [[1, 2], [3], [4, 5]] := by
  decide

end Mpt.Props
