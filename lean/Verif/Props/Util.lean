import Verif.Types.Util
import Verif.Spec.Openings
import Verif.Spec.Claims
import Mathlib.Algebra.Polynomial.Roots
import Mathlib.Data.Set.Card
import Mathlib.Data.Nat.Bitwise

set_option autoImplicit false

/-!
# Properties C45-C48: words, big integers, random linear combinations, address keys
-/

namespace Mpt.Props
open Mpt Mpt.Spec Mpt.Types

/-! ## C45 -/

theorem beBytes_add (j k x : ℕ) : beBytes (j + k) x = beBytes j (x / 256 ^ k) ++ beBytes k x := by
  induction j with
  | zero => simp [beBytes]
  | succ j ih =>
    rw [show j + 1 + k = (j + k) + 1 by omega]
    simp only [beBytes, List.cons_append, ih]
    congr 2
    rw [Nat.div_div_eq_div_mul, ← pow_add, Nat.add_comm k j]

theorem take_word (x : ℕ) : (beBytes 32 x).take 16 = beBytes 16 (x / 2 ^ 128) := by
  rw [show (32 : ℕ) = 16 + 16 from rfl, beBytes_add, List.take_append_of_le_length (by simp),
    List.take_of_length_le (by simp)]
  norm_num
theorem drop_word (x : ℕ) : (beBytes 32 x).drop 16 = beBytes 16 x := by
  rw [show (32 : ℕ) = 16 + 16 from rfl, beBytes_add, List.drop_append_of_le_length (by simp),
    List.drop_of_length_le (by simp), List.nil_append]

theorem beVal_beBytes_mod (k x : ℕ) : beVal (beBytes k x) = x % 256 ^ k := by
  rw [← beBytes_mod k k x le_rfl, beVal_beBytes _ _ (Nat.mod_lt _ (by positivity))]

theorem limbs (x : ℕ) :
    (limb x 3 <<< 64) + limb x 2 = x / 2 ^ 128 % 2 ^ 128 ∧
    (limb x 1 <<< 64) + limb x 0 = x % 2 ^ 128 := by
  simp only [limb, Nat.shiftLeft_eq]
  norm_num
  omega

theorem digits_getD (n i : ℕ) : (Nat.digits (2 ^ 64) n).getD i 0 = n / 2 ^ (64 * i) % 2 ^ 64 := by
  rw [Nat.getD_digits n i (by norm_num), ← pow_mul]

theorem hiLo_getD (n i : ℕ) (hi : i < 4) :
    (((Nat.digits (2 ^ 64) n) ++ List.replicate 4 0).take 4).getD i 0 = limb n i := by
  have h1 : (((Nat.digits (2 ^ 64) n) ++ List.replicate 4 0).take 4).getD i 0 =
      ((Nat.digits (2 ^ 64) n)).getD i 0 := by
    simp only [List.getD_eq_getElem?_getD]
    rw [List.getElem?_take_of_lt hi, List.getElem?_append]
    split
    · rfl
    · rename_i hlt
      rw [List.getElem?_eq_none (l := Nat.digits (2 ^ 64) n) (by omega), List.getElem?_replicate]
      split <;> rfl
  rw [h1, digits_getD]
  rfl

/-- C45: the three ways of splitting a 256-bit word agree. -/
theorem c45_split (x : ℕ) (hx : x < 2 ^ 256) :
    u256HiLo x = (x / 2 ^ 128, x % 2 ^ 128) ∧
    splitWord x = (((x / 2 ^ 128 : ℕ) : Fr), ((x % 2 ^ 128 : ℕ) : Fr)) ∧
    hiLo x = (((x / 2 ^ 128 : ℕ) : Fr), ((x % 2 ^ 128 : ℕ) : Fr)) ∧
    (u256HiLo x).1 * 2 ^ 128 + (u256HiLo x).2 = x ∧
    (u256HiLo x).1 < 2 ^ 128 ∧ (u256HiLo x).2 < 2 ^ 128 := by
  have hhi : x / 2 ^ 128 < 2 ^ 128 := by
    rw [Nat.div_lt_iff_lt_mul (by positivity), ← pow_add]; exact hx
  have e1 : u256HiLo x = (x / 2 ^ 128, x % 2 ^ 128) := by
    rw [u256HiLo, (limbs x).1, (limbs x).2, Nat.mod_eq_of_lt hhi]
  refine ⟨e1, ?_, ?_, ?_, by rw [e1]; exact hhi, by rw [e1]; exact Nat.mod_lt _ (by positivity)⟩
  · rw [splitWord, u256ToBigEndian, take_word, drop_word, beVal_beBytes_mod, beVal_beBytes_mod,
      show (256 : ℕ) ^ 16 = 2 ^ 128 by norm_num, Nat.mod_eq_of_lt hhi]
  · simp only [hiLo, hiLo_getD x _ (show 3 < 4 by omega), hiLo_getD x _ (show 2 < 4 by omega),
      hiLo_getD x _ (show 1 < 4 by omega), hiLo_getD x _ (show 0 < 4 by omega), (limbs x).1,
      (limbs x).2, Nat.mod_eq_of_lt hhi]
  · rw [e1]; exact Nat.div_add_mod' x (2 ^ 128)

/-- `rlc` is the random linear combination of the specification. -/
theorem c47_rlc_eq (l : List ℕ) (ρ : Fr) : rlcFold l ρ = Spec.rlc ρ l := by
  rw [rlcFold]
  suffices h : ∀ acc : Fr, l.foldl (fun (acc : Fr) (b : ℕ) => ρ * acc + (b : Fr)) acc =
      acc * ρ ^ l.length + Spec.rlc ρ l by
    rw [h, zero_mul, zero_add]
  induction l with
  | nil => intro acc; simp [Spec.rlc]
  | cons b l ih =>
    intro acc
    simp only [List.foldl_cons, ih, Spec.rlc, List.length_cons, pow_succ]
    ring

/-- C45: the RLC of a word is the RLC of its halves' bytes. -/
theorem c45_rlc (x : ℕ) (ρ : Fr) :
    rlcFold (u256ToBigEndian x) ρ =
      rlcFold (beBytes 16 (x / 2 ^ 128)) ρ * ρ ^ 16 + rlcFold (beBytes 16 (x % 2 ^ 128)) ρ := by
  rw [c47_rlc_eq, c47_rlc_eq, c47_rlc_eq, u256ToBigEndian,
    ← List.take_append_drop 16 (beBytes 32 x), rlc_append, take_word, drop_word]
  rw [show (2 : ℕ) ^ 128 = 256 ^ 16 by norm_num, beBytes_mod 16 16 x le_rfl]
  simp

/-- Beyond 256 bits `hi_lo` silently drops the high digits (`u256_from_biguint` panics instead). -/
theorem c45_big_numbers (x : ℕ) (hx : 2 ^ 256 ≤ x) :
    hiLo x = hiLo (x % 2 ^ 256) ∧ u256FromBiguint x = none := by
  constructor
  · have h : ∀ i, i < 4 → limb x i = limb (x % 2 ^ 256) i := by
      intro i hi
      simp only [limb]
      interval_cases i <;> norm_num <;> omega
    simp only [hiLo, hiLo_getD _ _ (show 3 < 4 by omega), hiLo_getD _ _ (show 2 < 4 by omega),
      hiLo_getD _ _ (show 1 < 4 by omega), hiLo_getD _ _ (show 0 < 4 by omega)]
    rw [h 0, h 1, h 2, h 3] <;> omega
  · rw [u256FromBiguint, if_neg (by omega)]

/-- Non-vacuity: a word with different halves. -/
example : splitWord (3 * 2 ^ 128 + 5) = (((3 : ℕ) : Fr), ((5 : ℕ) : Fr)) := by
  rw [(c45_split _ (by norm_num)).2.1]; norm_num

/-! ## C46 -/

/-- C46: big integers are reduced modulo the field modulus. -/
theorem c46_reduction (n : ℕ) : frFromBiguint n = (n : Fr) ∧ (frFromBiguint n).val = n % frModulus := by
  have h : frFromBiguint n = (n : Fr) := by
    rw [frFromBiguint, List.foldl_reverse]
    conv_rhs => rw [← Nat.ofDigits_digits (2 ^ 64) n]
    induction Nat.digits (2 ^ 64) n with
    | nil => simp [Nat.ofDigits]
    | cons d ds ih =>
      rw [List.foldr_cons, ih, Nat.ofDigits_cons]
      push_cast
      ring
  exact ⟨h, by rw [h, ZMod.val_natCast]⟩

/-- C46: two integers have the same image exactly when they are congruent; below the modulus the map
is injective, and it stops being so at the modulus. -/
theorem c46_injective (a b : ℕ) :
    (frFromBiguint a = frFromBiguint b ↔ a % frModulus = b % frModulus) ∧
    (a < frModulus → b < frModulus → frFromBiguint a = frFromBiguint b → a = b) ∧
    frFromBiguint (a + frModulus) = frFromBiguint a := by
  rw [(c46_reduction a).1, (c46_reduction b).1, (c46_reduction (a + frModulus)).1]
  refine ⟨ZMod.natCast_eq_natCast_iff' a b frModulus, natCast_inj_of_lt, ?_⟩
  push_cast
  simp

theorem and_shift (b i : ℕ) : (b &&& (1 <<< i) != 0) = b.testBit i := by
  rw [Nat.shiftLeft_eq, one_mul, Nat.and_two_pow]
  cases b.testBit i <;> simp

theorem testBit_byte (x i : ℕ) : (x / 256 ^ (i / 8) % 256).testBit (i % 8) = x.testBit i := by
  rw [show (256 : ℕ) = 2 ^ 8 by norm_num, Nat.testBit_mod_two_pow, ← pow_mul,
    Nat.testBit_div_two_pow]
  have : i % 8 < 8 := Nat.mod_lt _ (by norm_num)
  simp only [this, decide_true, Bool.true_and]
  congr 1
  omega

/-- C46: for `i < 256`, `bit` is bit `i` of the canonical integer; beyond, it panics in builds with
overflow checks and is `false` in builds without. -/
theorem c46_bit (ovf : Bool) (x : Fr) (i : ℕ) :
    bit ovf x i = if i < 256 then some (x.val.testBit i) else if ovf then none else some false := by
  rw [bit]
  by_cases hi : i < 256
  · rw [if_pos (by omega), if_pos hi]
    rw [frBytes, beBytes_getElem? 32 x.val (31 - i / 8) (by omega)]
    simp only [Option.map_some, Option.getD_some, and_shift]
    rw [show 32 - 1 - (31 - i / 8) = i / 8 by omega, testBit_byte]
  · rw [if_neg (by omega), if_neg hi]

/-- The least significant bit of 1 is set and no other (the repository's test, for every index). -/
example (i : ℕ) (h : i < 256) : bit true 1 i = some (decide (i = 0)) := by
  rw [c46_bit, if_pos h]
  have : (1 : Fr).val = 1 := ZMod.val_one frModulus
  rw [this]
  cases i with
  | zero => rfl
  | succ i => simp [Nat.testBit_succ]

/-! ## C47 -/

open Polynomial in
/-- The polynomial whose value at `ρ` is the difference of two RLCs. -/
noncomputable def rlcPoly : List ℕ → Fr[X]
  | [] => 0
  | b :: l => C (b : Fr) * X ^ l.length + rlcPoly l

theorem eval_rlcPoly (l : List ℕ) (ρ : Fr) : (rlcPoly l).eval ρ = Spec.rlc ρ l := by
  induction l with
  | nil => simp [rlcPoly, Spec.rlc]
  | cons b l ih => simp [rlcPoly, Spec.rlc, ih]

theorem coeff_rlcPoly_ge (l : List ℕ) (i : ℕ) (h : l.length ≤ i) : (rlcPoly l).coeff i = 0 := by
  induction l with
  | nil => simp [rlcPoly]
  | cons b l ih =>
    simp only [List.length_cons] at h
    rw [rlcPoly, Polynomial.coeff_add, ih (by omega), Polynomial.coeff_C_mul, Polynomial.coeff_X_pow,
      if_neg (by omega)]
    simp

theorem rlcPoly_inj (a b : List ℕ) (ha : IsBytes a) (hb : IsBytes b) (hl : a.length = b.length)
    (h : rlcPoly a = rlcPoly b) : a = b := by
  induction a generalizing b with
  | nil => exact (List.length_eq_zero_iff.1 hl.symm).symm
  | cons x a ih =>
    cases b with
    | nil => simp at hl
    | cons y b =>
      rw [isBytes_cons] at ha hb
      have hl' : a.length = b.length := by simpa using hl
      have hc := congrArg (fun p => p.coeff a.length) h
      simp only [rlcPoly, Polynomial.coeff_add, Polynomial.coeff_C_mul, Polynomial.coeff_X_pow,
        ← hl', coeff_rlcPoly_ge a a.length le_rfl, coeff_rlcPoly_ge b a.length hl'.ge, if_true,
        mul_one, add_zero] at hc
      have hxy : x = y := natCast_inj_of_lt
        (lt_trans ha.1 (by have := frModulus_gt; omega))
        (lt_trans hb.1 (by have := frModulus_gt; omega)) hc
      subst hxy
      simp only [rlcPoly, hl', add_right_inj] at h
      rw [ih b ha.2 hb.2 hl' h]

/-- C47: two different byte strings of the same length `n` have the same RLC for at most `n - 1`
challenges. -/
theorem c47_rlc_collisions (a b : List ℕ) (ha : IsBytes a) (hb : IsBytes b)
    (hl : a.length = b.length) (hne : a ≠ b) :
    {ρ : Fr | rlcFold a ρ = rlcFold b ρ}.ncard ≤ a.length - 1 := by
  set p := rlcPoly a - rlcPoly b with hp
  have hp0 : p ≠ 0 := fun h0 => hne (rlcPoly_inj a b ha hb hl (sub_eq_zero.1 h0))
  have hsub : {ρ : Fr | rlcFold a ρ = rlcFold b ρ} ⊆ (p.roots.toFinset : Set Fr) := by
    intro ρ hρ
    simp only [Set.mem_setOf_eq, c47_rlc_eq] at hρ
    rw [Finset.mem_coe, Multiset.mem_toFinset, Polynomial.mem_roots hp0, Polynomial.IsRoot,
      hp, Polynomial.eval_sub, eval_rlcPoly, eval_rlcPoly, hρ, sub_self]
  refine le_trans (Set.ncard_le_ncard hsub (Finset.finite_toSet _)) ?_
  rw [Set.ncard_coe_finset]
  refine le_trans (Multiset.toFinset_card_le _) (le_trans (Polynomial.card_roots' p) ?_)
  have hlen : 0 < a.length := by
    rcases a with _ | ⟨x, a⟩
    · exact absurd (List.length_eq_zero_iff.1 hl.symm).symm hne
    · simp
  have : p.degree < (a.length : ℕ) := by
    rw [Polynomial.degree_lt_iff_coeff_zero]
    intro m hm
    rw [hp, Polynomial.coeff_sub, coeff_rlcPoly_ge a m hm, coeff_rlcPoly_ge b m (hl ▸ hm), sub_self]
  have h2 := (Polynomial.natDegree_lt_iff_degree_lt hp0).2 this
  omega

/-- C47 for the exposed roots: two different roots have the same exposed RLC for at most 31
challenges. -/
theorem c47_roots (x y : Fr) (hne : x ≠ y) : {ρ : Fr | rootRlc ρ x = rootRlc ρ y}.ncard ≤ 31 := by
  have h : frBytes x ≠ frBytes y := by
    intro h
    apply hne
    apply ZMod.val_injective
    rw [← beVal_frBytes x, ← beVal_frBytes y, h]
  have := c47_rlc_collisions (frBytes x) (frBytes y) (isBytes_frBytes x) (isBytes_frBytes y)
    (by simp) h
  simpa [rootRlc, c47_rlc_eq] using this

/-- C47 for exposed 256-bit words. -/
theorem c47_words (x y : ℕ) (hx : x < 2 ^ 256) (hy : y < 2 ^ 256) (hne : x ≠ y) :
    {ρ : Fr | rlcFold (u256ToBigEndian x) ρ = rlcFold (u256ToBigEndian y) ρ}.ncard ≤ 31 := by
  have h : beBytes 32 x ≠ beBytes 32 y := by
    intro h
    apply hne
    rw [← beVal_beBytes 32 x (by norm_num at hx ⊢; exact hx),
      ← beVal_beBytes 32 y (by norm_num at hy ⊢; exact hy), h]
  have := c47_rlc_collisions _ _ (isBytes_beBytes 32 x) (isBytes_beBytes 32 y) (by simp) h
  simpa [u256ToBigEndian] using this

/-- The bound is attained by one-byte differences: `[1, 0]` and `[0, 7]` collide exactly at 7. -/
example : {ρ : Fr | rlcFold [1, 0] ρ = rlcFold [0, 7] ρ} = {7} := by
  ext ρ
  simp [rlcFold]

/-! ## C48 -/

/-- C48: `account_key` hashes the high 128 bits of the address and its low 32 bits times `2^96`;
`address_high * 2^32 + address_low` is the address. -/
theorem c48_account_key (H : HashFn) (b : List ℕ) (hb : IsBytes b) (hl : b.length = 20) :
    beVal b < 2 ^ 160 ∧ addressHigh b * 2 ^ 32 + addressLow b = beVal b ∧
    addressHigh b = beVal b / 2 ^ 32 ∧ addressLow b = beVal b % 2 ^ 32 ∧
    accountKey H b = H ((beVal b / 2 ^ 32 : ℕ) : Fr) ((beVal b % 2 ^ 32 * 2 ^ 96 : ℕ) : Fr)
      HashDomain.Pair.toFr := by
  have h160 : beVal b < 2 ^ 160 := by
    have := beVal_lt b hb
    rw [hl] at this
    norm_num at this ⊢
    exact this
  have hsplit : beVal b = addressHigh b * 2 ^ 32 + addressLow b := by
    conv_lhs => rw [← List.take_append_drop 16 b]
    rw [beVal_append, List.length_drop, hl]
    norm_num [addressHigh, addressLow]
  have hlow : addressLow b < 2 ^ 32 := by
    have hd : IsBytes (b.drop 16) := fun x hx => hb x (List.mem_of_mem_drop hx)
    have := beVal_lt _ hd
    rw [List.length_drop, hl] at this
    norm_num at this ⊢
    exact this
  have h1 : addressHigh b = beVal b / 2 ^ 32 := by omega
  have h2 : addressLow b = beVal b % 2 ^ 32 := by omega
  refine ⟨h160, hsplit.symm, h1, h2, ?_⟩
  rw [accountKey, domainHash, accountKeyPreimage, ← h1, ← h2, Nat.shiftLeft_eq]
  rfl

/-- C48: the key derived by the code is a key in the sense of the claims exposed by the circuit
(`IsAddressKey`), for the hash relation of `H`. -/
theorem c48_matches_circuit (H : HashFn) (S : Fr → Fr → Fr → Prop) (b : List ℕ) (hb : IsBytes b)
    (hl : b.length = 20)
    (hS : S (accountKeyPreimage b).1 (accountKeyPreimage b).2 HashDomain.Pair.toFr) :
    IsAddressKey (hashRel H S) (beVal b) (accountKey H b) ∧
    ∀ key, IsAddressKey (hashRel H S) (beVal b) key → key = accountKey H b := by
  obtain ⟨h1, h2, h3, h4, h5⟩ := c48_account_key H b hb hl
  have e : (accountKeyPreimage b).1 = ((beVal b / 2 ^ 32 : ℕ) : Fr) ∧
      (accountKeyPreimage b).2 = ((beVal b % 2 ^ 32 * 2 ^ 96 : ℕ) : Fr) := by
    rw [accountKeyPreimage, ← h3, ← h4, Nat.shiftLeft_eq]
    exact ⟨rfl, rfl⟩
  refine ⟨⟨h1, h5, by rw [← e.1, ← e.2]; exact hS⟩, ?_⟩
  rintro key ⟨_, h, _⟩
  rw [h, h5]

/-- C48: distinct addresses have distinct preimages, and distinct field elements. -/
theorem c48_injective (a b : List ℕ) (ha : IsBytes a) (hb : IsBytes b) (hla : a.length = 20)
    (hlb : b.length = 20) :
    (accountKeyPreimage a = accountKeyPreimage b → a = b) ∧
    (((beVal a : ℕ) : Fr) = ((beVal b : ℕ) : Fr) → a = b) := by
  have hpow : 2 ^ 160 < frModulus := lt_trans (by norm_num) frModulus_gt
  have inj : beVal a = beVal b → a = b := beVal_inj ha hb (by rw [hla, hlb])
  obtain ⟨a1, a2, a3, a4, _⟩ := c48_account_key (fun _ _ _ => 0) a ha hla
  obtain ⟨b1, b2, b3, b4, _⟩ := c48_account_key (fun _ _ _ => 0) b hb hlb
  constructor
  · intro h
    simp only [accountKeyPreimage, Prod.mk.injEq, Nat.shiftLeft_eq] at h
    have e1 := natCast_inj_of_lt
      (show addressHigh a < frModulus by omega)
      (show addressHigh b < frModulus by omega) h.1
    have e2 := natCast_inj_of_lt
      (show addressLow a * 2 ^ 96 < frModulus by have := frModulus_gt; omega)
      (show addressLow b * 2 ^ 96 < frModulus by have := frModulus_gt; omega) h.2
    apply inj
    omega
  · intro h
    exact inj (natCast_inj_of_lt (by omega) (by omega) h)

/-- Non-vacuity: a 20-byte address. -/
example : accountKeyPreimage ((List.range 20).map (· + 1)) =
    (((0x0102030405060708090a0b0c0d0e0f10 : ℕ) : Fr), ((0x11121314 * 2 ^ 96 : ℕ) : Fr)) := by
  decide +kernel

end Mpt.Props
