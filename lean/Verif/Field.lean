import Mathlib.NumberTheory.LucasPrimality
import Mathlib.Data.Nat.Prime.Basic
import Mathlib.Tactic.NormNum.Prime
import Mathlib.Data.ZMod.Basic
import Mathlib.Data.Nat.Digits.Lemmas

set_option autoImplicit false

/-!
# The BN254 scalar field

The Rust code works over `halo2curves::bn256::Fr`, whose modulus is the constant
`Fr::MODULUS` used in `/repo/src/gadgets/canonical_representation.rs:142`.
We define the field as `ZMod frModulus` and prove that the modulus is prime (Lucas / Pratt
certificates whose modular powers are evaluated by the kernel).
-/

namespace Mpt

/-- Square-and-multiply modular power with explicit fuel (number of bits of the exponent).
(Used in the primality proof only; models no line of a `.rs` file.). -/
def powMod (fuel a e n : ℕ) : ℕ :=
  match fuel with
  | 0 => 1 % n
  | fuel + 1 =>
    let h := powMod fuel (a * a % n) (e / 2) n
    if e % 2 = 1 then a * h % n else h

theorem powMod_eq (fuel a e n : ℕ) (h : e < 2 ^ fuel) : powMod fuel a e n = a ^ e % n := by
  induction fuel generalizing a e with
  | zero => have : e = 0 := by simpa using h
            subst this; simp [powMod]
  | succ k ih =>
    have h2 : e / 2 < 2 ^ k := by rw [pow_succ] at h; omega
    have key : (a * a % n) ^ (e / 2) % n = a ^ (2 * (e / 2)) % n := by
      rw [← Nat.pow_mod, ← pow_two, ← pow_mul]
    unfold powMod
    simp only [ih _ _ h2, key]
    split
    · rename_i h1
      conv_rhs => rw [← Nat.div_add_mod e 2, h1, pow_succ, mul_comm]
      rw [Nat.mul_mod, Nat.mod_mod, ← Nat.mul_mod]
    · rename_i h1
      conv_rhs => rw [← Nat.div_add_mod e 2, show e % 2 = 0 by omega]
      rw [Nat.add_zero]

/-- Pratt certificate checker: `a` has order `p - 1` modulo `p`. -/
theorem pratt (p a fuel : ℕ) (fs : List ℕ) (hp : 1 < p) (hfuel : p < 2 ^ fuel)
    (hfs : ∀ q ∈ fs, q.Prime) (hprod : fs.prod = p - 1)
    (h1 : powMod fuel a (p - 1) p = 1)
    (h2 : ∀ q ∈ fs, powMod fuel a ((p - 1) / q) p ≠ 1) : p.Prime := by
  have cast : ∀ e, e < 2 ^ fuel → ((a : ZMod p) ^ e = 1 ↔ powMod fuel a e p = 1) := by
    intro e he
    rw [powMod_eq _ _ _ _ he]
    have : ((a : ZMod p) ^ e = 1) ↔ (((a ^ e : ℕ) : ZMod p) = ((1 : ℕ) : ZMod p)) := by
      push_cast; rfl
    rw [this, ZMod.natCast_eq_natCast_iff']
    rw [Nat.mod_eq_of_lt hp]
  refine lucas_primality p (a : ZMod p) ((cast _ (by omega)).2 h1) ?_
  intro q hq hdvd
  have hmem : q ∈ fs := by
    rw [← hprod] at hdvd
    obtain ⟨r, hr, hqr⟩ := (Prime.dvd_prod_iff hq.prime).1 hdvd
    have := (Nat.prime_dvd_prime_iff_eq hq (hfs r hr)).1 hqr
    exact this ▸ hr
  rw [Ne, cast _ (lt_of_le_of_lt (Nat.div_le_self _ _) (by omega))]
  exact h2 q hmem

theorem prime_12048837557 : Nat.Prime 12048837557 := by
  refine pratt _ 2 64 [2, 2, 7, 7, 661, 93001] (by norm_num) (by norm_num) ?_ (by norm_num)
    (by decide +kernel) (by decide +kernel)
  intro q hq
  simp only [List.mem_cons, List.not_mem_nil, or_false] at hq
  rcases hq with rfl | rfl | rfl | rfl | rfl | rfl <;> norm_num

theorem prime_639533339 : Nat.Prime 639533339 := by
  refine pratt _ 2 64 [2, 229, 853, 1637] (by norm_num) (by norm_num) ?_ (by norm_num)
    (by decide +kernel) (by decide +kernel)
  intro q hq
  simp only [List.mem_cons, List.not_mem_nil, or_false] at hq
  rcases hq with rfl | rfl | rfl | rfl <;> norm_num

theorem prime_405928799 : Nat.Prime 405928799 := by
  refine pratt _ 22 64 [2, 11, 3691, 4999] (by norm_num) (by norm_num) ?_ (by norm_num)
    (by decide +kernel) (by decide +kernel)
  intro q hq
  simp only [List.mem_cons, List.not_mem_nil, or_false] at hq
  rcases hq with rfl | rfl | rfl | rfl <;> norm_num

theorem prime_5156902474397 : Nat.Prime 5156902474397 := by
  refine pratt _ 2 64 [2, 2, 107, 12048837557] (by norm_num) (by norm_num) ?_ (by norm_num)
    (by decide +kernel) (by decide +kernel)
  intro q hq
  simp only [List.mem_cons, List.not_mem_nil, or_false] at hq
  rcases hq with rfl | rfl | rfl | rfl
  all_goals first | exact prime_12048837557 | norm_num

theorem prime_1670836401704629 : Nat.Prime 1670836401704629 := by
  refine pratt _ 2 64 [2, 2, 3, 3, 3, 3, 5156902474397] (by norm_num) (by norm_num) ?_
    (by norm_num) (by decide +kernel) (by decide +kernel)
  intro q hq
  simp only [List.mem_cons, List.not_mem_nil, or_false] at hq
  rcases hq with rfl | rfl | rfl | rfl | rfl | rfl | rfl
  all_goals first | exact prime_5156902474397 | norm_num

theorem prime_65865678001877903 : Nat.Prime 65865678001877903 := by
  refine pratt _ 5 64 [2, 83, 379, 1637, 639533339] (by norm_num) (by norm_num) ?_
    (by norm_num) (by decide +kernel) (by decide +kernel)
  intro q hq
  simp only [List.mem_cons, List.not_mem_nil, or_false] at hq
  rcases hq with rfl | rfl | rfl | rfl | rfl
  all_goals first | exact prime_639533339 | norm_num

theorem prime_13818364434197438864469338081 : Nat.Prime 13818364434197438864469338081 := by
  refine pratt _ 3 96 [2, 2, 2, 2, 2, 5, 823, 1593227, 65865678001877903] (by norm_num)
    (by norm_num) ?_ (by norm_num) (by decide +kernel) (by decide +kernel)
  intro q hq
  simp only [List.mem_cons, List.not_mem_nil, or_false] at hq
  rcases hq with rfl | rfl | rfl | rfl | rfl | rfl | rfl | rfl | rfl
  all_goals first | exact prime_65865678001877903 | norm_num

/-- `Fr::MODULUS`. Used at /repo/src/gadgets/canonical_representation.rs:142. -/
def frModulus : ℕ :=
  21888242871839275222246405745257275088548364400416034343698204186575808495617

theorem frModulus_prime : Nat.Prime frModulus := by
  refine pratt _ 5 256 (List.replicate 28 2 ++ [3, 3, 13, 29, 983, 11003, 237073, 405928799,
    1670836401704629, 13818364434197438864469338081]) (by unfold frModulus; norm_num)
    (by unfold frModulus; norm_num) ?_ (by decide +kernel) (by decide +kernel)
    (by decide +kernel)
  intro q hq
  simp only [List.mem_append, List.mem_replicate, List.mem_cons, List.not_mem_nil, or_false] at hq
  rcases hq with ⟨_, rfl⟩ | rfl | rfl | rfl | rfl | rfl | rfl | rfl | rfl | rfl | rfl
  all_goals first | exact prime_405928799 | exact prime_1670836401704629 | exact prime_13818364434197438864469338081 |
    norm_num

instance : Fact (Nat.Prime frModulus) := ⟨frModulus_prime⟩
instance : NeZero frModulus := ⟨frModulus_prime.ne_zero⟩

/-- The scalar field `halo2curves::bn256::Fr`. Imported by every file, e.g. /repo/src/types.rs:1-20. -/
abbrev Fr := ZMod frModulus

theorem frModulus_lt : frModulus < 2 ^ 254 := by unfold frModulus; norm_num
theorem frModulus_gt : 2 ^ 253 < frModulus := by unfold frModulus; norm_num

/-- Natural numbers below the modulus are determined by their image in `Fr`. -/
theorem natCast_inj_of_lt {a b : ℕ} (ha : a < frModulus) (hb : b < frModulus)
    (h : (a : Fr) = (b : Fr)) : a = b := by
  have := (ZMod.natCast_eq_natCast_iff' a b frModulus).1 h
  rwa [Nat.mod_eq_of_lt ha, Nat.mod_eq_of_lt hb] at this

end Mpt
