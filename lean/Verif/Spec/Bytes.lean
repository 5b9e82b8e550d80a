import Verif.Field
import Mathlib.Tactic.Ring
import Mathlib.Tactic.Linarith
import Mathlib.Data.List.Basic

set_option autoImplicit false

/-!
# Specification: big-endian byte strings, their integer value and their random linear combination

Independent of the code: ordinary mathematics used to state the properties.
-/

namespace Mpt.Spec

/-- A list of natural numbers is a byte string. -/
def IsBytes (l : List ℕ) : Prop := ∀ b ∈ l, b < 256

/-- Integer denoted by a big-endian byte string. -/
def beVal : List ℕ → ℕ
  | [] => 0
  | b :: bs => b * 256 ^ bs.length + beVal bs

/-- Random linear combination `Σ bᵢ · ρ^(n-1-i)` of a big-endian byte string. -/
def rlc {F : Type} [Field F] (ρ : F) : List ℕ → F
  | [] => 0
  | b :: bs => (b : F) * ρ ^ bs.length + rlc ρ bs

/-- The `k` big-endian bytes of `x` (the low `8k` bits). -/
def beBytes : ℕ → ℕ → List ℕ
  | 0, _ => []
  | k + 1, x => x / 256 ^ k % 256 :: beBytes k x

/-- The canonical 32-byte big-endian representation of a field element. -/
def frBytes (x : Fr) : List ℕ := beBytes 32 x.val

theorem isBytes_nil : IsBytes [] := by simp [IsBytes]
theorem isBytes_cons {b : ℕ} {l : List ℕ} : IsBytes (b :: l) ↔ b < 256 ∧ IsBytes l := by
  simp [IsBytes]
theorem isBytes_append {a b : List ℕ} : IsBytes (a ++ b) ↔ IsBytes a ∧ IsBytes b := by
  simp only [IsBytes, List.mem_append]
  constructor
  · intro h; exact ⟨fun x hx => h x (.inl hx), fun x hx => h x (.inr hx)⟩
  · rintro ⟨h1, h2⟩ x (hx | hx)
    · exact h1 x hx
    · exact h2 x hx

theorem beVal_append (a b : List ℕ) : beVal (a ++ b) = beVal a * 256 ^ b.length + beVal b := by
  induction a with
  | nil => simp [beVal]
  | cons x a ih =>
    simp only [List.cons_append, beVal, ih, List.length_append, pow_add]
    ring

theorem beVal_concat (a : List ℕ) (b : ℕ) : beVal (a ++ [b]) = beVal a * 256 + b := by
  simp [beVal_append, beVal]

theorem rlc_append {F : Type} [Field F] (ρ : F) (a b : List ℕ) :
    rlc ρ (a ++ b) = rlc ρ a * ρ ^ b.length + rlc ρ b := by
  induction a with
  | nil => simp [rlc]
  | cons x a ih =>
    simp only [List.cons_append, rlc, ih, List.length_append, pow_add]
    ring

theorem rlc_concat {F : Type} [Field F] (ρ : F) (a : List ℕ) (b : ℕ) :
    rlc ρ (a ++ [b]) = rlc ρ a * ρ + b := by
  simp [rlc_append, rlc]

theorem beVal_lt (l : List ℕ) (h : IsBytes l) : beVal l < 256 ^ l.length := by
  induction l with
  | nil => simp [beVal]
  | cons b l ih =>
    rw [isBytes_cons] at h
    have h1 := ih h.2
    have hb : b + 1 ≤ 256 := h.1
    have := Nat.mul_le_mul_right (256 ^ l.length) hb
    simp only [beVal, List.length_cons, pow_succ]
    nlinarith

@[simp] theorem beBytes_length (k x : ℕ) : (beBytes k x).length = k := by
  induction k with
  | zero => rfl
  | succ k ih => simp [beBytes, ih]

theorem isBytes_beBytes (k x : ℕ) : IsBytes (beBytes k x) := by
  induction k with
  | zero => exact isBytes_nil
  | succ k ih => exact isBytes_cons.2 ⟨Nat.mod_lt _ (by norm_num), ih⟩

theorem beBytes_mod (k m x : ℕ) (h : k ≤ m) : beBytes k (x % 256 ^ m) = beBytes k x := by
  induction k with
  | zero => rfl
  | succ k ih =>
    simp only [beBytes]
    rw [ih (by omega)]
    congr 1
    have : 256 ^ m = 256 ^ k * 256 ^ (m - k) := by rw [← pow_add]; congr 1; omega
    rw [this, Nat.mod_mul_right_div_self]
    rw [Nat.mod_mod_of_dvd]
    exact dvd_pow_self 256 (by omega)

theorem beVal_beBytes (k x : ℕ) (h : x < 256 ^ k) : beVal (beBytes k x) = x := by
  induction k generalizing x with
  | zero => simp at h; simp [beBytes, beVal, h]
  | succ k ih =>
    simp only [beBytes, beVal, beBytes_length]
    rw [← beBytes_mod k k x le_rfl, ih _ (Nat.mod_lt _ (by positivity)),
      Nat.mod_eq_of_lt (a := x / 256 ^ k)]
    · have := Nat.div_add_mod x (256 ^ k)
      linarith [Nat.mul_comm (256 ^ k) (x / 256 ^ k)]
    · rw [Nat.div_lt_iff_lt_mul (by positivity)]
      rw [pow_succ] at h; linarith

theorem beBytes_beVal (l : List ℕ) (h : IsBytes l) : beBytes l.length (beVal l) = l := by
  induction l with
  | nil => rfl
  | cons b l ih =>
    rw [isBytes_cons] at h
    have hlt := beVal_lt l h.2
    simp only [List.length_cons, beBytes, beVal]
    congr 1
    · rw [Nat.add_comm, Nat.add_mul_div_right _ _ (by positivity), Nat.div_eq_of_lt hlt, zero_add,
        Nat.mod_eq_of_lt h.1]
    · rw [← beBytes_mod l.length l.length _ le_rfl, Nat.add_comm, Nat.add_mul_mod_self_right,
        Nat.mod_eq_of_lt hlt]
      exact ih h.2

theorem beVal_inj {a b : List ℕ} (ha : IsBytes a) (hb : IsBytes b) (hl : a.length = b.length)
    (h : beVal a = beVal b) : a = b := by
  rw [← beBytes_beVal a ha, ← beBytes_beVal b hb, hl, h]

theorem frModulus_lt_pow : frModulus < 256 ^ 32 := by
  have := frModulus_lt
  calc frModulus < 2 ^ 254 := this
    _ < 256 ^ 32 := by norm_num

theorem isBytes_frBytes (x : Fr) : IsBytes (frBytes x) := isBytes_beBytes _ _
@[simp] theorem frBytes_length (x : Fr) : (frBytes x).length = 32 := beBytes_length _ _
theorem beVal_frBytes (x : Fr) : beVal (frBytes x) = x.val :=
  beVal_beBytes _ _ (lt_trans (ZMod.val_lt x) frModulus_lt_pow)

/-- The canonical representation is the only 32-byte string below the modulus denoting `x`. -/
theorem eq_frBytes (x : Fr) (l : List ℕ) (h : IsBytes l) (hl : l.length = 32)
    (hlt : beVal l < frModulus) (hx : ((beVal l : ℕ) : Fr) = x) : l = frBytes x := by
  apply beVal_inj h (isBytes_frBytes x) (by simp [hl])
  rw [beVal_frBytes, ← hx, ZMod.val_natCast, Nat.mod_eq_of_lt hlt]

/-- Byte `i` of the big-endian bytes. -/
theorem beBytes_getElem? (k x i : ℕ) (h : i < k) :
    (beBytes k x)[i]? = some (x / 256 ^ (k - 1 - i) % 256) := by
  induction k generalizing i with
  | zero => omega
  | succ k ih =>
    cases i with
    | zero => simp [beBytes]
    | succ i =>
      simp only [beBytes, List.getElem?_cons_succ]
      rw [ih i (by omega)]
      congr 4; omega

end Mpt.Spec
