import Verif.Assign.RowCheck

set_option autoImplicit false

/-!
# Evaluation by value

The kernel evaluates by name. The functions of this file make it compute cells once, before a check looks at them.
They are identities. Nothing here models code.
-/

namespace Mpt
namespace Force

/-- The element with the number `n`. -/
def ofNat (n : ℕ) : Fr := (Fin.ofNat (n := frModulus) n : Fin frModulus)

theorem ofNat_val (x : Fr) : ofNat x.val = x := by
  apply ZMod.val_injective
  show x.val % frModulus = x.val
  exact Nat.mod_eq_of_lt (ZMod.val_lt x)

def nat {α : Type} (n : ℕ) (k : ℕ → α) : α := Nat.casesOn n (k 0) fun m => k (m + 1)

theorem nat_eq {α : Type} (n : ℕ) (k : ℕ → α) : nat n k = k n := by cases n <;> rfl

def fr {α : Type} (x : Fr) (k : Fr → α) : α := nat x.val fun n => k (ofNat n)

theorem fr_eq {α : Type} (x : Fr) (k : Fr → α) : fr x k = k x := by rw [fr, nat_eq, ofNat_val]

/-- Forces every element of a list. -/
def list {α β : Type} (f : β → (β → α) → α) : List β → (List β → α) → α
  | [], k => k []
  | x :: l, k => f x fun y => list f l fun m => k (y :: m)

theorem list_eq {α β : Type} {f : β → (β → α) → α} (hf : ∀ x k, f x k = k x) (l : List β) (k : List β → α) :
    list f l k = k l := by
  induction l generalizing k with
  | nil => rfl
  | cons x l ih => rw [list, hf, ih]

def triple {α : Type} (x : Fr × Fr × Fr) (k : Fr × Fr × Fr → α) : α :=
  fr x.1 fun a => fr x.2.1 fun b => fr x.2.2 fun c => k (a, b, c)

theorem triple_eq {α : Type} (x : Fr × Fr × Fr) (k : Fr × Fr × Fr → α) : triple x k = k x := by
  rw [triple, fr_eq, fr_eq, fr_eq]

def vec4 {α : Type} (v : Fin 4 → Fr) (k : (Fin 4 → Fr) → α) : α :=
  fr (v 0) fun a => fr (v 1) fun b => fr (v 2) fun c => fr (v 3) fun d => k ![a, b, c, d]

theorem vec4_eq {α : Type} (v : Fin 4 → Fr) (k : (Fin 4 → Fr) → α) : vec4 v k = k v := by
  simp only [vec4, fr_eq]
  congr 1
  funext i
  fin_cases i <;> rfl

def vec10 {α : Type} (v : Fin 10 → Fr) (k : (Fin 10 → Fr) → α) : α :=
  fr (v 0) fun a => fr (v 1) fun b => fr (v 2) fun c => fr (v 3) fun d => fr (v 4) fun e => fr (v 5) fun f =>
  fr (v 6) fun g => fr (v 7) fun h => fr (v 8) fun i => fr (v 9) fun j => k ![a, b, c, d, e, f, g, h, i, j]

theorem vec10_eq {α : Type} (v : Fin 10 → Fr) (k : (Fin 10 → Fr) → α) : vec10 v k = k v := by
  simp only [vec10, fr_eq]
  congr 1
  funext i
  fin_cases i <;> rfl

def row {α : Type} (u : URow) (k : URow → α) : α :=
  fr u.storageKeyRlc fun a => fr u.oldValue fun b => fr u.newValue fun c => fr u.domain fun d => fr u.oldHash fun e =>
  fr u.newHash fun f => fr u.depth fun g => fr u.key fun h => fr u.otherKey fun i => fr u.direction fun j =>
  fr u.sibling fun l => vec10 u.iv fun iv => vec10 u.sp fun sp => vec4 u.iz fun iz =>
    k ⟨u.seg, u.path, u.proof, a, b, c, d, e, f, g, h, i, j, l, iv, sp, iz⟩

theorem row_eq {α : Type} (u : URow) (k : URow → α) : row u k = k u := by
  simp only [row, fr_eq, vec10_eq, vec4_eq]

def req {α : Type} (q : KeyBit.Req) (k : KeyBit.Req → α) : α := fr q.1 fun a => k (a, q.2.1, q.2.2)

theorem req_eq {α : Type} (q : KeyBit.Req) (k : KeyBit.Req → α) : req q k = k q := by rw [req, fr_eq]

end Force

/-- The same tables, computed. -/
def Tab.force {α : Type} (T : Tab) (k : Tab → α) : α :=
  Force.list Force.fr T.keys fun keys => Force.list Force.req T.reqs fun reqs =>
  Force.list Force.triple T.pos fun pos => Force.list (Force.list Force.nat) T.strings fun strings =>
  k ⟨T.H, T.ρ, strings, keys, reqs, pos⟩

theorem Tab.force_eq {α : Type} (T : Tab) (k : Tab → α) : T.force k = k T := by
  simp only [Tab.force, Force.list_eq Force.fr_eq, Force.list_eq Force.req_eq, Force.list_eq Force.triple_eq,
    Force.list_eq (Force.list_eq Force.nat_eq)]

end Mpt
