import Mathlib.Data.List.Sort
import Mathlib.Data.List.Lex
import Verif.Types.Proof
import Verif.Assign.ByteRep
import Verif.Assign.KeyBit
import Verif.Gadgets.MptUpdate

set_option autoImplicit false

/-!
# Model of the requests to the lookup tables, /repo/src/gadgets/mpt_update.rs:2048-2255

`Vec::sort` followed by `Vec::dedup` is modelled on any type with an injective map into lists of
natural numbers ordered lexicographically (the derived tuple order; `Fr` is ordered as its canonical
integer). `none` is a panic.
-/

namespace Mpt.Requests
open Mpt Spec Types MptUpdate

variable {α : Type} [DecidableEq α]

/-- `Vec::dedup`: drops every element that equals its predecessor.
/repo/src/gadgets/mpt_update.rs:2108, 2143, 2227-2236, 2253. -/
def dedup : List α → List α
  | [] => []
  | [a] => [a]
  | a :: b :: l => if a = b then dedup (b :: l) else a :: dedup (b :: l)

/-- `Vec::sort` with respect to the order of `code`.
/repo/src/gadgets/mpt_update.rs:2107, 2142, 2226-2235, 2252. -/
def sort (code : α → List ℕ) (l : List α) : List α :=
  l.insertionSort (fun a b => code a ≤ code b)

/-- `v.sort(); v.dedup();` /repo/src/gadgets/mpt_update.rs:2107-2108, 2142-2143, 2226-2236, 2252-2253. -/
def sortDedup (code : α → List ℕ) (l : List α) : List α := dedup (sort code l)

/-- The order of `([Fr; 2], Fr, Fr)`. /repo/src/gadgets/mpt_update.rs:2107. -/
def traceCode (x : (Fr × Fr) × Fr × Fr) : List ℕ := [x.1.1.val, x.1.2.val, x.2.1.val, x.2.2.val]
/-- The order of `(Fr, usize, bool)`. /repo/src/gadgets/mpt_update.rs:2142. -/
def bitCode (x : Fr × ℕ × Bool) : List ℕ := [x.1.val, x.2.1, if x.2.2 then 1 else 0]
/-- The order of `Fr`. /repo/src/gadgets/mpt_update.rs:2252. -/
def frCode (x : Fr) : List ℕ := [x.val]
/-- The order of unsigned integers. /repo/src/gadgets/mpt_update.rs:2226-2235. -/
def natCode (x : ℕ) : List ℕ := [x]

/-- An entry `([left, right], domain, hash)`. /repo/src/gadgets/mpt_update.rs:2049. -/
abbrev Entry := (Fr × Fr) × Fr × Fr

/-- /repo/src/gadgets/mpt_update.rs:2050-2107. -/
def toEntry (t : HashTrace) : Entry := ((t.1, t.2.1), t.2.2.1.toFr, t.2.2.2)

/-- The optional leaf of one side, lines 2079-2092. -/
def leafEntry (H : HashFn) (p : Path) : List Entry :=
  match p.leafDataHash with
  | none => []
  | some d => [((p.key, d), HashDomain.Leaf.toFr, domainHash H p.key d .Leaf)]

/-- One account hash trace, lines 2097-2104: the first domain that explains the digest. -/
def tripleEntry (H : HashFn) (t : Triple) : List Entry :=
  if domainHash H t.1 t.2.1 .AccountFields = t.2.2 then
    [((t.1, t.2.1), HashDomain.AccountFields.toFr, t.2.2)]
  else if domainHash H t.1 t.2.1 .Leaf = t.2.2 then [((t.1, t.2.1), HashDomain.Leaf.toFr, t.2.2)]
  else if domainHash H t.1 t.2.1 .Pair = t.2.2 then [((t.1, t.2.1), HashDomain.Pair.toFr, t.2.2)]
  else []

/-- /repo/src/gadgets/mpt_update.rs:2093-2104. -/
def tracesEntries (H : HashFn) (t : AccountTraces) : List Entry :=
  [t.t0, t.t1, t.t2, t.t3, t.t4, t.t5].flatMap (tripleEntry H)

/-- The entries pushed for one proof, lines 2055-2106. -/
def proofEntries (H : HashFn) (p : Proof) : Option (List Entry) := do
  let trie ← triePoseidonLookups H p.accountTrieRows
  let sto ← p.storage.poseidonLookups H
  pure (trie.map toEntry ++ sto.map toEntry ++
    [((((addressHigh p.claim.address : ℕ) : Fr), ((addressLow p.claim.address <<< 96 : ℕ) : Fr)),
      HashDomain.Pair.toFr, accountKey H p.claim.address)] ++
    leafEntry H p.old ++ leafEntry H p.new ++ tracesEntries H p.oldTraces ++
    tracesEntries H p.newTraces)

/-- All entries before sorting. /repo/src/gadgets/mpt_update.rs:2049-2106. -/
def allEntries (H : HashFn) (ps : List Proof) : Option (List Entry) := do
  let l ← ps.mapM (proofEntries H)
  pure (((0, 0), HashDomain.Pair.toFr, zeroPairHash H) :: l.flatten)

/-- `hash_traces`, /repo/src/gadgets/mpt_update.rs:2049-2110. -/
def hashTraces (H : HashFn) (ps : List Proof) : Option (List Entry) :=
  (allEntries H ps).map (sortDedup traceCode)

/-- The key-bit requests of one account row, lines 2119-2138. -/
def rowBits (H : HashFn) (p : Proof) (i : ℕ) (r : HashRow) : Option (List (Fr × ℕ × Bool)) :=
  let key := accountKey H p.claim.address
  match r.paddingOpen, r.paddingClose with
  | false, false =>
    some ([(p.old.key, i, r.direction), (p.new.key, i, r.direction)] ++
      if key = p.old.key ∨ key = p.new.key then [] else [(key, i, r.direction)])
  | false, true => some [(p.old.key, i, r.direction)]
  | true, false => some [(p.new.key, i, r.direction)]
  | true, true => none

/-- /repo/src/gadgets/mpt_update.rs:2116-2130. -/
def rowsBits (H : HashFn) (p : Proof) : ℕ → List HashRow → Option (List (Fr × ℕ × Bool))
  | _, [] => some []
  | i, r :: rs => do
    let a ← rowBits H p i r
    let b ← rowsBits H p (i + 1) rs
    pure (a ++ b)

/-- The key-bit requests of one proof, lines 2115-2140. -/
def proofBits (H : HashFn) (p : Proof) : Option (List (Fr × ℕ × Bool)) := do
  let a ← rowsBits H p 0 p.addressHashTraces.reverse
  pure (a ++ p.storage.keyBitLookups H)

/-- /repo/src/gadgets/mpt_update.rs:2113-2141. -/
def allBits (H : HashFn) (ps : List Proof) : Option (List (Fr × ℕ × Bool)) := do
  let l ← ps.mapM (proofBits H)
  pure ((0, 0, false) :: (1, 0, true) :: l.flatten)

/-- `key_bit_lookups`, /repo/src/gadgets/mpt_update.rs:2113-2145. -/
def keyBitLookups (H : HashFn) (ps : List Proof) : Option (List (Fr × ℕ × Bool)) :=
  (allBits H ps).map (sortDedup bitCode)

/-- The keys pushed for one proof, lines 2244-2251. -/
def proofKeys (H : HashFn) (p : Proof) : List Fr :=
  [p.old.key, p.new.key, accountKey H p.claim.address] ++ p.storage.keyLookups H ++
    [p.claim.oldRoot, p.claim.newRoot]

/-- `mpt_update_keys`, /repo/src/gadgets/mpt_update.rs:2242-2255 (sorting and removing duplicates once
more in /repo/src/mpt.rs:178-182 changes nothing). -/
def updateKeys (H : HashFn) (ps : List Proof) : List Fr :=
  sortDedup frCode (0 :: 1 :: ps.flatMap (proofKeys H))

/-- The pushes to `u64s`, lines 2157-2168. -/
def proofU64s (p : Proof) : List ℕ :=
  match p.claim.kind.proofType with
  | .NonceChanged | .CodeSizeExists =>
    (match p.oldAccount with | some a => [a.nonce, a.codeSize] | none => []) ++
    (match p.newAccount with | some a => [a.nonce, a.codeSize] | none => [])
  | _ => []

/-- The pushes to `frs`, lines 2169-2177. -/
def proofFrs (p : Proof) : List Fr :=
  match p.claim.kind.proofType with
  | .BalanceChanged =>
    (match p.oldAccount with | some a => [a.balance] | none => []) ++
    (match p.newAccount with | some a => [a.balance] | none => [])
  | _ => []

/-- The two halves of a word. /repo/src/gadgets/mpt_update.rs:2184-2224. -/
def halves (x : ℕ) : List ℕ := [(u256HiLo x).1, (u256HiLo x).2]

/-- The pushes to `u128s` (the repeated push of the high part of the address is left out: duplicates
are removed), lines 2155-2219. -/
def proofU128s (p : Proof) : Option (List ℕ) :=
  (match p.claim.kind.proofType with
    | .CodeHashExists => some (
      (match p.oldAccount with | some a => halves a.keccakCodehash | none => []) ++
      (match p.newAccount with | some a => halves a.keccakCodehash | none => []))
    | .StorageChanged =>
      match p.storage with
      | .Root _ => none
      | .Update _ _ _ o n =>
        some (halves p.claim.storageKey ++ halves o.value ++ halves n.value)
    | .StorageDoesNotExist => some (halves p.claim.storageKey)
    | _ => some []).map fun l => addressHigh p.claim.address :: l

/-- /repo/src/gadgets/mpt_update.rs:2148-2233. -/
def allU128s (ps : List Proof) : Option (List ℕ) := do
  let l ← ps.mapM proofU128s
  pure (0 :: l.flatten)

/-- `byte_representations`, /repo/src/gadgets/mpt_update.rs:2148-2239. -/
def byteRepresentations (ps : List Proof) : Option (List ℕ × List ℕ × List ℕ × List Fr) := do
  let u128s ← allU128s ps
  pure (sortDedup natCode (ps.map fun p => addressLow p.claim.address),
    sortDedup natCode (ps.flatMap proofU64s), sortDedup natCode u128s,
    sortDedup frCode (ps.flatMap proofFrs))

/-! ## Sorting and removing duplicates -/

theorem mem_dedup (l : List α) (x : α) : x ∈ dedup l ↔ x ∈ l := by
  induction l using dedup.induct with
  | case1 => simp [dedup]
  | case2 a => simp [dedup]
  | case3 a l ih => rw [dedup, if_pos rfl, ih]; simp
  | case4 a b l h ih => rw [dedup, if_neg h, List.mem_cons, ih]; simp

omit [DecidableEq α] in
theorem mem_sort (code : α → List ℕ) (l : List α) (x : α) : x ∈ sort code l ↔ x ∈ l :=
  (List.perm_insertionSort _ l).mem_iff

theorem mem_sortDedup (code : α → List ℕ) (l : List α) (x : α) : x ∈ sortDedup code l ↔ x ∈ l := by
  rw [sortDedup, mem_dedup, mem_sort]

theorem dedup_sorted (code : α → List ℕ) (hc : Function.Injective code) (l : List α)
    (h : l.Pairwise (fun a b => code a ≤ code b)) :
    (dedup l).Pairwise (fun a b => code a < code b) := by
  induction l using dedup.induct with
  | case1 => simp [dedup]
  | case2 a => simp [dedup]
  | case3 a l ih => rw [dedup, if_pos rfl]; exact ih (List.pairwise_cons.1 h).2
  | case4 a b l h' ih =>
    rw [dedup, if_neg h', List.pairwise_cons]
    refine ⟨?_, ih (List.pairwise_cons.1 h).2⟩
    intro x hx
    rw [mem_dedup] at hx
    have h1 := (List.pairwise_cons.1 h).1 b (by simp)
    have hlt : code a < code b := lt_of_le_of_ne h1 (fun e => h' (hc e))
    rcases List.mem_cons.1 hx with rfl | hx
    · exact hlt
    · exact lt_of_lt_of_le hlt ((List.pairwise_cons.1 (List.pairwise_cons.1 h).2).1 x hx)

/-- Sorted and without duplicates. -/
theorem sortDedup_sorted (code : α → List ℕ) (hc : Function.Injective code) (l : List α) :
    (sortDedup code l).Pairwise (fun a b => code a < code b) := by
  apply dedup_sorted code hc
  have : Std.Total (fun a b : α => code a ≤ code b) := ⟨fun a b => le_total _ _⟩
  have : IsTrans α (fun a b : α => code a ≤ code b) := ⟨fun a b c => le_trans⟩
  exact List.pairwise_insertionSort _ l

theorem traceCode_inj : Function.Injective traceCode := by
  rintro ⟨⟨a, b⟩, c, d⟩ ⟨⟨a', b'⟩, c', d'⟩ h
  simp only [traceCode, List.cons.injEq, and_true] at h
  simp only [ZMod.val_injective frModulus h.1, ZMod.val_injective frModulus h.2.1,
    ZMod.val_injective frModulus h.2.2.1, ZMod.val_injective frModulus h.2.2.2]
theorem bitCode_inj : Function.Injective bitCode := by
  rintro ⟨a, b, c⟩ ⟨a', b', c'⟩ h
  simp only [bitCode, List.cons.injEq, and_true] at h
  have h3 : c = c' := by
    have := h.2.2
    cases c <;> cases c' <;> simp at this ⊢
  simp only [ZMod.val_injective frModulus h.1, h.2.1, h3]
theorem frCode_inj : Function.Injective frCode := by
  intro a b h
  simp only [frCode, List.cons.injEq, and_true] at h
  exact ZMod.val_injective frModulus h
theorem natCode_inj : Function.Injective natCode := by
  intro a b h
  simpa [natCode] using h

end Mpt.Requests
