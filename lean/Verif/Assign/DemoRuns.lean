import Verif.Assign.Demo
import Verif.Assign.RowSat

set_option autoImplicit false

/-!
# Concrete runs

Runs used as non-vacuity witnesses and counterexamples. All are parametrised by the hash function, the
challenge and the field values.
-/

namespace Mpt
open Spec MptUpdate

/-- The key of an address. -/
def addrKey (H : HashFn) (a : ℕ) : Fr :=
  H ((a / 2 ^ 32 : ℕ) : Fr) (((a % 2 ^ 32 : ℕ) : Fr) * ((2 ^ 96 : ℕ) : Fr)) HashDomain.Pair.toFr

/-- The Start row of a demo run. -/
def startRow (H : HashFn) (ρ : Fr) (t : MPTProofType) (a : ℕ) (otherKey slotRlc oldRoot newRoot
    oldValue newValue : Fr) : URow where
  seg := .Start
  path := .Start
  proof := t
  storageKeyRlc := slotRlc
  oldValue := oldValue
  newValue := newValue
  domain := HashDomain.Pair.toFr
  oldHash := oldRoot
  newHash := newRoot
  key := addrKey H a
  otherKey := otherKey
  iv := ![((a / 2 ^ 32 : ℕ) : Fr), ((a % 2 ^ 32 : ℕ) : Fr), 0, 0, 0, 0, 0, 0, 0, 0]
  sp := ![rootRlc ρ oldRoot, rootRlc ρ newRoot, 0, 0, 0, 0, 0, 0, 0, 0]

/-- The byte strings, keys and hash inputs needed by `startRow`. -/
def startStrings (a : ℕ) : List (List ℕ) := [beBytes 16 (a / 2 ^ 32), beBytes 4 (a % 2 ^ 32)]
def startPos (a : ℕ) : Fr × Fr × Fr :=
  (((a / 2 ^ 32 : ℕ) : Fr), ((a % 2 ^ 32 : ℕ) : Fr) * ((2 ^ 96 : ℕ) : Fr), HashDomain.Pair.toFr)

section
variable {H : HashFn} {ρ : Fr} {runs : List (List URow)} {strings : List (List ℕ)} {keys : List Fr}
variable {reqs : List KeyBit.Req} {pos : List (Fr × Fr × Fr)}

theorem DemoFits.num (h : DemoFits runs strings keys reqs pos) {k x : ℕ}
    (hs : beBytes (k + 1) x ∈ strings) (hx : x < 256 ^ (k + 1)) :
    InRlc (demo H ρ runs strings keys reqs pos).witness 2049 (x : Fr) (k : Fr)
      (Spec.rlc ρ (beBytes (k + 1) x)) := by
  have := h.string (H := H) (ρ := ρ) hs (beBytes_length _ _)
  rwa [beVal_beBytes _ _ hx] at this

theorem startRow_sat (h : DemoFits runs strings keys reqs pos) {r : ℤ} {t : MPTProofType} {a : ℕ}
    {otherKey slotRlc oldRoot newRoot oldValue newValue : Fr} (ha : a < 2 ^ 160)
    (hu : AtRow (demo H ρ runs strings keys reqs pos).witness r
      (startRow H ρ t a otherKey slotRlc oldRoot newRoot oldValue newValue))
    (hs : ∀ s ∈ startStrings a, s ∈ strings) (hp : startPos a ∈ pos)
    (h1 : oldRoot ∈ keys) (h2 : newRoot ∈ keys) :
    StartRel (demo H ρ runs strings keys reqs pos).witness 2049 r := by
  have e1 : a / 2 ^ 32 < 256 ^ (15 + 1) := by
    have : a / 2 ^ 32 < 2 ^ 128 := Nat.div_lt_of_lt_mul (by rw [← pow_add]; exact ha)
    norm_num at this ⊢; omega
  have e2 : a % 2 ^ 32 < 256 ^ (3 + 1) := by
    have := Nat.mod_lt a (show 0 < 2 ^ 32 by norm_num)
    norm_num at this ⊢; omega
  simp only [StartRel, hu.iv, hu.sp, hu.key, hu.oldHash, hu.newHash, startRow]
  refine ⟨h.hash hp, ?_, ?_, h.key h1, h.key h2⟩
  · exact bytes_of_rlc (by simpa using h.num (H := H) (ρ := ρ) (hs _ (by simp [startStrings])) e1)
  · exact bytes_of_rlc (by simpa using h.num (H := H) (ρ := ρ) (hs _ (by simp [startStrings])) e2)

end

theorem demo_exposes_start {H : HashFn} {ρ : Fr} {runs : List (List URow)} {strings : List (List ℕ)}
    {keys : List Fr} {reqs : List KeyBit.Req} {pos : List (Fr × Fr × Fr)} {l : List URow}
    {t : MPTProofType} {a : ℕ} {otherKey slotRlc oldRoot newRoot oldValue newValue : Fr}
    (ha : Accepted H 2049 2049 (demo H ρ ((startRow H ρ t a otherKey slotRlc oldRoot newRoot oldValue
      newValue :: l) :: runs) strings keys reqs pos).witness) :
    Exposes (demo H ρ ((startRow H ρ t a otherKey slotRlc oldRoot newRoot oldValue
      newValue :: l) :: runs) strings keys reqs pos).witness 2049 t (a : Fr) slotRlc
      (rootRlc ρ oldRoot) (rootRlc ρ newRoot) oldValue newValue := by
  have := demo_exposes ha rfl
  have e : ((a / 2 ^ 32 : ℕ) : Fr) * ((2 ^ 32 : ℕ) : Fr) + ((a % 2 ^ 32 : ℕ) : Fr) = (a : Fr) := by
    rw [← Nat.cast_mul, ← Nat.cast_add, Nat.div_add_mod']
  have e2 : (startRow H ρ t a otherKey slotRlc oldRoot newRoot oldValue newValue).iv 0 *
      ((2 ^ 32 : ℕ) : Fr) + (startRow H ρ t a otherKey slotRlc oldRoot newRoot oldValue newValue).iv 1 =
      (a : Fr) := e
  rw [e2] at this
  exact this

/-- The hash input of one level: child `h`, sibling `sib`, and the level's domain. -/
def levelPos (dir : Bool) (sib h : Fr) (d : HashDomain) : Fr × Fr × Fr :=
  (leftOf dir sib h, rightOf dir sib h, d.toFr)
/-- The hash of one level. -/
def levelHash (H : HashFn) (dir : Bool) (sib h : Fr) (d : HashDomain) : Fr :=
  H (leftOf dir sib h) (rightOf dir sib h) d.toFr

/-! ## A nonce claim on a single-leaf trie -/

/-- The field values of the demo account leaf. `k` is the key stored in the leaf. -/
structure Leaf where
  k : Fr
  pch : Fr
  right : Fr
  balance : Fr
  codeSize : ℕ

namespace Leaf
variable (H : HashFn) (l : Leaf)
def left (nonce : ℕ) : Fr := H (nonceCode nonce l.codeSize) l.balance HashDomain.AccountFields.toFr
def fields (nonce : ℕ) : Fr := H (l.left H nonce) l.right HashDomain.AccountFields.toFr
def data (nonce : ℕ) : Fr := H (l.fields H nonce) l.pch HashDomain.AccountFields.toFr
def hash (nonce : ℕ) : Fr := H l.k (l.data H nonce) HashDomain.Leaf.toFr
def pos (nonce : ℕ) : List (Fr × Fr × Fr) :=
  [(nonceCode nonce l.codeSize, l.balance, HashDomain.AccountFields.toFr),
    (l.left H nonce, l.right, HashDomain.AccountFields.toFr),
    (l.fields H nonce, l.pch, HashDomain.AccountFields.toFr),
    (l.k, l.data H nonce, HashDomain.Leaf.toFr)]
end Leaf

/-- An account leaf row of the nonce run. -/
def nonceLeafRow (H : HashFn) (a : ℕ) (old new : ℕ) (s : SegmentType) (d : HashDomain) (dir : Bool)
    (sib oldHash newHash : Fr) (slot : Fr := 0) : URow where
  seg := s
  path := .Common
  proof := .NonceChanged
  storageKeyRlc := slot
  oldValue := old
  newValue := new
  domain := d.toFr
  oldHash := oldHash
  newHash := newHash
  key := addrKey H a
  otherKey := addrKey H a
  direction := bitFr dir
  sibling := sib

/-- The nonce of the only leaf changes from `old` to `new`. The claim carries the storage key RLC `slot`, which
means nothing for a nonce and is 0 in honest claims. -/
def nonceRun (H : HashFn) (ρ : Fr) (a : ℕ) (l : Leaf) (old new : ℕ) (slot : Fr := 0) : List URow :=
  [ startRow H ρ .NonceChanged a (addrKey H a) slot (l.hash H old) (l.hash H new) old new,
    nonceLeafRow H a old new .AccountLeaf0 .Leaf true l.k (l.data H old) (l.data H new) slot,
    nonceLeafRow H a old new .AccountLeaf1 .AccountFields false l.pch (l.fields H old) (l.fields H new) slot,
    nonceLeafRow H a old new .AccountLeaf2 .AccountFields false l.right (l.left H old) (l.left H new) slot,
    nonceLeafRow H a old new .AccountLeaf3 .AccountFields false l.balance
      (nonceCode old l.codeSize) (nonceCode new l.codeSize) slot ]

def nonceStrings (a : ℕ) (l : Leaf) (old new : ℕ) : List (List ℕ) :=
  startStrings a ++ [beBytes 8 old, beBytes 8 new, beBytes 8 l.codeSize]

def nonceDemo (H : HashFn) (ρ : Fr) (a : ℕ) (l : Leaf) (old new : ℕ) (slot : Fr := 0) : Assembly :=
  demo H ρ [nonceRun H ρ a l old new slot] (nonceStrings a l old new) [l.hash H old, l.hash H new] []
    (startPos a :: l.pos H old ++ l.pos H new)

theorem two64_cast : two64 = ((2 ^ 64 : ℕ) : Fr) := by
  unfold two64; rw [← Nat.cast_mul]; norm_num
theorem two64_ne_zero : two64 ≠ 0 := by
  rw [two64_cast]
  intro h
  have := (ZMod.natCast_eq_zero_iff (2 ^ 64) frModulus).1 h
  have h2 := Nat.le_of_dvd (by norm_num) this
  have := frModulus_big
  omega
theorem nonceCode_size (nonce cs : ℕ) : (nonceCode nonce cs - (nonce : Fr)) * two64⁻¹ = (cs : Fr) := by
  have := two64_ne_zero
  rw [two64_cast] at this ⊢
  unfold nonceCode
  push_cast at this ⊢
  field_simp
  ring

theorem nonceDemo_fits (H : HashFn) (ρ : Fr) (a : ℕ) (l : Leaf) (old new : ℕ) (slot : Fr) :
    DemoFits [nonceRun H ρ a l old new slot] (nonceStrings a l old new) [l.hash H old, l.hash H new] []
      (startPos a :: l.pos H old ++ l.pos H new) := by
  refine ⟨by simp [nonceRun], ?_, ?_, by simp, by simp, by simp, by simp [Leaf.pos]⟩
  · intro s hs
    simp only [nonceStrings, startStrings, List.mem_append, List.mem_cons, List.not_mem_nil, or_false]
      at hs
    rcases hs with (rfl | rfl) | rfl | rfl | rfl <;>
      refine ⟨isBytes_beBytes _ _, ?_, by simp⟩ <;>
      exact List.ne_nil_of_length_pos (by simp)
  · simp [nonceStrings, startStrings, ByteRep.total]

/-- The nonce run satisfies the constraints in every witness that serves its lookups. -/
theorem nonceRun_sat (H : HashFn) (ρ : Fr) {a : ℕ} (l : Leaf) {old new : ℕ} {slot : Fr} {w : Witness Fr}
    {U : ℕ}
    (hstart : ∀ r, AtRow w r (startRow H ρ .NonceChanged a (addrKey H a) slot (l.hash H old)
      (l.hash H new) old new) → StartRel w U r)
    (P : ∀ l' r' d', (l', r', d') ∈ (startPos a :: l.pos H old ++ l.pos H new) →
      P1 w U l' r' d' (H l' r' d'))
    (hold : InBytes w U (old : Fr) 7) (hnew : InBytes w U (new : Fr) 7)
    (hcs : InBytes w U (l.codeSize : Fr) 7) :
    RunSat H w U (nonceRun H ρ a l old new slot) := by
  refine ⟨by simp [nonceRun], ⟨rfl, rfl⟩, ?_⟩
  intro r prev hprev hat
  simp only [nonceRun, AtRows, and_true] at hat
  obtain ⟨u0, u1, u2, u3, u4⟩ := hat
  have v1 := u0.shift
  have v2 := u1.shift
  have v3 := u2.shift
  have v4 := u3.shift
  simp only [nonceRun, RowsOK, and_true, List.headD_cons, List.headD_nil]
  refine ⟨?_, ?_, ?_, ?_, ?_⟩
  · refine ⟨by simp [startRow], fun _ => hstart r u0,
      ⟨fun h => absurd rfl h, fun h => absurd rfl h, ?_, fun _ _ => ?_⟩, ?_, ?_, ?_, ?_, ?_⟩
    · rintro (h | h) <;> simp [startRow] at h
    · rw [u0.depth]; rfl
    · show PathType.Common ∈ forwardTransitions PathType.Start; decide
    · simp [startRow, PathRel]
    · exact ⟨.Pair, by simp [startRow, domains], by rw [u0.domain]; rfl⟩
    · exact ⟨_, rfl, by simp [nonceLeafRow]⟩
    · exact ⟨by simp [startRow], fun h => by simp [nonceLeafRow] at h⟩
  · refine ⟨by simp [nonceLeafRow], by simp [nonceLeafRow], commonRel_leaf u1 v1 rfl rfl
      (by simp [nonceLeafRow]) (by simp [nonceLeafRow]) ⟨rfl, rfl, rfl, rfl⟩ (fun _ => ⟨rfl, rfl⟩) rfl,
      ?_, ?_, ?_, ?_, ?_⟩
    · show PathType.Common ∈ forwardTransitions PathType.Common; decide
    · simp only [PathRel, CommonRel, nonceLeafRow, u1.domain]
      rw [oldNode_iff u1 v1 (dir := true) rfl, newNode_iff u1 v1 (dir := true) rfl]
      exact ⟨P _ _ _ (by simp [Leaf.pos, leftOf, rightOf, nonceLeafRow]),
        P _ _ _ (by simp [Leaf.pos, leftOf, rightOf, nonceLeafRow])⟩
    · exact ⟨.Leaf, by simp [nonceLeafRow, domains], by rw [u1.domain]; rfl⟩
    · exact ⟨_, rfl, by simp [nonceLeafRow]⟩
    · refine ⟨by simp [nonceLeafRow], ?_⟩
      show _ = _; rw [u1.direction]; rfl
  · refine ⟨by simp [nonceLeafRow], by simp [nonceLeafRow], commonRel_leaf u2 v2 rfl rfl
      (by simp [nonceLeafRow]) (by simp [nonceLeafRow]) ⟨rfl, rfl, rfl, rfl⟩ (fun _ => ⟨rfl, rfl⟩) rfl,
      ?_, ?_, ?_, ?_, ?_⟩
    · show PathType.Common ∈ forwardTransitions PathType.Common; decide
    · simp only [PathRel, CommonRel, nonceLeafRow, u2.domain]
      rw [oldNode_iff u2 v2 (dir := false) rfl, newNode_iff u2 v2 (dir := false) rfl]
      exact ⟨P _ _ _ (by simp [Leaf.pos, leftOf, rightOf, nonceLeafRow]),
        P _ _ _ (by simp [Leaf.pos, leftOf, rightOf, nonceLeafRow])⟩
    · exact ⟨.AccountFields, by simp [nonceLeafRow, domains], by rw [u2.domain]; rfl⟩
    · exact ⟨_, rfl, by simp [nonceLeafRow]⟩
    · refine ⟨by simp [nonceLeafRow], ?_, fun h => by simp [nonceLeafRow] at h⟩
      rw [u2.direction]; rfl
  · refine ⟨by simp [nonceLeafRow], by simp [nonceLeafRow], commonRel_leaf u3 v3 rfl rfl
      (by simp [nonceLeafRow]) (by simp [nonceLeafRow]) ⟨rfl, rfl, rfl, rfl⟩ (fun _ => ⟨rfl, rfl⟩) rfl,
      ?_, ?_, ?_, ?_, ?_⟩
    · show PathType.Common ∈ forwardTransitions PathType.Common; decide
    · simp only [PathRel, CommonRel, nonceLeafRow, u3.domain]
      rw [oldNode_iff u3 v3 (dir := false) rfl, newNode_iff u3 v3 (dir := false) rfl]
      exact ⟨P _ _ _ (by simp [Leaf.pos, leftOf, rightOf, nonceLeafRow]),
        P _ _ _ (by simp [Leaf.pos, leftOf, rightOf, nonceLeafRow])⟩
    · exact ⟨.AccountFields, by simp [nonceLeafRow, domains], by rw [u3.domain]; rfl⟩
    · exact ⟨_, rfl, by simp [nonceLeafRow]⟩
    · refine ⟨by simp [nonceLeafRow], ?_, fun h => by simp [nonceLeafRow] at h⟩
      rw [u3.direction]; rfl
  · refine ⟨by simp [nonceLeafRow], by simp [nonceLeafRow], commonRel_leaf u4 v4 rfl rfl
      (by simp [nonceLeafRow]) (by simp [nonceLeafRow]) ⟨rfl, rfl, rfl, rfl⟩ (fun _ => ⟨rfl, rfl⟩) rfl,
      ?_, ?_, ?_, ?_, ?_⟩
    · show PathType.Start ∈ forwardTransitions PathType.Common; decide
    · simp only [PathRel, CommonRel, nonceLeafRow, u4.domain, URow.blank]
      rw [oldNode_iff u4 v4 (dir := false) rfl, newNode_iff u4 v4 (dir := false) rfl]
      exact ⟨P _ _ _ (by simp [Leaf.pos, leftOf, rightOf, nonceLeafRow]),
        P _ _ _ (by simp [Leaf.pos, leftOf, rightOf, nonceLeafRow])⟩
    · exact ⟨.AccountFields, by simp [nonceLeafRow, domains], by rw [u4.domain]; rfl⟩
    · exact ⟨_, rfl, by simp [URow.blank]⟩
    · refine ⟨by simp [nonceLeafRow], ?_, ?_, fun _ => ?_, fun h => by simp [nonceLeafRow] at h⟩
      · rw [u4.direction]; rfl
      · rw [u4.newValue]; exact hnew
      · rw [u4.newValue, u4.oldValue, u4.oldHash, u4.newHash]
        simp only [nonceLeafRow, nonceCode_size]
        exact ⟨hold, trivial, hcs⟩

/-- **Accepted nonce claim.** For every hash function, challenge, address, leaf (with *any* key in it)
and nonces, the circuit accepts a witness with sound tables that exposes the claim "the nonce of
address `a` changes from `old` to `new`" about the two single-leaf tries, with *any* storage key RLC in it. -/
theorem nonceDemo_accepted (H : HashFn) (ρ : Fr) {a : ℕ} (ha : a < 2 ^ 160) (l : Leaf) {old new : ℕ}
    (ho : old < 2 ^ 64) (hn : new < 2 ^ 64) (hcs : l.codeSize < 2 ^ 64) (slot : Fr := 0) :
    Accepted H 2049 2049 (nonceDemo H ρ a l old new slot).witness ∧
    TablesOK (nonceDemo H ρ a l old new slot).witness 2049 ∧
    Exposes (nonceDemo H ρ a l old new slot).witness 2049 .NonceChanged (a : Fr) slot
      (rootRlc ρ (l.hash H old)) (rootRlc ρ (l.hash H new)) old new := by
  have hfit := nonceDemo_fits H ρ a l old new slot
  have hw : (nonceDemo H ρ a l old new slot).witness = (demo H ρ [nonceRun H ρ a l old new slot]
    (nonceStrings a l old new) [l.hash H old, l.hash H new] []
    (startPos a :: l.pos H old ++ l.pos H new)).witness := rfl
  have hb : ∀ x, x < 2 ^ 64 → beBytes 8 x ∈ nonceStrings a l old new →
      InBytes (nonceDemo H ρ a l old new slot).witness 2049 (x : Fr) 7 := by
    intro x hx hm
    rw [hw]
    exact bytes_of_rlc (by simpa using hfit.num (H := H) (ρ := ρ) hm (by norm_num at hx ⊢; omega))
  have P : ∀ l' r' d', (l', r', d') ∈ (startPos a :: l.pos H old ++ l.pos H new) →
      P1 (nonceDemo H ρ a l old new slot).witness 2049 l' r' d' (H l' r' d') := by
    intro l' r' d' hm; rw [hw]; exact hfit.hash hm
  have hacc := hfit.accepted (H := H) (ρ := ρ) (by
    intro run hrun
    rw [List.mem_singleton] at hrun
    subst hrun
    rw [← hw]
    exact nonceRun_sat H ρ l (fun r u0 => startRow_sat hfit ha u0
      (fun s hs => List.mem_append_left _ hs) (by simp) (by simp) (by simp)) P
      (hb old ho (by simp [nonceStrings])) (hb new hn (by simp [nonceStrings]))
      (hb _ hcs (by simp [nonceStrings])))
  refine ⟨hacc.1, hacc.2, ?_⟩
  exact demo_exposes_start hacc.1

end Mpt
