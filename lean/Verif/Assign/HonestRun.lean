import Verif.Assign.HonestTrace
import Verif.Assign.Requests
import Verif.Props.Layout
import Verif.Props.Requests

set_option autoImplicit false

/-!
# Completeness (C35): the frame of a run

What tables must serve, the Start row, the account trie rows, and the leaf rows as blocks whose
row relations follow from hash lookups and from the constraints of the proof type.
-/

namespace Mpt
open Spec MptUpdate Types Requests

variable {H : HashFn} {w : Witness Fr} {U : ℕ}

/-- The tables of `w` serve the requests made for the proof `p`: `hash_traces`, `key_bit_lookups`,
`mpt_update_keys` and `byte_representations`. -/
structure Serves (H : HashFn) (w : Witness Fr) (U : ℕ) (ρ : Fr) (p : Proof) : Prop where
  chal : w.chal = ρ
  hash : ∃ es, proofEntries H p = some es ∧ ∀ e ∈ es, P1 w U e.1.1 e.1.2 e.2.1 e.2.2
  bit : ∃ bs, proofBits H p = some bs ∧ ∀ b ∈ bs, InKeyBit w U b.1 ((b.2.1 : ℕ) : Fr) (bitFr b.2.2)
  key : ∀ x ∈ proofKeys H p, InFrRlc w U x (rlcFold (frBytes x) ρ)
  low : InBytes w U ((addressLow p.claim.address : ℕ) : Fr) 3
  u64 : ∀ x ∈ proofU64s p, InBytes w U ((x : ℕ) : Fr) 7
  u128 : ∃ l, proofU128s p = some l ∧ ∀ x ∈ l, InBytes w U ((x : ℕ) : Fr) 15 ∧
    InRlc w U ((x : ℕ) : Fr) 15 (rlcFold (beBytes 16 x) ρ)
  frs : ∀ x ∈ proofFrs p, InRlc w U x 30 (rlcFold (beBytes 31 x.val) ρ)

/-! ## Rows as written -/

/-- The four cells written on every row of a proof. -/
structure Claims (t : MPTProofType) (slot old new : Fr) (u : URow) : Prop where
  proof : u.proof = t
  slot : u.storageKeyRlc = slot
  old : u.oldValue = old
  new : u.newValue = new

theorem Claims.same {t : MPTProofType} {slot old new : Fr} {u v : URow} (h : Claims t slot old new u)
    (h' : Claims t slot old new v) : SameClaim u v :=
  ⟨by rw [h.proof, h'.proof], by rw [h.slot, h'.slot], by rw [h.old, h'.old], by rw [h.new, h'.new]⟩

theorem claims_base (ρ : Fr) (c : Claim) (u : URow) :
    Claims c.kind.proofType (rlcFold (u256ToBigEndian c.storageKey) ρ) (c.oldValueAssignment ρ)
      (c.newValueAssignment ρ) (u.withBase ρ c) := ⟨rfl, rfl, rfl, rfl⟩

theorem isTries_of {s : SegmentType} {key otherKey : Fr} (rows : List TrieRow) :
    ∀ (i : ℕ) (us : List URow), trieURows s key otherKey i rows = some us →
      IsTries s key otherKey i rows us := by
  induction rows with
  | nil => intro i us h; rw [trieURows] at h; cases h; trivial
  | cons row rows ih =>
    intro i us h
    rw [trieURows] at h
    obtain ⟨iv, h1, h⟩ := Option.bind_eq_some_iff.1 h
    obtain ⟨rest, h2, h⟩ := Option.bind_eq_some_iff.1 h
    cases h
    refine ⟨⟨rfl, rfl, rfl, rfl, rfl, rfl, rfl, rfl, rfl, rfl, ?_⟩, ih _ _ h2⟩
    rw [h1]; simp [trieURow, setFn]

/-- A change of cells that trie rows do not use. -/
structure Inert (f : URow → URow) : Prop where
  seg : ∀ u, (f u).seg = u.seg
  path : ∀ u, (f u).path = u.path
  domain : ∀ u, (f u).domain = u.domain
  oldHash : ∀ u, (f u).oldHash = u.oldHash
  newHash : ∀ u, (f u).newHash = u.newHash
  depth : ∀ u, (f u).depth = u.depth
  key : ∀ u, (f u).key = u.key
  otherKey : ∀ u, (f u).otherKey = u.otherKey
  direction : ∀ u, (f u).direction = u.direction
  sibling : ∀ u, (f u).sibling = u.sibling
  iv2 : ∀ u, (f u).iv 2 = u.iv 2

theorem inert_base (ρ : Fr) (c : Claim) : Inert (URow.withBase ρ c) :=
  ⟨fun _ => rfl, fun _ => rfl, fun _ => rfl, fun _ => rfl, fun _ => rfl, fun _ => rfl, fun _ => rfl,
    fun _ => rfl, fun _ => rfl, fun _ => rfl, fun _ => rfl⟩

theorem inert_absence (a b c : Fr) : Inert (fun u => u.withAbsence a b c) :=
  ⟨fun _ => rfl, fun _ => rfl, fun _ => rfl, fun _ => rfl, fun _ => rfl, fun _ => rfl, fun _ => rfl,
    fun _ => rfl, fun _ => rfl, fun _ => rfl, fun u => by simp [URow.withAbsence, setFn]⟩

theorem inert_id : Inert id :=
  ⟨fun _ => rfl, fun _ => rfl, fun _ => rfl, fun _ => rfl, fun _ => rfl, fun _ => rfl, fun _ => rfl,
    fun _ => rfl, fun _ => rfl, fun _ => rfl, fun _ => rfl⟩

theorem Inert.trie {f : URow → URow} (hf : Inert f) {s : SegmentType} {key ok : Fr} {i : ℕ}
    {row : TrieRow} {next : Option TrieRow} {u : URow} (h : IsTrie s key ok i row next u) :
    IsTrie s key ok i row next (f u) :=
  ⟨by rw [hf.seg, h.seg], by rw [hf.path, h.path], by rw [hf.domain, h.domain],
    by rw [hf.oldHash, h.oldHash], by rw [hf.newHash, h.newHash], by rw [hf.depth, h.depth],
    by rw [hf.key, h.key], by rw [hf.otherKey, h.otherKey], by rw [hf.direction, h.direction],
    by rw [hf.sibling, h.sibling], by rw [hf.iv2, h.iv2]⟩

theorem Inert.tries {f : URow → URow} (hf : Inert f) {s : SegmentType} {key ok : Fr}
    (rows : List TrieRow) : ∀ (i : ℕ) (us : List URow), IsTries s key ok i rows us →
      IsTries s key ok i rows (us.map f) := by
  induction rows with
  | nil => intro i us h; cases us with
    | nil => trivial
    | cons u us => exact absurd h (by simp [IsTries])
  | cons row rows ih => intro i us h; cases us with
    | nil => exact absurd h (by simp [IsTries])
    | cons u us => exact ⟨hf.trie h.1, ih _ _ h.2⟩

theorem Inert.triesLast {f : URow → URow} (hf : Inert f) {s : SegmentType} {key ok : Fr}
    (rows : List TrieRow) : ∀ (i : ℕ) (us : List URow), IsTries s key ok i rows us →
      IsTries s key ok i rows (modifyLast f us) := by
  induction rows with
  | nil => intro i us h; cases us with
    | nil => trivial
    | cons u us => exact absurd h (by simp [IsTries])
  | cons row rows ih => intro i us h; cases us with
    | nil => exact absurd h (by simp [IsTries])
    | cons u us =>
      cases us with
      | nil => exact ⟨hf.trie h.1, h.2⟩
      | cons v us => exact ⟨h.1, ih _ _ h.2⟩

theorem isTries_length {s : SegmentType} {key ok : Fr} (rows : List TrieRow) :
    ∀ (i : ℕ) (us : List URow), IsTries s key ok i rows us → us.length = rows.length := by
  induction rows with
  | nil => intro i us h; cases us with
    | nil => rfl
    | cons u us => exact absurd h (by simp [IsTries])
  | cons row rows ih => intro i us h; cases us with
    | nil => exact absurd h (by simp [IsTries])
    | cons u us => rw [List.length_cons, List.length_cons, ih _ _ h.2]

/-- Cells of the rows at the end. -/
theorem isTries_last {s : SegmentType} {key ok : Fr} (rows : List TrieRow) :
    ∀ (i : ℕ) (us : List URow) (u : URow), IsTries s key ok i rows us → us.getLast? = some u →
      ∃ row, rows.getLast? = some row ∧ u.seg = s ∧ u.path = row.pathType ∧ u.oldHash = row.old ∧
        u.newHash = row.new ∧ u.key = key ∧ u.otherKey = ok := by
  induction rows with
  | nil => intro i us u h hl; cases us with
    | nil => simp at hl
    | cons u us => exact absurd h (by simp [IsTries])
  | cons row rows ih => intro i us u h hl; cases us with
    | nil => exact absurd h (by simp [IsTries])
    | cons v us =>
      cases us with
      | nil =>
        simp only [List.getLast?_singleton, Option.some.injEq] at hl
        subst hl
        have := isTries_length _ _ _ h.2
        have : rows = [] := List.length_eq_zero_iff.1 (by simpa using this.symm)
        subst this
        exact ⟨row, rfl, h.1.seg, h.1.path, h.1.oldHash, h.1.newHash, h.1.key, h.1.otherKey⟩
      | cons v' us =>
        rw [List.getLast?_cons_cons] at hl
        obtain ⟨row', e, hh⟩ := ih _ _ u h.2 hl
        refine ⟨row', ?_, hh⟩
        cases rows with
        | nil => simp at e
        | cons a l => rw [List.getLast?_cons_cons]; exact e

theorem isTries_mem {s : SegmentType} {key ok : Fr} (rows : List TrieRow) :
    ∀ (i : ℕ) (us : List URow) (u : URow), IsTries s key ok i rows us → u ∈ us →
      ∃ row ∈ rows, u.seg = s ∧ u.path = row.pathType ∧ u.oldHash = row.old ∧ u.newHash = row.new := by
  induction rows with
  | nil => intro i us u h hl; cases us with
    | nil => simp at hl
    | cons u us => exact absurd h (by simp [IsTries])
  | cons row rows ih => intro i us u h hl; cases us with
    | nil => exact absurd h (by simp [IsTries])
    | cons v us =>
      rcases List.mem_cons.1 hl with rfl | hl
      · exact ⟨row, by simp, h.1.seg, h.1.path, h.1.oldHash, h.1.newHash⟩
      · obtain ⟨row', hm, hh⟩ := ih _ _ u h.2 hl
        exact ⟨row', List.mem_cons_of_mem _ hm, hh⟩

/-! ## The Start row -/

theorem rowRel_start {r : ℤ} {u prev : URow} {σ' : SegmentType} {p' : PathType} (hu : AtRow w r u)
    (hs : u.seg = .Start) (hp : u.path = .Start) (hd : u.depth = 0)
    (hdom : u.domain = HashDomain.Pair.toFr) (hst : StartRel w U r)
    (hseg : ∃ l, transitions u.proof .Start = some l ∧ σ' ∈ l)
    (hproof : ProofRel H w U r .Start σ' .Start u.proof) :
    RowRel H w U r u.seg σ' prev.path u.path p' prev.proof u.proof := by
  rw [hs, hp]
  refine ⟨by simp, fun _ => hst, ⟨fun h => absurd rfl h, fun h => absurd rfl h, fun h => by simp at h,
    fun _ _ => by rw [hu.depth, hd]⟩, ?_, trivial, ⟨.Pair, by simp [domains], by rw [hu.domain, hdom]⟩,
    hseg, hproof⟩
  cases p' <;> decide

/-- The Start row as written satisfies its relations. -/
theorem startRel_of {ρ : Fr} {p : Proof} (hS : Serves H w U ρ p) {r : ℤ} {u : URow} (hu : AtRow w r u)
    (h0 : u.iv 0 = ((addressHigh p.claim.address : ℕ) : Fr))
    (h1 : u.iv 1 = ((addressLow p.claim.address : ℕ) : Fr))
    (hk : u.key = accountKey H p.claim.address) (ho : u.oldHash = p.claim.oldRoot)
    (hn : u.newHash = p.claim.newRoot) (hs0 : u.sp 0 = rlcFold (frBytes p.claim.oldRoot) ρ)
    (hs1 : u.sp 1 = rlcFold (frBytes p.claim.newRoot) ρ) : StartRel w U r := by
  unfold StartRel
  rw [hu.iv, hu.iv, hu.sp, hu.sp, hu.key, hu.oldHash, hu.newHash, h0, h1, hk, ho, hn, hs0, hs1]
  obtain ⟨es, e1, e2⟩ := hS.hash
  obtain ⟨a, q1, q⟩ := Option.bind_eq_some_iff.1 e1
  obtain ⟨b, q2, q⟩ := Option.bind_eq_some_iff.1 q
  cases q
  obtain ⟨l, l1, l2⟩ := hS.u128
  refine ⟨?_, ?_, hS.low, hS.key _ (by simp [proofKeys]), hS.key _ (by simp [proofKeys])⟩
  · have := e2 ((((addressHigh p.claim.address : ℕ) : Fr),
      ((addressLow p.claim.address <<< 96 : ℕ) : Fr)), HashDomain.Pair.toFr,
        accountKey H p.claim.address) (List.mem_append_left _ (List.mem_append_left _
          (List.mem_append_left _ (List.mem_append_left _ (List.mem_append_right _
            (List.mem_singleton.2 rfl))))))
    rw [Nat.shiftLeft_eq, Nat.cast_mul] at this
    exact this
  · refine (l2 _ ?_).1
    obtain ⟨x, -, x2⟩ := Option.map_eq_some_iff.1 l1
    rw [← x2]; simp

end Mpt
