import Verif.Accepted

set_option autoImplicit false
set_option linter.unusedSimpArgs false

/-!
# From row relations to acceptance

`accepted_of_rows`: the converse of `Accepted.row`. A witness whose enabled rows satisfy the table
gadgets' constraints and the row relations of the update gadget, whose disabled rows are blank in the
update columns, and whose tables have a blank disabled row, is accepted by the whole circuit.
-/

namespace Mpt
open Spec MptUpdate

namespace Cmd
section generic
variable {F : Type} [Field F] (w : Witness F) (U : ℕ) (r : ℤ)

mutual
/-- No Poseidon lookup of the program is active on row `r`. -/
def Idle : Cmd F → Prop
  | .poseidon .. => False
  | .cond c body => c.eval w r = 0 ∨ IdleL body
  | _ => True
def IdleL : List (Cmd F) → Prop
  | [] => True
  | c :: cs => Idle c ∧ IdleL cs
end

mutual
theorem posHolds_zero (hp : PosZeroRow w U) (c : Cmd F) : PosHolds w U r 0 c := by
  match c with
  | .assertZero .. => simp [PosHolds]
  | .lookup .. => simp [PosHolds]
  | .poseidon .. =>
    obtain ⟨r', hr', h1, h2, h3, h4, h5, h6, h7⟩ := hp
    simp only [PosHolds]
    exact ⟨r', hr', by simp [h1], by simp [h2], by simp [h3], by simp [h4], h5.symm, by simp [h6],
      by simp [h7]⟩
  | .cond c body =>
    simp only [PosHolds, zero_mul]
    exact posHoldsL_zero hp body
theorem posHoldsL_zero (hp : PosZeroRow w U) (cs : List (Cmd F)) : PosHoldsL w U r 0 cs := by
  match cs with
  | [] => simp [PosHoldsL]
  | c :: cs => exact ⟨posHolds_zero hp c, posHoldsL_zero hp cs⟩
end

mutual
theorem posHolds_of_idle (hp : PosZeroRow w U) (acc : F) (c : Cmd F) (h : Idle w r c) :
    PosHolds w U r acc c := by
  match c with
  | .assertZero .. => simp [PosHolds]
  | .lookup .. => simp [PosHolds]
  | .poseidon .. => simp [Idle] at h
  | .cond c body =>
    simp only [PosHolds]
    simp only [Idle] at h
    rcases h with h | h
    · rw [h, mul_zero]; exact posHoldsL_zero w U r hp body
    · exact posHoldsL_of_idle hp _ body h
theorem posHoldsL_of_idle (hp : PosZeroRow w U) (acc : F) (cs : List (Cmd F)) (h : IdleL w r cs) :
    PosHoldsL w U r acc cs := by
  match cs with
  | [] => simp [PosHoldsL]
  | c :: cs =>
    simp only [IdleL] at h
    exact ⟨posHolds_of_idle hp acc c h.1, posHoldsL_of_idle hp acc cs h.2⟩
end

theorem idleL_iff (cs : List (Cmd F)) : IdleL w r cs ↔ ∀ c ∈ cs, Idle w r c := by
  induction cs with
  | nil => simp [IdleL]
  | cons c cs ih => simp [IdleL, ih]
theorem binaryL_iff (cs : List (Cmd F)) : BinaryL w r cs ↔ ∀ c ∈ cs, Binary w r c := by
  induction cs with
  | nil => simp [BinaryL]
  | cons c cs ih => simp [BinaryL, ih]
theorem tableZeroL_iff (cs : List (Cmd F)) : TableZeroL w r cs ↔ ∀ c ∈ cs, TableZero w r c := by
  induction cs with
  | nil => simp [TableZeroL]
  | cons c cs ih => simp [TableZeroL, ih]

end generic
end Cmd

open Cmd

variable {H : HashFn} {n U : ℕ} {w : Witness Fr} {r : ℤ}

/-! ## Table side -/

/-- The exposed table columns are blank on row `r`. -/
structure BlankTables (w : Witness Fr) (r : ℤ) : Prop where
  bbByte : w.fix .bbByte r = 0
  bbIndex : w.fix .bbIndex r = 0
  bbBit : w.fix .bbBit r = 0
  crIndex : w.fix .crIndex r = 0
  crIndexIs31 : w.fix .crIndexIs31 r = 0
  brValue : w.adv .brValue r = 0
  brIndex : w.adv .brIndex r = 0
  brRlc : w.adv .brRlc r = 0
  crValue : w.adv .crValue r = 0
  crByte : w.adv .crByte r = 0
  kbValue : w.adv .kbValue r = 0
  kbIndex : w.adv .kbIndex r = 0
  kbBit : w.adv .kbBit r = 0

theorem tableZero_binaryColumn (c : AdvCol) : TableZeroL w r (binaryColumn c : List (Cmd Fr)) := by
  simp [binaryColumn, TableZeroL, TableZero, Cmd.assert]

theorem tableZero_isZero (g : IsZeroGadget) : TableZeroL w r (g.configure : List (Cmd Fr)) := by
  simp [IsZeroGadget.configure, TableZeroL, TableZero, assertEqual]

theorem tableZero_oneHot {T : Type} [DecidableEq T] [EnumIter T] (o : OneHot T) :
    TableZeroL w r (o.configure : List (Cmd Fr)) := by
  rw [tableZeroL_iff]
  intro c hc
  simp only [OneHot.configure, List.mem_append, List.mem_flatMap, List.mem_singleton] at hc
  rcases hc with ⟨v, _, hc⟩ | rfl
  · exact (tableZeroL_iff ..).1 (tableZero_binaryColumn _) c hc
  · simp [Cmd.assert, TableZero]

theorem tableZeroL_append (a b : List (Cmd Fr)) :
    TableZeroL w r (a ++ b) ↔ TableZeroL w r a ∧ TableZeroL w r b := by
  simp only [tableZeroL_iff, List.mem_append]
  constructor
  · intro h; exact ⟨fun c hc => h c (.inl hc), fun c hc => h c (.inr hc)⟩
  · rintro ⟨h1, h2⟩ c (hc | hc)
    · exact h1 c hc
    · exact h2 c hc
theorem binaryL_append (a b : List (Cmd Fr)) :
    BinaryL w r (a ++ b) ↔ BinaryL w r a ∧ BinaryL w r b := by
  simp only [binaryL_iff, List.mem_append]
  constructor
  · intro h; exact ⟨fun c hc => h c (.inl hc), fun c hc => h c (.inr hc)⟩
  · rintro ⟨h1, h2⟩ c (hc | hc)
    · exact h1 c hc
    · exact h2 c hc
theorem idleL_append (a b : List (Cmd Fr)) :
    IdleL w r (a ++ b) ↔ IdleL w r a ∧ IdleL w r b := by
  simp only [idleL_iff, List.mem_append]
  constructor
  · intro h; exact ⟨fun c hc => h c (.inl hc), fun c hc => h c (.inr hc)⟩
  · rintro ⟨h1, h2⟩ c (hc | hc)
    · exact h1 c hc
    · exact h2 c hc

theorem forall_segment {P : SegmentType → Prop} : (∀ σ, P σ) ↔ P .Start ∧ P .AccountTrie ∧
    P .AccountLeaf0 ∧ P .AccountLeaf1 ∧ P .AccountLeaf2 ∧ P .AccountLeaf3 ∧ P .StorageTrie ∧
    P .StorageLeaf0 := by
  constructor
  · intro h; exact ⟨h _, h _, h _, h _, h _, h _, h _, h _⟩
  · rintro ⟨h1, h2, h3, h4, h5, h6, h7, h8⟩ σ; cases σ <;> assumption

theorem tableZero_forSegments (body : SegmentType → List (Cmd Fr))
    (h : ∀ σ, TableZeroL w r (body σ)) : TableZeroL w r (forSegments body) := by
  rw [tableZeroL_iff]
  intro c hc
  simp only [forSegments, List.mem_map] at hc
  obtain ⟨σ, _, rfl⟩ := hc
  exact h σ

theorem tableZero_segmentTransitions (t : MPTProofType) :
    TableZeroL w r (configureSegmentTransitions t) := by
  rw [tableZeroL_iff]
  intro c hc
  simp only [configureSegmentTransitions, List.mem_map] at hc
  obtain ⟨σ, _, rfl⟩ := hc
  cases transitions t σ <;> simp [TableZero, TableZeroL, Cmd.assert, assertUnreachable]

theorem tableZero_configure (h : BlankTables w r) : TableZeroL w r (mptCircuit H) := by
  obtain ⟨h1, h2, h3, h4, h5, h6, h7, h8, h9, h10, h11, h12, h13⟩ := h
  have proof : ∀ t, TableZeroL w r (configureProofType H t) := by
    intro t
    cases t <;>
      simp only [configureProofType, configureNonce, configureBalance, configureCodeSize,
        configurePoseidonCodeHash, configureEmptyAccount, configureKeccakCodeHash, configureStorage,
        configureEmptyStorage, tableZeroL_append]
    case AccountDestructed => simp [TableZeroL, TableZero, assertUnreachable, Cmd.assert]
    case NonceChanged =>
      refine ⟨by simp [TableZeroL, TableZero, Cmd.assert], tableZero_forSegments _ ?_⟩
      rw [forall_segment]
      simp [TableZeroL, TableZero, emptyAccountBlock, nonexistence, assertEqual, Cmd.assert,
        directionIs0, directionIs1, ByteRep.bytesLookup, h6, h7, h8, poseidonLookup]
    case BalanceChanged =>
      refine tableZero_forSegments _ ?_
      rw [forall_segment]
      simp [TableZeroL, TableZero, emptyAccountBlock, nonexistence, assertEqual, Cmd.assert,
        directionIs0, directionIs1, ByteRep.rlcLookup, h6, h7, h8, poseidonLookup]
    case CodeSizeExists =>
      refine tableZero_forSegments _ ?_
      rw [forall_segment]
      simp [TableZeroL, TableZero, emptyAccountBlock, nonexistence, assertEqual, Cmd.assert,
        directionIs0, directionIs1, ByteRep.bytesLookup, h6, h7, h8, poseidonLookup]
    case PoseidonCodeHashExists =>
      refine tableZero_forSegments _ ?_
      rw [forall_segment]
      simp [TableZeroL, TableZero, assertEqual, directionIs1]
    case AccountDoesNotExist =>
      refine ⟨by simp [TableZeroL, TableZero, assertEqual], tableZero_forSegments _ ?_⟩
      rw [forall_segment]
      simp [TableZeroL, TableZero, nonexistence, assertEqual, poseidonLookup]
    case CodeHashExists =>
      refine tableZero_forSegments _ ?_
      rw [forall_segment]
      simp [TableZeroL, TableZero, emptyAccountBlock, nonexistence, assertEqual, Cmd.assert,
        directionIs0, directionIs1, ByteRep.bytesLookup, ByteRep.rlcLookup, h6, h7, h8,
        poseidonLookup, oldNewWordRlc, wordRlc]
    case StorageChanged =>
      refine tableZero_forSegments _ ?_
      rw [forall_segment]
      simp [TableZeroL, TableZero, assertEqual, Cmd.assert,
        directionIs0, directionIs1, ByteRep.bytesLookup, ByteRep.rlcLookup, h6, h7, h8,
        poseidonLookup, oldNewWordRlc, wordRlc, keyWordRlc]
    case StorageDoesNotExist =>
      refine ⟨by simp [TableZeroL, TableZero, Cmd.assert, assertEqual, nonexistence,
        poseidonLookup], tableZero_forSegments _ ?_⟩
      rw [forall_segment]
      simp [TableZeroL, TableZero, assertEqual, Cmd.assert,
        directionIs0, directionIs1, ByteRep.bytesLookup, ByteRep.rlcLookup, h6, h7, h8,
        poseidonLookup, wordRlc, keyWordRlc]
  have path : ∀ p, TableZeroL w r (configurePathType p) := by
    intro p
    cases p <;>
      simp [configurePathType, configureCommonPath, configureExtensionOld, configureExtensionNew,
        TableZeroL, TableZero, oldHashLookup, newHashLookup, poseidonLookup, assertEqual, Cmd.assert,
        nonexistence]
  simp only [mptCircuit, MptUpdate.configure, tableZeroL_append]
  refine ⟨⟨⟨⟨⟨?_, ?_⟩, ?_⟩, ?_⟩, ?_⟩, ?_⟩
  · simp [ByteBit.configure, TableZeroL]
  · simp only [ByteRep.configure, tableZeroL_append]
    refine ⟨tableZero_isZero _, ?_⟩
    simp [TableZeroL, TableZero, assertEqual, ByteBit.rangeCheck256, h1]
  · simp only [Canonical.configure, tableZeroL_append]
    refine ⟨⟨tableZero_binaryColumn _, tableZero_isZero _⟩, ?_⟩
    simp [TableZeroL, TableZero, assertEqual, Cmd.assert, ByteBit.rangeCheck256, h1]
  · simp [KeyBit.configure, TableZeroL, TableZero, assertEqual, ByteBit.rangeCheck256,
      ByteBit.rangeCheck8, Canonical.lookup, ByteBit.lookup, h1, h2, h3, h4, h9, h10]
  · refine ⟨⟨⟨⟨⟨⟨⟨⟨tableZero_oneHot _, ⟨⟨tableZero_isZero _, tableZero_isZero _⟩,
      tableZero_isZero _⟩, tableZero_isZero _⟩, tableZero_oneHot _⟩, tableZero_oneHot _⟩, ?_⟩, ?_⟩,
      ?_⟩, ?_⟩, ?_⟩
    · simp [TableZeroL, TableZero, assertEqual, configureStart, ByteRep.bytesLookup,
        Canonical.frRlcLookup, h5, h6, h7, poseidonLookup]
    · simp [configureCommon, TableZeroL, TableZero, assertEqual, KeyBit.lookup, h11, h12, h13]
    · rw [tableZeroL_iff]
      intro c hc
      simp only [configurePaths, List.mem_map] at hc
      obtain ⟨p, _, rfl⟩ := hc
      refine ⟨by simp [Cmd.assert, TableZero], path p⟩
    · rw [tableZeroL_iff]
      intro c hc
      simp only [configureDomains, List.mem_map] at hc
      obtain ⟨p, _, rfl⟩ := hc
      simp [TableZero, TableZeroL]
    · rw [tableZeroL_iff]
      intro c hc
      simp only [configureProofTypes, List.mem_map] at hc
      obtain ⟨t, _, rfl⟩ := hc
      simp only [TableZero, tableZeroL_append]
      exact ⟨tableZero_segmentTransitions t, proof t⟩
  · simp [finalRow, TableZeroL, TableZero, paddingRow, MptUpdate.lookup, assertEqual]

/-! ## Conditions are 0 or 1 on decoded rows -/

variable {σ σ' : SegmentType} {pp p p' : PathType} {tp t : MPTProofType}

theorem ite_bin (P : Prop) [Decidable P] : (if P then (1 : Fr) else 0) = 0 ∨
    (if P then (1 : Fr) else 0) = 1 := by split <;> simp

theorem bin_seg (h : Dec w r σ σ' pp p p' tp t) (l : List SegmentType) (hl : l.Nodup) :
    (seg l).eval w r = 0 ∨ (seg l).eval w r = 1 := by rw [h.eval_seg l hl]; exact ite_bin _
theorem bin_segNext (h : Dec w r σ σ' pp p p' tp t) (l : List SegmentType) (hl : l.Nodup) :
    (segNext l).eval w r = 0 ∨ (segNext l).eval w r = 1 := by rw [h.eval_segNext l hl]; exact ite_bin _
theorem bin_pth (h : Dec w r σ σ' pp p p' tp t) (l : List PathType) (hl : l.Nodup) :
    (pth l).eval w r = 0 ∨ (pth l).eval w r = 1 := by rw [h.eval_pth l hl]; exact ite_bin _
theorem bin_pthNext (h : Dec w r σ σ' pp p p' tp t) (l : List PathType) (hl : l.Nodup) :
    (pthNext l).eval w r = 0 ∨ (pthNext l).eval w r = 1 := by rw [h.eval_pthNext l hl]; exact ite_bin _
theorem bin_prf (h : Dec w r σ σ' pp p p' tp t) (l : List MPTProofType) (hl : l.Nodup) :
    (prf l).eval w r = 0 ∨ (prf l).eval w r = 1 := by rw [h.eval_prf l hl]; exact ite_bin _
theorem bin_bnot (q : Query Fr) (h : q.eval w r = 0 ∨ q.eval w r = 1) :
    (Query.bnot q).eval w r = 0 ∨ (Query.bnot q).eval w r = 1 := by
  rw [Query.eval_bnot]; rcases h with h | h <;> simp [h]
theorem bin_band (a b : Query Fr) (ha : a.eval w r = 0 ∨ a.eval w r = 1)
    (hb : b.eval w r = 0 ∨ b.eval w r = 1) :
    (Query.band a b).eval w r = 0 ∨ (Query.band a b).eval w r = 1 := by
  rw [Query.eval_band]; rcases ha with h | h <;> rcases hb with h' | h' <;> simp [h, h']
theorem bin_keyEq (h : Dec w r σ σ' pp p p' tp t) :
    (keyEqualsOtherKey.current : Query Fr).eval w r = 0 ∨
      (keyEqualsOtherKey.current : Query Fr).eval w r = 1 := by
  have : (keyEqualsOtherKey.current : Query Fr) = (isZero 2).current := rfl
  rw [this, h.eval_isZero 2]; exact ite_bin _

theorem binary_binaryColumn (c : AdvCol) : BinaryL w r (binaryColumn c : List (Cmd Fr)) := by
  simp [binaryColumn, BinaryL, Binary, Cmd.assert]
theorem binary_isZero (g : IsZeroGadget) : BinaryL w r (g.configure : List (Cmd Fr)) := by
  simp [IsZeroGadget.configure, BinaryL, Binary, assertEqual]
theorem binary_oneHot {T : Type} [DecidableEq T] [EnumIter T] (o : OneHot T) :
    BinaryL w r (o.configure : List (Cmd Fr)) := by
  rw [binaryL_iff]
  intro c hc
  simp only [OneHot.configure, List.mem_append, List.mem_flatMap, List.mem_singleton] at hc
  rcases hc with ⟨v, _, hc⟩ | rfl
  · exact (binaryL_iff ..).1 (binary_binaryColumn _) c hc
  · simp [Cmd.assert, Binary]

theorem binary_forSegments (h : Dec w r σ σ' pp p p' tp t) (body : SegmentType → List (Cmd Fr))
    (hb : ∀ σ, BinaryL w r (body σ)) : BinaryL w r (forSegments body) := by
  rw [binaryL_iff]
  intro c hc
  simp only [forSegments, List.mem_map] at hc
  obtain ⟨σ, _, rfl⟩ := hc
  exact ⟨bin_seg h _ (nodup_singleton' _), hb σ⟩

theorem binary_update (h : Dec w r σ σ' pp p p' tp t)
    (hs : w.fix .selector r = 0 ∨ w.fix .selector r = 1) : BinaryL w r (MptUpdate.configure H) := by
  have hne : ∀ a b c, BinaryL w r (nonexistence a b c) := by
    intro a b c
    simp [nonexistence, BinaryL, Binary, assertEqual, poseidonLookup]
    have := bin_bnot _ (bin_keyEq h)
    simpa [Query.eval_bnot] using this
  have hwr : ∀ a b c d e f, BinaryL w r (wordRlc a b c d e f) := by
    intro a b c d e f
    simp [wordRlc, BinaryL, Binary, assertEqual, poseidonLookup]
  have hen : (pth [.ExtensionNew]).eval w r = 0 ∨ (pth [.ExtensionNew]).eval w r = 1 :=
    bin_pth h _ (by decide)
  have hco : (pth [.Common]).eval w r = 0 ∨ (pth [.Common]).eval w r = 1 :=
    bin_pth h _ (by decide)
  have hns : (segNext [.Start]).eval w r = 0 ∨ (segNext [.Start]).eval w r = 1 :=
    bin_segNext h _ (by decide)
  have hempty : BinaryL w r emptyAccountBlock := by
    simp only [emptyAccountBlock, BinaryL, Binary, binaryL_append, hne, and_true, hns]
    simp [BinaryL, Binary, assertEqual]
  have proof : ∀ t, BinaryL w r (configureProofType H t) := by
    intro t
    cases t <;>
      simp only [configureProofType, configureNonce, configureBalance, configureCodeSize,
        configurePoseidonCodeHash, configureEmptyAccount, configureKeccakCodeHash, configureStorage,
        configureEmptyStorage, binaryL_append]
    case AccountDestructed => simp [BinaryL, Binary, assertUnreachable, Cmd.assert]
    case NonceChanged =>
      refine ⟨by simp [BinaryL, Binary, Cmd.assert], binary_forSegments h _ ?_⟩
      rw [forall_segment]
      simp [BinaryL, Binary, hempty, assertEqual, Cmd.assert, directionIs0, directionIs1, hen, hco]
    case BalanceChanged =>
      refine binary_forSegments h _ ?_
      rw [forall_segment]
      simp [BinaryL, Binary, hempty, assertEqual, Cmd.assert, directionIs0, directionIs1, hen, hco]
    case CodeSizeExists =>
      refine binary_forSegments h _ ?_
      rw [forall_segment]
      simp [BinaryL, Binary, hempty, assertEqual, Cmd.assert, directionIs0, directionIs1]
    case PoseidonCodeHashExists =>
      refine binary_forSegments h _ ?_
      rw [forall_segment]
      simp [BinaryL, Binary, assertEqual, directionIs1]
    case AccountDoesNotExist =>
      refine ⟨by simp [BinaryL, Binary, assertEqual], binary_forSegments h _ ?_⟩
      rw [forall_segment]
      simp only [BinaryL, Binary, binaryL_append, hne, hns, assertEqual, and_self]
    case CodeHashExists =>
      refine binary_forSegments h _ ?_
      rw [forall_segment]
      simp only [BinaryL, Binary, binaryL_append, hempty, hwr, oldNewWordRlc, assertEqual,
        directionIs0, directionIs1, and_self]
    case StorageChanged =>
      refine binary_forSegments h _ ?_
      rw [forall_segment]
      simp only [BinaryL, Binary, binaryL_append, hwr, oldNewWordRlc, keyWordRlc, assertEqual, hco,
        directionIs0, directionIs1, Cmd.assert, and_self]
    case StorageDoesNotExist =>
      refine ⟨by simp only [BinaryL, Binary, Cmd.assert, assertEqual, hns, hne, and_self],
        binary_forSegments h _ ?_⟩
      rw [forall_segment]
      simp only [BinaryL, Binary, binaryL_append, hwr, keyWordRlc, assertEqual,
        directionIs0, directionIs1, and_self]
  have path : ∀ p, BinaryL w r (configurePathType p) := by
    intro p
    cases p
    · simp [configurePathType, BinaryL]
    · simp only [configurePathType, configureCommonPath, BinaryL, Binary, oldHashLookup,
        newHashLookup, poseidonLookup, assertEqual, and_true, true_and,
        bin_pthNext h [.Common, .Start] (by decide), bin_pthNext h [.ExtensionNew] (by decide),
        bin_pthNext h [.ExtensionOld] (by decide),
        bin_segNext h [.AccountLeaf0, .StorageLeaf0] (by decide),
        bin_bnot _ (bin_segNext h [.AccountLeaf0, .StorageLeaf0] (by decide))]
    · simp only [configurePathType, configureExtensionOld, BinaryL, Binary, oldHashLookup,
        poseidonLookup, assertEqual, Cmd.assert, and_true, true_and, hne,
        bin_seg h [.StorageTrie] (by decide), bin_seg h [.StorageLeaf0] (by decide),
        bin_segNext h [.StorageLeaf0] (by decide),
        bin_bnot _ (bin_segNext h [.StorageLeaf0] (by decide))]
    · simp only [configurePathType, configureExtensionNew, BinaryL, Binary, newHashLookup,
        poseidonLookup, assertEqual, Cmd.assert, and_true, true_and, hne,
        bin_seg h [.AccountTrie, .StorageTrie] (by decide),
        bin_seg h [.AccountLeaf0, .StorageLeaf0] (by decide),
        bin_bnot _ (bin_segNext h [.AccountTrie, .StorageTrie] (by decide)),
        bin_bnot _ (bin_bnot _ (bin_segNext h [.AccountTrie, .StorageTrie] (by decide)))]
  simp only [MptUpdate.configure, binaryL_append]
  refine ⟨⟨⟨⟨⟨⟨⟨⟨binary_oneHot _, ⟨⟨binary_isZero _, binary_isZero _⟩,
    binary_isZero _⟩, binary_isZero _⟩, binary_oneHot _⟩, binary_oneHot _⟩, ?_⟩, ?_⟩,
    ?_⟩, ?_⟩, ?_⟩
  · have hsel : (FixCol.selector.cur : Query Fr).eval w r = 0 ∨
        (FixCol.selector.cur : Query Fr).eval w r = 1 := by rw [FixCol.eval_cur]; exact hs
    simp only [BinaryL, Binary, assertEqual, configureStart, poseidonLookup, and_true, true_and]
    exact bin_band _ _ (bin_seg h _ (by decide)) hsel
  · simp only [configureCommon, BinaryL, Binary, assertEqual, and_true, true_and, hco,
      bin_seg h [.AccountTrie, .StorageTrie] (by decide),
      bin_bnot _ (bin_seg h [.Start] (by decide)),
      bin_bnot _ (bin_seg h [.Start, .AccountLeaf3] (by decide)),
      bin_bnot _ (bin_seg h [.AccountTrie, .StorageTrie] (by decide))]
  · rw [binaryL_iff]
    intro c hc
    simp only [configurePaths, List.mem_map] at hc
    obtain ⟨p, _, rfl⟩ := hc
    refine ⟨bin_pth h _ (nodup_singleton' _), by simp [Cmd.assert, Binary], path p⟩
  · rw [binaryL_iff]
    intro c hc
    simp only [configureDomains, List.mem_map] at hc
    obtain ⟨p, _, rfl⟩ := hc
    exact ⟨bin_seg h _ (nodup_singleton' _), by simp [Binary, BinaryL]⟩
  · rw [binaryL_iff]
    intro c hc
    simp only [configureProofTypes, List.mem_map] at hc
    obtain ⟨t, _, rfl⟩ := hc
    refine ⟨bin_prf h _ (nodup_singleton' _), ?_⟩
    rw [binaryL_append]
    refine ⟨?_, proof t⟩
    rw [binaryL_iff]
    intro c hc
    simp only [configureSegmentTransitions, List.mem_map] at hc
    obtain ⟨σ, _, rfl⟩ := hc
    refine ⟨bin_seg h _ (nodup_singleton' _), ?_⟩
    cases transitions t σ <;> simp [Binary, BinaryL, Cmd.assert, assertUnreachable]

/-- All conditions of the circuit are 0 or 1 on an enabled, decoded row. -/
theorem binary_circuit (hf : FixedOK n w) (hr : Enabled n r)
    (hc : ∀ r, Enabled n r → HoldsL w U r Canonical.configure)
    (h : Dec w r σ σ' pp p p' tp t) : BinaryL w r (mptCircuit H) := by
  simp only [mptCircuit, binaryL_append]
  have hfix : ∀ c r, c = FixCol.brIsFirst ∨ c = .crIndexIsZero ∨ c = .isFinalRow →
      w.fix c r = 0 ∨ w.fix c r = 1 := by
    intro c r hc
    rw [hf c (by rcases hc with rfl | rfl | rfl <;> decide)]
    rcases hc with rfl | rfl | rfl <;> exact ite_bin _
  refine ⟨⟨⟨⟨⟨by simp [ByteBit.configure, BinaryL], ?_⟩, ?_⟩, ?_⟩,
    binary_update h (sel_binary hf r)⟩, ?_⟩
  · simp only [ByteRep.configure, binaryL_append]
    refine ⟨binary_isZero _, ?_⟩
    simp only [BinaryL, Binary, assertEqual, FixCol.eval_cur, and_true]
    exact hfix _ _ (.inl rfl)
  · simp only [Canonical.configure, binaryL_append]
    refine ⟨⟨binary_binaryColumn _, binary_isZero _⟩, ?_⟩
    simp only [BinaryL, Binary, assertEqual, Cmd.assert, and_true, true_and]
    have hcr := canonical_row hf (hc r hr)
    have hz : (FixCol.crIndexIsZero.cur : Query Fr).eval w r = 0 ∨
        (FixCol.crIndexIsZero.cur : Query Fr).eval w r = 1 := by
      rw [FixCol.eval_cur]; exact hfix _ _ (.inr (.inl rfl))
    refine ⟨hz, bin_bnot _ hz, bin_band _ _ ?_ (bin_bnot _ ?_), ?_⟩
    · rw [AdvCol.eval_cur]; exact hcr.1
    · rw [IsZeroGadget.eval_current _ w r hcr.2.1]; exact ite_bin _
    · rw [FixCol.eval_rot]; exact hfix _ _ (.inr (.inl rfl))
  · simp [KeyBit.configure, BinaryL, Binary, assertEqual]
  · simp only [finalRow, BinaryL, Binary, FixCol.eval_cur, and_true]
    refine ⟨hfix _ _ (.inr (.inr rfl)), ?_⟩
    simp [paddingRow, MptUpdate.lookup, BinaryL, Binary, assertEqual]

/-! ## Blank rows -/

/-- The update columns are blank on row `r` and the next row starts an update (or is blank). -/
structure BlankRow (w : Witness Fr) (r : ℤ) : Prop where
  seg : segmentType.Repr w r .Start
  pth : pathType.Repr w r .Start
  prf : proofType.Repr w r .NonceChanged
  key : w.adv (.izVal 2) r = 0

theorem idle_forSegments (h : BlankRow w r) (body : SegmentType → List (Cmd Fr))
    (hb : IdleL w r (body .Start)) : IdleL w r (forSegments body) := by
  rw [idleL_iff]
  intro c hc
  simp only [forSegments, List.mem_map] at hc
  obtain ⟨σ, _, rfl⟩ := hc
  simp only [Idle]
  by_cases hσ : σ = .Start
  · subst hσ; exact .inr hb
  · left
    have : (seg [σ]).eval w r = if SegmentType.Start ∈ [σ] then (1 : Fr) else 0 :=
      OneHot.eval_matches _ _ _ _ _ _ (nodup_singleton' _) (by simpa using h.seg)
    rw [this, if_neg (by simpa using Ne.symm hσ)]

theorem idle_of_noPoseidon_oneHot {T : Type} [DecidableEq T] [EnumIter T] (o : OneHot T) :
    IdleL w r (o.configure : List (Cmd Fr)) := by
  rw [idleL_iff]
  intro c hc
  simp only [OneHot.configure, List.mem_append, List.mem_flatMap, List.mem_singleton] at hc
  rcases hc with ⟨v, _, hc⟩ | rfl
  · simp only [binaryColumn, List.mem_singleton] at hc
    subst hc
    simp [Idle, Cmd.assert]
  · simp [Cmd.assert, Idle]
theorem idle_isZero (g : IsZeroGadget) : IdleL w r (g.configure : List (Cmd Fr)) := by
  simp [IsZeroGadget.configure, IdleL, Idle, assertEqual]

/-- No Poseidon lookup is active on a disabled blank row. -/
theorem idle_circuit (h : BlankRow w r) (hs : w.fix .selector r = 0) : IdleL w r (mptCircuit H) := by
  simp only [mptCircuit, MptUpdate.configure, idleL_append]
  refine ⟨⟨⟨⟨⟨by simp [ByteBit.configure, IdleL], ?_⟩, ?_⟩, ?_⟩, ?_⟩, ?_⟩
  · simp only [ByteRep.configure, idleL_append]
    exact ⟨idle_isZero _, by simp [IdleL, Idle, assertEqual]⟩
  · simp only [Canonical.configure, idleL_append]
    refine ⟨⟨by simp [binaryColumn, IdleL, Idle, Cmd.assert], idle_isZero _⟩, ?_⟩
    simp [IdleL, Idle, assertEqual, Cmd.assert]
  · simp [KeyBit.configure, IdleL, Idle, assertEqual]
  · refine ⟨⟨⟨⟨⟨⟨⟨⟨idle_of_noPoseidon_oneHot _, ⟨⟨idle_isZero _, idle_isZero _⟩, idle_isZero _⟩,
      idle_isZero _⟩, idle_of_noPoseidon_oneHot _⟩, idle_of_noPoseidon_oneHot _⟩, ?_⟩, ?_⟩, ?_⟩, ?_⟩, ?_⟩
    · simp [IdleL, Idle, assertEqual, configureStart, hs]
    · simp [configureCommon, IdleL, Idle, assertEqual]
    · rw [idleL_iff]
      intro c hc
      simp only [configurePaths, List.mem_map] at hc
      obtain ⟨p, _, rfl⟩ := hc
      simp only [Idle]
      by_cases hp : p = .Start
      · subst hp
        right
        simp [configurePathType, IdleL, Idle, Cmd.assert]
      · left
        have : (pth [p]).eval w r = if PathType.Start ∈ [p] then (1 : Fr) else 0 :=
          OneHot.eval_matches _ _ _ _ _ _ (nodup_singleton' _) (by simpa using h.pth)
        rw [this, if_neg (by simpa using Ne.symm hp)]
    · rw [idleL_iff]
      intro c hc
      simp only [configureDomains, List.mem_map] at hc
      obtain ⟨p, _, rfl⟩ := hc
      simp [Idle, IdleL]
    · rw [idleL_iff]
      intro c hc
      simp only [configureProofTypes, List.mem_map] at hc
      obtain ⟨t, _, rfl⟩ := hc
      simp only [Idle]
      by_cases ht : t = .NonceChanged
      · subst ht
        right
        rw [idleL_append]
        constructor
        · rw [idleL_iff]
          intro c hc
          simp only [configureSegmentTransitions, List.mem_map] at hc
          obtain ⟨σ, _, rfl⟩ := hc
          simp only [Idle]
          right
          cases transitions .NonceChanged σ <;> simp [Idle, IdleL, Cmd.assert, assertUnreachable]
        · simp only [configureProofType, configureNonce, idleL_append]
          refine ⟨by simp [IdleL, Idle, Cmd.assert], idle_forSegments h _ ?_⟩
          simp only [emptyAccountBlock, IdleL, Idle, idleL_append, nonexistence, assertEqual,
            and_true, true_and]
          right; left
          have : (keyEqualsOtherKey.current : Query Fr).eval w r = 1 := by
            simp [keyEqualsOtherKey, isZero, IsZeroGadget.current, h.key]
          rw [Query.eval_bnot, this, sub_self]
      · left
        have : (prf [t]).eval w r = if MPTProofType.NonceChanged ∈ [t] then (1 : Fr) else 0 :=
          OneHot.eval_matches _ _ _ _ _ _ (nodup_singleton' _) (by simpa using h.prf)
        rw [this, if_neg (by simpa using Ne.symm ht)]
  · simp [finalRow, IdleL, Idle, paddingRow, MptUpdate.lookup, assertEqual]

/-! ## Acceptance -/

/-- Types of a row. -/
structure RowTypes where
  seg : SegmentType
  path : PathType
  proof : MPTProofType

/-- The converse of `Accepted.row`. -/
theorem accepted_of_rows (hf : FixedOK n w) (hnU : n ≤ U) (hU : U ≤ 2 ^ 64)
    (hpe : ∀ r, InU U r → w.fix .posEnable r = 0 ∨ w.fix .posEnable r = 1)
    (hps : PosSound H w U) (hpz : PosZeroRow w U)
    (r₀ : ℤ) (h0 : InU U r₀) (hd0 : ¬ Enabled n r₀) (hb0 : BlankTables w r₀)
    (hbr : ∀ r, Enabled n r → HoldsL w U r ByteRep.configure)
    (hcr : ∀ r, Enabled n r → HoldsL w U r Canonical.configure)
    (hkb : ∀ r, Enabled n r → HoldsL w U r KeyBit.configure)
    (T : ℤ → RowTypes)
    (hT : ∀ r, segmentType.Repr w r (T r).seg ∧ pathType.Repr w r (T r).path ∧
      proofType.Repr w r (T r).proof)
    (hiz : ∀ r, Enabled n r → ∀ i, w.adv (.izInv i) r = (w.adv (.izVal i) r)⁻¹)
    (hrow : ∀ r, Enabled n r → RowRel H w U r (T r).seg (T (r + 1)).seg (T (r - 1)).path
      (T r).path (T (r + 1)).path (T (r - 1)).proof (T r).proof)
    (hblank : ∀ r, InU U r → ¬ Enabled n r → BlankRow w r)
    (hfin : ∀ r, Enabled n r → HoldsL w U r [finalRow]) : Accepted H n U w := by
  refine ⟨?_, hf, hnU, hU, hpe, hps⟩
  obtain ⟨cs, hcs, -⟩ := sat_iff (mptCircuit H)
  have hsel : ∀ r, ¬ Enabled n r → w.fix .selector r = 0 := fun r hr =>
    (sel_binary hf r).resolve_right (fun h => hr ((sel_eq_one_iff hf r).1 h))
  refine ⟨cs, hcs, sat_of_holds _ _ hcs w U r₀ h0 (hsel r₀ hd0) hpz (tableZero_configure hb0)
    (fun r _ => sel_binary hf r) ?_ ?_⟩
  · intro r hr hs
    have he := (sel_eq_one_iff hf r).1 hs
    have hdec : Dec w r (T r).seg (T (r + 1)).seg (T (r - 1)).path (T r).path (T (r + 1)).path
        (T (r - 1)).proof (T r).proof :=
      ⟨(hT r).1, (hT (r + 1)).1, fun _ => (hT (r - 1)).2.1, (hT r).2.1, (hT (r + 1)).2.1,
        fun _ => (hT (r - 1)).2.2, (hT r).2.2, hiz r he⟩
    refine ⟨binary_circuit hf he hcr hdec, ?_⟩
    simp only [mptCircuit, holdsL_append]
    exact ⟨⟨⟨⟨⟨by simp [ByteBit.configure], hbr r he⟩, hcr r he⟩, hkb r he⟩,
      (configure_iff hdec hs H).2 (hrow r he)⟩, hfin r he⟩
  · intro r hr hs
    have hd : ¬ Enabled n r := fun he => by
      rw [(sel_eq_one_iff hf r).2 he] at hs; exact one_ne_zero hs
    exact posHoldsL_of_idle w U r hpz 1 _ (idle_circuit (hblank r hr hd) hs)

end Mpt
