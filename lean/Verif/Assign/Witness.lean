import Verif.Completion
import Verif.Assign.ByteRep
import Verif.Assign.Canonical
import Verif.Assign.KeyBit
import Verif.Assign.Layout

set_option autoImplicit false

/-!
# Whole-circuit witnesses

A row of the update columns as a record, the witness assembled from the update rows and the contents
of the lookup tables, and the statement that it is accepted when every row satisfies its row relation.
-/

namespace Mpt
open Spec MptUpdate

/-- The cells of one row of `MptUpdateConfig` (/repo/src/gadgets/mpt_update.rs:51-79). The defaults
are those of cells that are never assigned. `iz i` is the value of `is_zero_gadgets[i]`; its inverse
column always holds the inverse (`IsZeroGadget::assign_value_and_inverse`). -/
structure URow where
  seg : SegmentType := .Start
  path : PathType := .Start
  proof : MPTProofType := .NonceChanged
  storageKeyRlc : Fr := 0
  oldValue : Fr := 0
  newValue : Fr := 0
  domain : Fr := 0
  oldHash : Fr := 0
  newHash : Fr := 0
  depth : Fr := 0
  key : Fr := 0
  otherKey : Fr := 0
  direction : Fr := 0
  sibling : Fr := 0
  iv : Fin 10 → Fr := fun _ => 0
  sp : Fin 10 → Fr := fun _ => 0
  iz : Fin 4 → Fr := fun _ => 0

/-- The cells of a row. A one-hot column holds 1 for the represented variant; the first variant has no
column (`OneHot::assign`, /repo/src/gadgets/one_hot.rs:39-49; the columns of the first variants in
`AdvCol` stand for no Rust column). -/
def URow.cell (u : URow) : AdvCol → Fr
  | .proofType t => if t = u.proof ∧ t ≠ .NonceChanged then 1 else 0
  | .segment t => if t = u.seg ∧ t ≠ .Start then 1 else 0
  | .path t => if t = u.path ∧ t ≠ .Start then 1 else 0
  | .storageKeyRlc => u.storageKeyRlc
  | .oldValue => u.oldValue
  | .newValue => u.newValue
  | .domain => u.domain
  | .oldHash => u.oldHash
  | .newHash => u.newHash
  | .depth => u.depth
  | .key => u.key
  | .otherKey => u.otherKey
  | .direction => u.direction
  | .sibling => u.sibling
  | .iv i => u.iv i
  | .sp i => u.sp i
  | .izVal i => u.iz i
  | .izInv i => (u.iz i)⁻¹
  | _ => 0

/-- A row without any assigned cell. Unassigned cells of /repo/src/gadgets/mpt_update.rs:53-78 are 0. -/
def URow.blank : URow := {}

theorem URow.cell_blank (c : AdvCol) : URow.blank.cell c = 0 := by
  cases c <;> simp [URow.cell, URow.blank] <;> (intro h; simp [h])

/-- `MptUpdateConfig::assign_padding_row`, /repo/src/gadgets/mpt_update.rs:348-354. -/
def URow.padding (H : HashFn) : URow :=
  { proof := .AccountDoesNotExist
    key := zeroPairHash H
    otherKey := zeroPairHash H
    domain := HashDomain.Pair.toFr }

/-- The columns written by the update gadget. /repo/src/gadgets/mpt_update.rs:53-78. -/
def isUpdateCol : AdvCol → Prop
  | .brValue | .brIndex | .brByte | .brRlc | .brIndexInv
  | .crValue | .crByte | .crDifference | .crRlc | .crZeroSoFar | .crDiffInv
  | .kbValue | .kbIndex | .kbBit | .kbDiv8 | .kbMod8 | .kbByte
  | .posHash | .posLeft | .posRight | .posControl | .posDomain | .posHead => False
  | _ => True

/-- The update cells of row `r` of `w` are those of `u`. For /repo/src/gadgets/mpt_update.rs:357-378. -/
def AtRow (w : Witness Fr) (r : ℤ) (u : URow) : Prop :=
  ∀ c, isUpdateCol c → w.adv c r = u.cell c

/-- The update row on row `r` when `rows` are written from row 1. /repo/src/gadgets/mpt_update.rs:357-378. -/
def rowAt (rows : List URow) (r : ℤ) : URow :=
  if 1 ≤ r then rows.getD (r - 1).toNat .blank else .blank

theorem rowAt_succ (rows : List URow) (k : ℕ) : rowAt rows ((k : ℤ) + 1) = rows.getD k .blank := by
  simp [rowAt]

namespace AtRow
variable {w : Witness Fr} {r : ℤ} {u : URow} (h : AtRow w r u)
include h
theorem storageKeyRlc : w.adv .storageKeyRlc r = u.storageKeyRlc := h _ trivial
theorem oldValue : w.adv .oldValue r = u.oldValue := h _ trivial
theorem newValue : w.adv .newValue r = u.newValue := h _ trivial
theorem domain : w.adv .domain r = u.domain := h _ trivial
theorem oldHash : w.adv .oldHash r = u.oldHash := h _ trivial
theorem newHash : w.adv .newHash r = u.newHash := h _ trivial
theorem depth : w.adv .depth r = u.depth := h _ trivial
theorem key : w.adv .key r = u.key := h _ trivial
theorem otherKey : w.adv .otherKey r = u.otherKey := h _ trivial
theorem direction : w.adv .direction r = u.direction := h _ trivial
theorem sibling : w.adv .sibling r = u.sibling := h _ trivial
theorem iv (i : Fin 10) : w.adv (.iv i) r = u.iv i := h _ trivial
theorem sp (i : Fin 10) : w.adv (.sp i) r = u.sp i := h _ trivial
theorem iz (i : Fin 4) : w.adv (.izVal i) r = u.iz i := h _ trivial
theorem izInv (i : Fin 4) : w.adv (.izInv i) r = (u.iz i)⁻¹ := h _ trivial
theorem seg : segmentType.Repr w r u.seg := by
  intro v hv
  have hne : v ≠ .Start := by revert hv; cases v <;> decide
  rw [h (segmentType.column v) trivial]
  simp [segmentType, URow.cell, hne]
theorem path : pathType.Repr w r u.path := by
  intro v hv
  have hne : v ≠ .Start := by revert hv; cases v <;> decide
  rw [h (pathType.column v) trivial]
  simp [pathType, URow.cell, hne]
theorem proof : proofType.Repr w r u.proof := by
  intro v hv
  have hne : v ≠ .NonceChanged := by revert hv; cases v <;> decide
  rw [h (proofType.column v) trivial]
  simp [proofType, URow.cell, hne]
end AtRow

/-- Everything written to the circuit: update rows (from row 1), byte strings, keys of the canonical
representation and key-bit requests, together with the Poseidon table of the caller, of which only the
Poseidon columns matter, and a list of inputs it contains. `threads = none`: key bits are assigned
serially from row 1; `threads = some t`: by `assign_par` with `t` threads (`KeyBit.par_cells`). All
other columns are the same in both modes (C15). /repo/src/mpt.rs:112-250. -/
structure Assembly where
  H : HashFn
  ρ : Fr
  n : ℕ
  rows : List URow
  strings : List (List ℕ)
  keys : List Fr
  reqs : List KeyBit.Req
  pos : List (Fr × Fr × Fr)
  table : Witness Fr
  threads : Option ℕ := none

/-- The row of the first key-bit request. /repo/src/gadgets/key_bit.rs:89-161. -/
def Assembly.kbOff (a : Assembly) : ℤ := if a.threads.isSome then 0 else 1
/-- The key-bit requests as laid out from that row. /repo/src/gadgets/key_bit.rs:89-161. -/
def Assembly.kbReqs (a : Assembly) : List KeyBit.Req :=
  match a.threads with
  | none => a.reqs
  | some t => KeyBit.parReqs a.reqs t

/-- The assembled witness. /repo/src/mpt.rs:112-250. -/
def Assembly.witness (a : Assembly) : Witness Fr where
  adv c r := match c with
    | .brValue | .brIndex | .brByte | .brRlc | .brIndexInv => ByteRep.cell a.ρ a.strings c r
    | .crValue | .crByte | .crDifference | .crRlc | .crZeroSoFar | .crDiffInv =>
      Canonical.cell a.ρ a.keys a.n c r
    | .kbValue | .kbIndex | .kbBit | .kbDiv8 | .kbMod8 | .kbByte =>
      KeyBit.cellFrom a.kbOff (a.kbReqs.map KeyBit.rowSpec) c r
    | .posHash | .posLeft | .posRight | .posControl | .posDomain | .posHead => a.table.adv c r
    | c => (rowAt a.rows r).cell c
  fix c r := match c with
    | .posEnable => a.table.fix .posEnable r
    | c => fixedCell a.n c r
  chal := a.ρ

/-- The Poseidon table `w` is usable: a Boolean enable column, sound rows, a blank row, and every listed
input is contained. Stands for the caller's table, /repo/src/gadgets/poseidon.rs:12-24. -/
structure PosTableFits (H : HashFn) (w : Witness Fr) (U : ℕ) (pos : List (Fr × Fr × Fr)) : Prop where
  bool : ∀ r, InU U r → w.fix .posEnable r = 0 ∨ w.fix .posEnable r = 1
  sound : PosSound H w U
  zero : Cmd.PosZeroRow w U
  has : ∀ x ∈ pos, P1 w U x.1 x.2.1 x.2.2 (H x.1 x.2.1 x.2.2)

/-- The inputs on row `r` of a Poseidon table written from row 1. /repo/src/gadgets/poseidon.rs:54-84. -/
def posAt (pos : List (Fr × Fr × Fr)) (r : ℤ) : Option (Fr × Fr × Fr) :=
  if 1 ≤ r then pos[(r - 1).toNat]? else none

/-- A Poseidon table with one enabled row per listed input, from row 1, with control 0 and head mark 1,
all other rows blank. /repo/src/gadgets/poseidon.rs:54-84. -/
def posTable (H : HashFn) (pos : List (Fr × Fr × Fr)) : Witness Fr where
  adv c r := match c with
    | .posHash => (posAt pos r).elim 0 (fun p => H p.1 p.2.1 p.2.2)
    | .posLeft => (posAt pos r).elim 0 (fun p => p.1)
    | .posRight => (posAt pos r).elim 0 (fun p => p.2.1)
    | .posDomain => (posAt pos r).elim 0 (fun p => p.2.2)
    | .posHead => (posAt pos r).elim 0 (fun _ => 1)
    | _ => 0
  fix c r := match c with
    | .posEnable => (posAt pos r).elim 0 (fun _ => 1)
    | _ => 0
  chal := 0

theorem posTable_fits (H : HashFn) (pos : List (Fr × Fr × Fr)) (U : ℕ) (h : 1 + pos.length ≤ U) :
    PosTableFits H (posTable H pos) U pos := by
  have p0 : posAt pos 0 = none := by simp [posAt]
  refine ⟨?_, ?_, ?_, ?_⟩
  · intro r _
    show (posAt pos r).elim (0 : Fr) (fun _ => 1) = 0 ∨ (posAt pos r).elim (0 : Fr) (fun _ => 1) = 1
    rcases hp : posAt pos r with _ | p
    · simp
    · right; rfl
  · intro r _ h _ _
    show (posAt pos r).elim 0 (fun p => H p.1 p.2.1 p.2.2) = H ((posAt pos r).elim 0 (fun p => p.1))
      ((posAt pos r).elim 0 (fun p => p.2.1)) ((posAt pos r).elim 0 (fun p => p.2.2))
    have h' : (posAt pos r).elim (0 : Fr) (fun _ => 1) = 1 := h
    rcases hp : posAt pos r with _ | p
    · rw [hp] at h'; simp at h'
    · rfl
  · refine ⟨0, ⟨le_refl _, by omega⟩, ?_, ?_, ?_, ?_, ?_, ?_, ?_⟩ <;> simp [posTable, p0]
  · rintro ⟨l, rr, d⟩ hx
    obtain ⟨k, hk, hkk⟩ := List.getElem_of_mem hx
    have e : posAt pos ((k : ℤ) + 1) = some (l, rr, d) := by
      simp [posAt, List.getElem?_eq_getElem hk, hkk]
    refine ⟨(k : ℤ) + 1, ⟨by omega, by omega⟩, ?_, ?_, ?_, ?_, ?_, ?_, ?_⟩ <;>
      simp [posTable, e]

namespace Assembly
variable (a : Assembly)

theorem atRow (r : ℤ) : AtRow a.witness r (rowAt a.rows r) := by
  intro c hc
  cases c <;> first
    | rfl
    | exact absurd hc (by simp [isUpdateCol])

theorem fixedOK : FixedOK a.n a.witness := by
  intro c hc r
  cases c <;> first
    | rfl
    | exact absurd rfl hc

theorem byteAssigned : ByteRep.Assigned a.witness a.strings := by
  intro c hc r
  simp only [List.mem_cons, List.not_mem_nil, or_false] at hc
  rcases hc with rfl | rfl | rfl | rfl | rfl <;> rfl
theorem canonicalAssigned : Canonical.Assigned a.witness a.keys a.n := by
  intro c hc r
  simp only [List.mem_cons, List.not_mem_nil, or_false] at hc
  rcases hc with rfl | rfl | rfl | rfl | rfl | rfl <;> rfl
theorem keyBitAssigned : KeyBit.Assigned a.witness a.kbOff a.kbReqs := by
  intro c hc r
  simp only [List.mem_cons, List.not_mem_nil, or_false] at hc
  rcases hc with rfl | rfl | rfl | rfl | rfl | rfl <;> rfl

/-- Conditions on the tables under which the table gadgets accept. For /repo/src/mpt.rs:112-250. -/
structure TablesFit (U : ℕ) : Prop where
  size : ByteBit.nRowsRequired ≤ a.n
  usable : a.n ≤ U
  bound : U ≤ 2 ^ 64
  bytes : ∀ s ∈ a.strings, IsBytes s ∧ s ≠ [] ∧ s.length < 2 ^ 64
  bytesFit : 1 + ByteRep.total a.strings ≤ a.n
  keysFit : a.keys.length ≤ a.n / 32 - 1
  zeroKey : 0 ∈ a.keys
  reqsCorrect : ∀ q ∈ a.reqs, KeyBit.Correct q
  reqsKeys : ∀ q ∈ a.reqs, q.1 ∈ a.keys
  reqsFit : 1 + a.reqs.length ≤ a.n
  posFits : PosTableFits a.H a.table U a.pos
  parFirst : ∀ t, a.threads = some t → 0 < t ∧ a.reqs.head? = some (0, 0, false)

variable {a} {U : ℕ}

theorem posSound (hf : a.TablesFit U) : PosSound a.H a.witness U := hf.posFits.sound

/-- A listed Poseidon input is served. -/
theorem posServed (hf : a.TablesFit U) {l rr d : Fr} (h : (l, rr, d) ∈ a.pos) :
    P1 a.witness U l rr d (a.H l rr d) := hf.posFits.has _ h

theorem sel_one (hf : a.TablesFit U) {r : ℤ} (hr : Enabled a.n r) :
    InU U r ∧ a.witness.fix .selector r = 1 :=
  ⟨enabled_inU hr hf.usable, (sel_eq_one_iff a.fixedOK r).2 hr⟩

/-- A listed byte string is served. -/
theorem rlcServed (hf : a.TablesFit U) {s : List ℕ} (h : s ∈ a.strings) :
    InRlc a.witness U ((beVal s : ℕ) : Fr) ((s.length - 1 : ℕ) : Fr) (Spec.rlc a.ρ s) := by
  obtain ⟨r, hr, hs, h1, h2, h3⟩ := ByteRep.served a.strings a.byteAssigned a.fixedOK hf.bytesFit s h
    (hf.bytes s h).2.1
  exact ⟨r, (sel_one hf hr).1, hs, h1.symm, h2.symm, h3.symm⟩
theorem bytesServed (hf : a.TablesFit U) {s : List ℕ} (h : s ∈ a.strings) :
    InBytes a.witness U ((beVal s : ℕ) : Fr) ((s.length - 1 : ℕ) : Fr) := by
  obtain ⟨r, h1, h2, h3, h4, -⟩ := rlcServed hf h
  exact ⟨r, h1, h2, h3, h4⟩

/-- A listed key is served by the RLC view of the canonical representation. -/
theorem frRlcServed (hf : a.TablesFit U) {v : Fr} (h : v ∈ a.keys) :
    InFrRlc a.witness U v (Spec.rlc a.ρ (frBytes v)) := by
  have hk := hf.keysFit
  have hn := hf.size
  unfold ByteBit.nRowsRequired at hn
  obtain ⟨r, hr, h1, h2, h3⟩ := (Canonical.served a.fixedOK a.keys (by omega)
    a.canonicalAssigned v h).2 (.inr (by omega))
  refine ⟨r, (sel_one hf hr).1, (sel_one hf hr).2, ?_, ?_⟩
  · rw [h1, h2, mul_one]
  · rw [h1, h3, mul_one]; rfl

theorem kbReqs_mem (hf : a.TablesFit U) {q : KeyBit.Req} (h : q ∈ a.kbReqs) : q ∈ a.reqs := by
  unfold kbReqs at h
  rcases ht : a.threads with _ | t
  · rw [ht] at h; exact h
  · rw [ht] at h
    simp only [KeyBit.parReqs, List.mem_append, List.mem_cons] at h
    rcases h with h | rfl | h
    · exact List.mem_of_mem_take h
    · exact List.mem_of_mem_head? (hf.parFirst t ht).2
    · exact List.mem_of_mem_drop h

/-- A listed key bit is served. -/
theorem keyBitServed (hf : a.TablesFit U) {q : KeyBit.Req} (h : q ∈ a.reqs) :
    InKeyBit a.witness U q.1 ((q.2.1 : ℕ) : Fr) (bitFr q.2.2) := by
  have hka := a.keyBitAssigned
  rcases ht : a.threads with _ | t
  · have e1 : a.kbOff = 1 := by simp [kbOff, ht]
    have e2 : a.kbReqs = a.reqs := by simp [kbReqs, ht]
    rw [e1, e2] at hka
    obtain ⟨j, hj, rfl⟩ := List.getElem_of_mem h
    obtain ⟨r, hr, h1, h2, h3⟩ := KeyBit.served (w := a.witness) (n := a.n) 1 (by omega) (by omega)
      a.reqs hka hf.reqsFit j hj (.inl rfl)
    exact ⟨r, (sel_one hf hr).1, (sel_one hf hr).2, h1.symm, h2.symm, h3.symm⟩
  · have e1 : a.kbOff = 0 := by simp [kbOff, ht]
    have e2 : a.kbReqs = KeyBit.parReqs a.reqs t := by simp [kbReqs, ht]
    rw [e1, e2] at hka
    obtain ⟨r, hr, h1, h2, h3⟩ := KeyBit.served_parReqs (w := a.witness) (n := a.n) a.reqs t
      (hf.parFirst t ht).1 hka hf.reqsFit (hf.parFirst t ht).2 q h
    exact ⟨r, (sel_one hf hr).1, (sel_one hf hr).2, h1.symm, h2.symm, h3.symm⟩

theorem kb_zero (hf : a.TablesFit U) : a.witness.adv .kbValue 0 = 0 ∧ a.witness.adv .kbIndex 0 = 0 ∧
    a.witness.adv .kbBit 0 = 0 := by
  obtain ⟨c1, c2, c3, -⟩ := KeyBit.cells_eq _ _ 0 a.keyBitAssigned
  have e : KeyBit.reqAt a.kbOff a.kbReqs 0 = (0, 0, false) := by
    rcases ht : a.threads with _ | t
    · simp [KeyBit.reqAt, kbOff, ht]
    · have e1 : a.kbOff = 0 := by simp [kbOff, ht]
      have e2 : a.kbReqs = KeyBit.parReqs a.reqs t := by simp [kbReqs, ht]
      obtain ⟨h0, hh⟩ := hf.parFirst t ht
      rw [e1, e2, KeyBit.reqAt, if_pos (le_refl _), KeyBit.parReqs]
      cases hl : a.reqs with
      | nil => rw [hl] at hh; simp at hh
      | cons q l =>
        rw [hl] at hh
        have hk := chunkSize_pos (len := (q :: l).length) (by simp) h0
        obtain ⟨k', hk'⟩ : ∃ k', chunkSize (q :: l).length t = k' + 1 :=
          ⟨_ - 1, (Nat.succ_pred_eq_of_pos hk).symm⟩
        rw [hk']
        simpa using hh
  rw [e] at c1 c2 c3
  rw [KeyBit.rowSpec_zero] at c1 c2 c3
  exact ⟨c1, c2, c3⟩

/-- The types of a row. For /repo/src/gadgets/mpt_update.rs:357-378. -/
def types (a : Assembly) (r : ℤ) : RowTypes :=
  ⟨(rowAt a.rows r).seg, (rowAt a.rows r).path, (rowAt a.rows r).proof⟩

/-- The final-row constraint holds when the last enabled row is a padding row. -/
theorem final_holds_of {H : HashFn} {w : Witness Fr} {n U : ℕ} (hf : FixedOK n w)
    (hlast : AtRow w ((n : ℤ) - 1) (.padding H)) (r : ℤ) : Cmd.HoldsL w U r [finalRow] := by
  simp only [finalRow, Cmd.holdsL_cons, Cmd.holdsL_nil, and_true, Cmd.holds_cond]
  intro hne
  have hr : r = (n : ℤ) - 1 := by
    by_contra hr
    apply hne
    rw [FixCol.eval_cur, hf .isFinalRow (by decide)]
    simp [fixedCell, hr]
  have hat := hlast
  rw [← hr] at hat
  have e1 : (seg [.Start]).eval w r = 1 := by
    have : (seg [.Start]).eval w r =
        if SegmentType.Start ∈ [SegmentType.Start] then (1 : Fr) else 0 :=
      OneHot.eval_matches _ _ _ _ _ _ (by decide) (by simpa [URow.padding] using hat.seg)
    simpa using this
  have e2 : (proofType.index 0 : Query Fr).eval w r = _ :=
    OneHot.eval_index _ _ _ _ MPTProofType.AccountDoesNotExist
      (by simpa [URow.padding] using hat.proof)
  have e3 : ((EnumIter.iter : List MPTProofType).idxOf MPTProofType.AccountDoesNotExist) = 5 := by
    decide
  have hiv := hat.iv
  have hsp := hat.sp
  simp [paddingRow, MptUpdate.lookup, hat.oldValue, hat.newValue, hat.storageKeyRlc,
    hat.iv, hat.sp, e1, e2, e3, URow.padding, MPTProofType.toNat]

theorem final_holds (hlast : rowAt a.rows ((a.n : ℤ) - 1) = .padding a.H) (r : ℤ) :
    Cmd.HoldsL a.witness U r [finalRow] :=
  final_holds_of a.fixedOK (hlast ▸ a.atRow _) r

/-- **Assembly is accepted** when the tables fit, the last enabled row is padding, rows beyond the
enabled area are blank and every enabled row satisfies its row relation. -/
theorem accepted (hf : a.TablesFit U) (hlen : a.rows.length = a.n - 1)
    (hlast : rowAt a.rows ((a.n : ℤ) - 1) = .padding a.H)
    (hrow : ∀ k : ℕ, k < a.rows.length → RowRel a.H a.witness U ((k : ℤ) + 1)
      (rowAt a.rows ((k : ℤ) + 1)).seg (rowAt a.rows ((k : ℤ) + 1 + 1)).seg
      (rowAt a.rows ((k : ℤ) + 1 - 1)).path (rowAt a.rows ((k : ℤ) + 1)).path
      (rowAt a.rows ((k : ℤ) + 1 + 1)).path (rowAt a.rows ((k : ℤ) + 1 - 1)).proof
      (rowAt a.rows ((k : ℤ) + 1)).proof) :
    Accepted a.H a.n U a.witness := by
  have hn := hf.size
  have hn' := hn
  unfold ByteBit.nRowsRequired at hn'
  have hU := hf.usable
  have hk := hf.keysFit
  have hblankRow : ∀ r, ¬ Enabled a.n r → rowAt a.rows r = .blank := by
    intro r hr
    unfold rowAt
    split
    · rw [List.getD_eq_default]
      unfold Enabled at hr
      omega
    · rfl
  refine accepted_of_rows a.fixedOK hf.usable hf.bound hf.posFits.bool (posSound hf) hf.posFits.zero 0
    ⟨le_refl _, by omega⟩
    (by simp [Enabled]) ?_ ?_ ?_ ?_ a.types ?_ ?_ ?_ ?_ ?_
  · have hc := a.canonicalAssigned
    have hkb := kb_zero hf
    have hb := a.byteAssigned
    refine ⟨?_, ?_, ?_, ?_, ?_, ?_, ?_, ?_, ?_, ?_, ?_, ?_, ?_⟩
    · rw [a.fixedOK _ (by decide)]; simp [fixedCell]
    · rw [a.fixedOK _ (by decide)]; simp [fixedCell]
    · rw [a.fixedOK _ (by decide)]; simp [fixedCell]
    · rw [a.fixedOK _ (by decide)]; simp [fixedCell]
    · rw [a.fixedOK _ (by decide)]; simp [fixedCell]
    · rw [hb _ (by simp)]; simp [ByteRep.cell, tableCell]
    · rw [hb _ (by simp)]; simp [ByteRep.cell, tableCell]
    · rw [hb _ (by simp)]; simp [ByteRep.cell, tableCell]
    · rw [hc _ (by simp)]; simp [Canonical.cell, tableCell]
    · rw [hc _ (by simp)]; simp [Canonical.cell, tableCell]
    · exact hkb.1
    · exact hkb.2.1
    · exact hkb.2.2
  · intro r hr
    exact ByteRep.holds a.fixedOK hn hU a.strings (fun s hs => (hf.bytes s hs).1)
      (fun s hs => (hf.bytes s hs).2.2) a.byteAssigned r hr
  · intro r hr
    exact Canonical.holds a.fixedOK hn hU a.keys hk a.canonicalAssigned r hr
  · intro r hr
    exact KeyBit.holds a.fixedOK hn hU a.kbOff a.kbReqs
      (fun q hq => hf.reqsCorrect q (kbReqs_mem hf hq)) a.keyBitAssigned a.keys (by omega)
      a.canonicalAssigned hf.zeroKey (fun q hq => hf.reqsKeys q (kbReqs_mem hf hq)) r
  · intro r
    exact ⟨(a.atRow r).seg, (a.atRow r).path, (a.atRow r).proof⟩
  · intro r _ i
    rw [(a.atRow r).izInv, (a.atRow r).iz]
  · intro r hr
    obtain ⟨k, rfl⟩ : ∃ k : ℕ, r = (k : ℤ) + 1 := ⟨(r - 1).toNat, by have := hr.1; omega⟩
    exact hrow k (by have := hr.2; omega)
  · intro r _ hr
    have hat := a.atRow r
    rw [hblankRow r hr] at hat
    exact ⟨hat.seg, hat.path, hat.proof, hat.iz 2⟩
  · intro r _
    exact final_holds hlast r

/-- The rows after the last group of the canonical-representation table are blank. -/
theorem trailingOK (h : a.keys.length ≤ a.n / 32) : TrailingOK a.n a.witness := by
  intro r h1 h2
  obtain ⟨k, rfl⟩ : ∃ k : ℕ, r = (k : ℤ) + 1 := ⟨(r - 1).toNat, by omega⟩
  have hz : ∀ f : Canonical.Row → Fr, tableCell (Canonical.rows a.ρ a.keys a.n) f ((k : ℤ) + 1) = 0 := by
    intro f
    rw [tableCell_succ, Canonical.rows_getElem? _ _ _ h, if_neg (by omega)]
    rfl
  have e1 : a.witness.adv .crByte ((k : ℤ) + 1) = 0 := hz _
  have e2 : a.witness.adv .crValue ((k : ℤ) + 1) = 0 := hz _
  rw [e1, e2, Canonical.frBytes_zero]
  simp

/-- The first row of the byte representation table of an assembled witness has index 0. -/
theorem brIndex_one (hne : ∀ s ∈ a.strings, s ≠ []) : a.witness.adv .brIndex 1 = 0 := by
  rw [a.byteAssigned .brIndex (by simp)]
  simp only [ByteRep.cell]
  have h := tableCell_succ (ByteRep.assignRows a.witness.chal a.strings) (·.index) 0
  simp only [Nat.cast_zero, zero_add] at h
  rw [h]
  cases hs : a.strings with
  | nil => simp [ByteRep.assignRows]
  | cons s l =>
    cases s with
    | nil => exact absurd rfl (hne [] (by rw [hs]; simp))
    | cons b s => simp [ByteRep.assignRows, ByteRep.loop]

end Assembly
end Mpt
