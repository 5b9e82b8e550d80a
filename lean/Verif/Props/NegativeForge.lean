import Verif.Assign.DemoRuns
import Verif.Props.NegativeTables
import Verif.Props.Negative
import Verif.Props.Content

set_option autoImplicit false

/-!
# False claims are accepted

B1 at the level of claims. The first row of the byte-representation table may continue from row 0,
which no constraint reaches (/repo/src/gadgets/byte_representation.rs:66-68). One forged entry of the
table is enough for the circuit to accept a claim that the nonce of an account is any number at all:
the packed word `nonce + 2^64 * code_size` is split with a "code size" that is not an 8-byte number.
-/

namespace Mpt
open Spec MptUpdate

/-- The witness of `a` with the entry `(v, k, 0)` on row 1 of the byte-representation table, and the
cells of row 0 from which it continues. Nothing else is changed. -/
def Assembly.forged (a : Assembly) (v : Fr) (k : ℕ) : Witness Fr where
  adv c r := match c with
    | .brValue => if r = 0 then v * 256⁻¹ else if r = 1 then v else a.witness.adv .brValue r
    | .brIndex => if r = 0 then (k : Fr) - 1 else if r = 1 then k else a.witness.adv .brIndex r
    | .brRlc => if r = 0 ∨ r = 1 then 0 else a.witness.adv .brRlc r
    | .brByte => if r = 0 ∨ r = 1 then 0 else a.witness.adv .brByte r
    | .brIndexInv => if r = 0 then ((k : Fr) - 1)⁻¹ else if r = 1 then (k : Fr)⁻¹
        else a.witness.adv .brIndexInv r
    | c => a.witness.adv c r
  fix := a.witness.fix
  chal := a.witness.chal

namespace Assembly
variable {a : Assembly} {v : Fr} {k U : ℕ}

theorem forged_atRow (r : ℤ) : AtRow (a.forged v k) r (rowAt a.rows r) := by
  intro c hc
  have h := a.atRow r c hc
  cases c <;> first
    | exact h
    | exact absurd hc (by simp [isUpdateCol])

theorem forged_fixedOK : FixedOK a.n (a.forged v k) := a.fixedOK

theorem forged_canonical : Canonical.Assigned (a.forged v k) a.keys a.n := by
  intro c hc r
  have := a.canonicalAssigned c hc r
  simp only [List.mem_cons, List.not_mem_nil, or_false] at hc
  rcases hc with rfl | rfl | rfl | rfl | rfl | rfl <;> exact this

theorem forged_keyBit : KeyBit.Assigned (a.forged v k) a.kbOff a.kbReqs := by
  intro c hc r
  have := a.keyBitAssigned c hc r
  simp only [List.mem_cons, List.not_mem_nil, or_false] at hc
  rcases hc with rfl | rfl | rfl | rfl | rfl | rfl <;> exact this

/-- Entries with a positive index of at most `2^64` are still there. -/
theorem forged_bytes {x : Fr} {j : ℕ} (h1 : a.witness.adv .brIndex 1 = 0) (hj : 0 < j)
    (hj2 : j < 2 ^ 64) (h : InBytes a.witness U x (j : Fr)) :
    InBytes (a.forged v k) U x (j : Fr) := by
  obtain ⟨r, hr, hs, e1, e2⟩ := h
  have hr0 : r ≠ 0 := by
    rintro rfl
    have : a.witness.fix .selector 0 = 0 := by rw [a.fixedOK _ (by decide)]; simp [fixedCell]
    rw [this] at hs; exact zero_ne_one hs
  have hr1 : r ≠ 1 := by
    rintro rfl
    rw [h1] at e2
    exact ByteRep.small_ne_zero hj2 (by omega) e2
  refine ⟨r, hr, hs, ?_, ?_⟩
  · simp only [forged, hr0, hr1, if_false]; exact e1
  · simp only [forged, hr0, hr1, if_false]; exact e2

/-- The forged entry. -/
theorem forged_entry (hn : 2 ≤ a.n) (hU : a.n ≤ U) : InBytes (a.forged v k) U v (k : Fr) := by
  refine ⟨1, ⟨by norm_num, by omega⟩, ?_, by simp [forged], by simp [forged]⟩
  exact (sel_eq_one_iff a.fixedOK 1).2 ⟨le_refl _, by omega⟩

theorem forged_byteRep (hf : a.TablesFit U) {ss : List (List ℕ)} (hs : a.strings = [0] :: ss)
    (hk : (k : Fr) ≠ 0) (r : ℤ) (hr : Enabled a.n r) :
    Cmd.HoldsL (a.forged v k) U r ByteRep.configure := by
  have hbase := ByteRep.holds a.fixedOK hf.size hf.usable a.strings (fun s hs => (hf.bytes s hs).1)
      (fun s hs => (hf.bytes s hs).2.2) a.byteAssigned r hr
  have hfx : FixedOK a.n (a.forged v k) := a.fixedOK
  have hfirst : (a.forged v k).fix .brIsFirst r = 0 := by
    rw [hfx .brIsFirst (by decide)]; simp only [fixedCell]; rw [if_neg (by have := hr.1; omega)]
  have hr1 := hr.1
  unfold ByteRep.configure at hbase ⊢
  rw [Cmd.holdsL_append] at hbase ⊢
  by_cases e1 : r = 1
  · subst e1
    have hinv : (a.forged v k).adv .brIndexInv 1 = ((a.forged v k).adv .brIndex 1)⁻¹ := by
      simp [forged]
    have hcur : (ByteRep.indexIsZero.current : Query Fr).eval (a.forged v k) 1 = 0 := by
      rw [IsZeroGadget.eval_current ByteRep.indexIsZero (a.forged v k) 1 hinv]
      simp [forged, ByteRep.indexIsZero, hk]
    refine ⟨(IsZeroGadget.configure_holds ..).2 hinv, ?_⟩
    have hb := range256_complete hfx hf.size hf.usable (r := 1) (nm := "0 <= byte < 256")
      (q := AdvCol.brByte.cur) 0 (by norm_num) (by rw [AdvCol.eval_cur]; simp [forged])
    simp only [Cmd.holdsL_cons, Cmd.holdsL_nil, and_true, Cmd.holds_cond, Cmd.holds_assertZero,
      Cmd.holds_assertEqual, FixCol.eval_cur, hfirst, AdvCol.eval_cur, AdvCol.eval_prev,
      Query.eval_mul, Query.eval_sub, Query.eval_add, Query.eval_bnot, hcur,
      Query.eval_challenge, Query.eval_natLit]
    refine ⟨fun h => absurd rfl h, ?_, ?_, ?_, hb⟩
    · simp [forged]
    · simp only [forged]
      norm_num
      rw [mul_assoc, inv_mul_cancel₀ Props.fr256_ne, mul_one]
    · simp [forged]
  · have e0 : r ≠ 0 := by omega
    have cIndex : (a.forged v k).adv .brIndex r = a.witness.adv .brIndex r := by
      simp [forged, e0, e1]
    have cInv : (a.forged v k).adv .brIndexInv r = a.witness.adv .brIndexInv r := by
      simp [forged, e0, e1]
    have cVal : (a.forged v k).adv .brValue r = a.witness.adv .brValue r := by
      simp [forged, e0, e1]
    have cRlc : (a.forged v k).adv .brRlc r = a.witness.adv .brRlc r := by
      simp [forged, e0, e1]
    have cByte : (a.forged v k).adv .brByte r = a.witness.adv .brByte r := by
      simp [forged, e0, e1]
    have binv := (IsZeroGadget.configure_holds ..).1 hbase.1
    have hinv : (a.forged v k).adv .brIndexInv r = ((a.forged v k).adv .brIndex r)⁻¹ := by
      rw [cInv, cIndex]; exact binv
    have bcur := IsZeroGadget.eval_current ByteRep.indexIsZero a.witness r binv
    have hcur : (ByteRep.indexIsZero.current : Query Fr).eval (a.forged v k) r =
        (ByteRep.indexIsZero.current : Query Fr).eval a.witness r := by
      rw [IsZeroGadget.eval_current ByteRep.indexIsZero (a.forged v k) r hinv, bcur]
      show (if (a.forged v k).adv .brIndex r = 0 then (1 : Fr) else 0) =
        if a.witness.adv .brIndex r = 0 then 1 else 0
      rw [cIndex]
    refine ⟨(IsZeroGadget.configure_holds ..).2 hinv, ?_⟩
    have hb := hbase.2
    simp only [Cmd.holdsL_cons, Cmd.holdsL_nil, and_true, Cmd.holds_cond, Cmd.holds_assertZero,
      Cmd.holds_assertEqual, FixCol.eval_cur, AdvCol.eval_cur, AdvCol.eval_prev,
      Query.eval_mul, Query.eval_sub, Query.eval_add, Query.eval_bnot, hcur,
      Query.eval_challenge, Query.eval_natLit, hfirst, cIndex, cVal, cRlc, cByte] at hb ⊢
    obtain ⟨-, b1, b2, b3, b4⟩ := hb
    have hlk : Cmd.Holds (a.forged v k) U r (.lookup "0 <= byte < 256"
        [(AdvCol.brByte.cur, ByteBit.rangeCheck256)]) := by
      rw [Cmd.holds_lookup] at b4 ⊢
      obtain ⟨r', h1, h2, h3⟩ := b4
      refine ⟨r', h1, h2, ?_⟩
      intro p hp
      have := h3 p hp
      rw [List.mem_singleton] at hp
      subst hp
      rw [AdvCol.eval_cur] at this ⊢
      rw [cByte, this]
      rfl
    refine ⟨fun h => absurd rfl h, ?_, ?_, ?_, hlk⟩
    all_goals
      by_cases e2 : r = 2
      · subst e2
        have hz : a.witness.adv .brIndex 2 = 0 := by
          rw [a.byteAssigned .brIndex (by simp)]
          have h := tableCell_succ (ByteRep.assignRows a.witness.chal a.strings) (·.index) 1
          simp only [Nat.cast_one] at h
          simp only [ByteRep.cell]
          rw [show (2 : ℤ) = 1 + 1 by norm_num, h, hs]
          cases ss with
          | nil => simp [ByteRep.assignRows, ByteRep.loop]
          | cons s l =>
            cases s with
            | nil => exact absurd rfl (hf.bytes [] (by rw [hs]; simp)).2.1
            | cons b s => simp [ByteRep.assignRows, ByteRep.loop]
        have hc : (ByteRep.indexIsZero.current : Query Fr).eval a.witness 2 = 1 := by
          rw [bcur]; exact if_pos hz
        simp only [hz, hc, sub_self, mul_zero, zero_mul] at b1 b2 b3 ⊢
        first | done | exact b2 | exact b3
      · have p0 : r - 1 ≠ 0 := by omega
        have p1 : r - 1 ≠ 1 := by omega
        simp only [forged, p0, p1, if_false, or_self]
        first | exact b1 | exact b2 | exact b3

/-- A witness with one forged entry of the byte-representation table is accepted. -/
theorem forged_accepted (hf : a.TablesFit U) (hU : a.n + 2 ≤ U) {ss : List (List ℕ)}
    (hs : a.strings = [0] :: ss) (hk : (k : Fr) ≠ 0) (ht : a.threads = none)
    (hlen : a.rows.length = a.n - 1)
    (hlast : rowAt a.rows ((a.n : ℤ) - 1) = .padding a.H)
    (hrow : ∀ j : ℕ, j < a.rows.length → RowRel a.H (a.forged v k) U ((j : ℤ) + 1)
      (rowAt a.rows ((j : ℤ) + 1)).seg (rowAt a.rows ((j : ℤ) + 1 + 1)).seg
      (rowAt a.rows ((j : ℤ) + 1 - 1)).path (rowAt a.rows ((j : ℤ) + 1)).path
      (rowAt a.rows ((j : ℤ) + 1 + 1)).path (rowAt a.rows ((j : ℤ) + 1 - 1)).proof
      (rowAt a.rows ((j : ℤ) + 1)).proof) :
    Accepted a.H a.n U (a.forged v k) := by
  have hn := hf.size
  have hn' := hn
  unfold ByteBit.nRowsRequired at hn'
  have hkf := hf.keysFit
  have hfx : FixedOK a.n (a.forged v k) := a.fixedOK
  refine accepted_of_rows (T := a.types) hfx hf.usable hf.bound hf.posFits.bool hf.posFits.sound
    hf.posFits.zero ((a.n : ℤ) + 1) ⟨by omega, by push_cast at *; omega⟩ (by unfold Enabled; omega)
    ?_ (fun r hr => forged_byteRep hf hs hk r hr) ?_ ?_ ?_ ?_ ?_ ?_ ?_
  · have hbl : ∀ f : ByteRep.Row → Fr, tableCell (ByteRep.assignRows a.ρ a.strings) f ((a.n : ℤ) + 1) = 0 :=
      fun f => tableCell_beyond _ _ _ (by
        rw [ByteRep.assignRows_length]; have := hf.bytesFit; push_cast; omega)
    have hcl : ∀ f : Canonical.Row → Fr, tableCell (Canonical.rows a.ρ a.keys a.n) f ((a.n : ℤ) + 1) = 0 := by
      intro f
      rw [tableCell_succ, Canonical.rows_getElem? _ _ _ (by omega), if_neg (by omega)]
      rfl
    obtain ⟨k1, k2, k3, -⟩ := KeyBit.cells_eq _ _ ((a.n : ℤ) + 1) (forged_keyBit (a := a) (v := v) (k := k))
    have e : KeyBit.reqAt a.kbOff a.kbReqs ((a.n : ℤ) + 1) = (0, 0, false) := by
      have e1 : a.kbOff = 1 := by simp [kbOff, ht]
      have e2 : a.kbReqs = a.reqs := by simp [kbReqs, ht]
      have hrf := hf.reqsFit
      unfold KeyBit.reqAt
      rw [e1, e2, if_pos (by omega), List.getElem?_eq_none (by omega)]
      rfl
    rw [e, KeyBit.rowSpec_zero] at k1 k2 k3
    have n0 : ¬ ((a.n : ℤ) + 1 = 0) := by omega
    have n1 : ¬ ((a.n : ℤ) + 1 = 1) := by omega
    refine ⟨?_, ?_, ?_, ?_, ?_, ?_, ?_, ?_, ?_, ?_, k1, k2, k3⟩
    · rw [hfx _ (by decide)]; simp only [fixedCell]; rw [if_neg (by omega)]
    · rw [hfx _ (by decide)]; simp only [fixedCell]; rw [if_neg (by omega)]
    · rw [hfx _ (by decide)]; simp only [fixedCell]; rw [if_neg (by omega)]
    · rw [hfx _ (by decide)]; simp only [fixedCell]; rw [if_neg (by omega)]
    · rw [hfx _ (by decide)]; simp only [fixedCell]; rw [if_neg (by omega)]
    · simp only [forged, n0, n1, if_false]; exact hbl _
    · simp only [forged, n0, n1, if_false]; exact hbl _
    · simp only [forged, n0, n1, if_false, or_self]; exact hbl _
    · exact hcl _
    · exact hcl _
  · intro r hr
    exact Canonical.holds hfx hn hf.usable a.keys hkf forged_canonical r hr
  · intro r hr
    exact KeyBit.holds hfx hn hf.usable a.kbOff a.kbReqs
      (fun q hq => hf.reqsCorrect q (kbReqs_mem hf hq)) forged_keyBit a.keys (by omega)
      forged_canonical hf.zeroKey (fun q hq => hf.reqsKeys q (kbReqs_mem hf hq)) r
  · intro r
    exact ⟨(forged_atRow r).seg, (forged_atRow r).path, (forged_atRow r).proof⟩
  · intro r _ i
    rw [(forged_atRow r).izInv, (forged_atRow r).iz]
  · intro r hr
    obtain ⟨j, rfl⟩ : ∃ j : ℕ, r = (j : ℤ) + 1 := ⟨(r - 1).toNat, by have := hr.1; omega⟩
    exact hrow j (by have := hr.2; omega)
  · intro r _ hr
    have hat := forged_atRow (a := a) (v := v) (k := k) r
    have : rowAt a.rows r = .blank := by
      unfold rowAt
      split
      · rw [List.getD_eq_default]
        unfold Enabled at hr
        omega
      · rfl
    rw [this] at hat
    exact ⟨hat.seg, hat.path, hat.proof, hat.iz 2⟩
  · intro r _
    exact final_holds_of hfx (hlast ▸ forged_atRow _) r

end Assembly

namespace Props

/-- C56, the part that holds: the tables are sound if the cells at their edges are in order. Missing:
sizes that are multiples of 32 and bytes after the last group (B2), and witnesses whose first row does not
start a string (B1); for these the property is false. -/
theorem c56_tables_partial {H : HashFn} {n U : ℕ} {w : Witness Fr} (h : Accepted H n U w)
    (hE : EdgesOK n w) : TablesOK w U := h.tablesOK hE

/-- C56 for nonces, under the same conditions. -/
theorem c56_nonce_partial {H : HashFn} {n U : ℕ} {w : Witness Fr} (h : Accepted H n U w)
    (hE : EdgesOK n w)
    {address slotRlc oldRootRlc newRootRlc oldValue newValue : Fr}
    (hx : Exposes w U .NonceChanged address slotRlc oldRootRlc newRootRlc oldValue newValue) :
    About H w.chal address oldRootRlc newRootRlc (fun key oldRoot newRoot =>
      Stored H (PosInputs w U) key oldRoot (fun acc => oldValue = (acc.nonce : Fr)) ∧
      Stored H (PosInputs w U) key newRoot (fun acc => newValue = (acc.nonce : Fr))) :=
  c30_nonce h (h.tablesOK hE) hx

/-- The update rows of the attack. -/
def forgeRows (H : HashFn) (ρ : Fr) (a : ℕ) (l : Leaf) (x : ℕ) : List URow :=
  [nonceRun H ρ a l x x].flatten ++ List.replicate 2043 (.padding H)

theorem forgeRows_length (H : HashFn) (ρ : Fr) (a : ℕ) (l : Leaf) (x : ℕ) :
    (forgeRows H ρ a l x).length = 2048 := by
  rw [forgeRows, List.length_append, List.length_replicate]
  rfl

/-- The circuit of the attack: one nonce run, and one forged byte string. -/
def forgeDemo (H : HashFn) (ρ : Fr) (a : ℕ) (l : Leaf) (x : ℕ) : Assembly where
  H := H
  ρ := ρ
  n := 2049
  rows := forgeRows H ρ a l x
  strings := [0] :: List.replicate 16 0 :: (startStrings a ++ [beBytes 8 x])
  keys := [0, l.hash H x]
  reqs := []
  pos := (0, 0, HashDomain.Pair.toFr) :: startPos a :: l.pos H x
  table := posTable H ((0, 0, HashDomain.Pair.toFr) :: startPos a :: l.pos H x)

theorem forgeDemo_fits (H : HashFn) (ρ : Fr) (a : ℕ) (l : Leaf) (x : ℕ) :
    (forgeDemo H ρ a l x).TablesFit 2051 := by
  refine ⟨by simp [forgeDemo, ByteBit.nRowsRequired], by simp [forgeDemo], by norm_num, ?_, ?_, ?_,
    by simp [forgeDemo], by simp [forgeDemo], by simp [forgeDemo], by simp [forgeDemo], ?_,
    by intro t ht; simp [forgeDemo] at ht⟩
  · intro s hs
    simp only [forgeDemo, startStrings, List.mem_append, List.mem_cons, List.not_mem_nil, or_false] at hs
    rcases hs with rfl | rfl | (rfl | rfl) | rfl
    · exact ⟨by unfold IsBytes; decide, by simp, by simp⟩
    · exact ⟨by unfold IsBytes; decide, by simp, by simp⟩
    all_goals
      refine ⟨isBytes_beBytes _ _, ?_, by simp⟩
      exact List.ne_nil_of_length_pos (by simp)
  · simp [forgeDemo, startStrings, ByteRep.total]
  · simp [forgeDemo]
  · exact posTable_fits _ _ _ (by simp [Leaf.pos])

/-- **C56 is false: any nonce can be claimed.** Take any account, stored under the
address's own key as the only account of a trie, and any number `x`. The circuit accepts the claim
"the nonce of the account is `x`" about the root of that trie. -/
theorem c56_false (H : HashFn) (ρ : Fr) {a x : ℕ} (ha : a < 2 ^ 160) (hx : x < 2 ^ 64)
    (acc : Account) :
    ∃ w, w.chal = ρ ∧ Accepted H 2049 2051 w ∧
      Exposes w 2051 .NonceChanged (a : Fr) 0
        (rootRlc ρ ((Trie.leaf (addressKey H a) (acc.data H)).hash H))
        (rootRlc ρ ((Trie.leaf (addressKey H a) (acc.data H)).hash H)) (x : Fr) (x : Fr) ∧
      (Trie.leaf (addressKey H a) (acc.data H)).get (addressKey H a) = some (acc.data H) := by
  set l : Leaf := { leafOf H (addressKey H a) acc with
    codeSize := ((nonceCode acc.nonce acc.codeSize - (x : Fr)) * two64⁻¹).val } with hl
  have hcode : nonceCode x l.codeSize = nonceCode acc.nonce acc.codeSize := by
    have h := nonceCode_size x l.codeSize
    have e : (l.codeSize : Fr) = (nonceCode acc.nonce acc.codeSize - (x : Fr)) * two64⁻¹ := by
      rw [hl]
      exact ZMod.natCast_zmod_val ((nonceCode acc.nonce acc.codeSize - (x : Fr)) * two64⁻¹)
    rw [e] at h
    have := mul_right_cancel₀ (inv_ne_zero two64_ne_zero) h
    exact sub_left_inj.1 this
  have hhash : l.hash H x = (Trie.leaf (addressKey H a) (acc.data H)).hash H := by
    show H l.k (H (H (H (nonceCode x l.codeSize) l.balance _) l.right _) l.pch _) _ = _
    rw [hcode]
    rfl
  set A := forgeDemo H ρ a l x with hA
  have hf : A.TablesFit 2051 := forgeDemo_fits H ρ a l x
  have hone : A.witness.adv .brIndex 1 = 0 :=
    Assembly.brIndex_one (fun s hs => (hf.bytes s hs).2.1)
  set w := A.forged (l.codeSize : Fr) 7 with hw
  have hb : ∀ (s : List ℕ) (j : ℕ), s ∈ A.strings → s.length = j + 1 → 0 < j → j < 2 ^ 64 →
      InBytes w 2051 ((beVal s : ℕ) : Fr) (j : Fr) := by
    intro s j hs hj h0 h1
    refine Assembly.forged_bytes hone h0 h1 ?_
    have := Assembly.bytesServed hf hs
    rwa [hj, Nat.add_sub_cancel] at this
  have hnum : ∀ (y j : ℕ), beBytes (j + 1) y ∈ A.strings → y < 256 ^ (j + 1) → 0 < j → j < 2 ^ 64 →
      InBytes w 2051 (y : Fr) (j : Fr) := by
    intro y j hs hy h0 h1
    have := hb _ j hs (by simp) h0 h1
    rwa [beVal_beBytes _ _ hy] at this
  have P : ∀ l' r' d', (l', r', d') ∈ A.pos → P1 w 2051 l' r' d' (H l' r' d') :=
    fun l' r' d' hm => Assembly.posServed hf hm
  have K : ∀ v ∈ A.keys, InFrRlc w 2051 v (rootRlc ρ v) := fun v hv => Assembly.frRlcServed hf hv
  have hx7 : InBytes w 2051 (x : Fr) 7 := by
    have := hnum x 7 (by simp [hA, forgeDemo]) (by norm_num at hx ⊢; omega) (by norm_num) (by norm_num)
    exact_mod_cast this
  have hcs : InBytes w 2051 (l.codeSize : Fr) 7 := by
    have := Assembly.forged_entry (a := A) (v := (l.codeSize : Fr)) (k := 7) (U := 2051)
      (by simp [hA, forgeDemo]) (by simp [hA, forgeDemo])
    exact_mod_cast this
  have hpad : RunSat H w 2051 [.padding H] := by
    refine padding_sat (P _ _ _ (by simp [hA, forgeDemo])) ?_ ?_ ?_
    · have := hb (List.replicate 16 0) 15 (by simp [hA, forgeDemo]) (by simp) (by norm_num) (by norm_num)
      rw [beVal_zeros] at this
      exact_mod_cast this
    · refine Assembly.forged_bytes hone (j := 3) (by norm_num) (by norm_num) (bytes_of_rlc (x := 0) ?_)
      have := Assembly.prefixServed hf (s := List.replicate 16 0) (by simp [hA, forgeDemo]) 3 (by simp)
      rw [List.take_replicate, beVal_zeros, rlc_replicate_zero] at this
      simpa using this
    · have := K 0 (by simp [hA, forgeDemo])
      have e : rootRlc ρ 0 = 0 := by
        unfold rootRlc
        rw [Canonical.frBytes_zero, rlc_replicate_zero]
      rwa [e] at this
  have hrun : RunSat H w 2051 (nonceRun H ρ a l x x) := by
    refine nonceRun_sat H ρ l ?_ ?_ hx7 hx7 hcs
    · intro r hu
      have e1 : a / 2 ^ 32 < 256 ^ (15 + 1) := by
        have : a / 2 ^ 32 < 2 ^ 128 := Nat.div_lt_of_lt_mul (by rw [← pow_add]; exact ha)
        norm_num at this ⊢; omega
      have e2 : a % 2 ^ 32 < 256 ^ (3 + 1) := by
        have := Nat.mod_lt a (show 0 < 2 ^ 32 by norm_num)
        norm_num at this ⊢; omega
      simp only [StartRel, hu.iv, hu.sp, hu.key, hu.oldHash, hu.newHash, startRow]
      refine ⟨P _ _ _ (by simp [hA, forgeDemo, startPos]), ?_, ?_, K _ (by simp [hA, forgeDemo]),
        K _ (by simp [hA, forgeDemo])⟩
      · have := hnum _ 15 (by simp [hA, forgeDemo, startStrings]) e1 (by norm_num) (by norm_num)
        simpa using this
      · have := hnum _ 3 (by simp [hA, forgeDemo, startStrings]) e2 (by norm_num) (by norm_num)
        simpa using this
    · intro l' r' d' hm
      refine P _ _ _ ?_
      simp only [List.cons_append, List.mem_cons, List.mem_append, or_self] at hm
      simp only [hA, forgeDemo, List.mem_cons]
      tauto
  have hrows : A.rows = [nonceRun H ρ a l x x].flatten ++ List.replicate 2043 (.padding H) := rfl
  have hlen : A.rows.length = A.n - 1 := forgeRows_length H ρ a l x
  have hacc : Accepted H 2049 2051 w :=
    Assembly.forged_accepted hf (by simp [hA, forgeDemo]) (k := 7) rfl
      (ByteRep.small_ne_zero (by norm_num) (by norm_num)) rfl hlen
      (rowAt_last (by simp [hA, forgeDemo]) _ 2043 (by norm_num) hrows hlen)
      (rowRel_of_runs Assembly.forged_atRow _ 2043 hrows hpad
        (fun run hr => by rw [List.mem_singleton] at hr; rw [hr]; exact hrun))
  refine ⟨w, rfl, hacc, ?_, by simp [Trie.get, Trie.getFrom]⟩
  have hat : AtRow w 1 (startRow H ρ .NonceChanged a (addrKey H a) 0 (l.hash H x) (l.hash H x) x x) := by
    have h1 := Assembly.forged_atRow (a := A) (v := (l.codeSize : Fr)) (k := 7) 1
    have h2 := rowAt_succ A.rows 0
    simp only [Nat.cast_zero, zero_add] at h2
    rw [h2] at h1
    exact h1
  rw [← hhash]
  refine ⟨1, ⟨by norm_num, by norm_num⟩, ?_⟩
  have h1 : segAt w 1 = .Start := OneHot.repr_unique _ _ _ _ hat.seg
  have h2 : proofAt w 1 = .NonceChanged := OneHot.repr_unique _ _ _ _ hat.proof
  rw [hacc.exposed_eq ⟨by norm_num, by norm_num⟩, if_pos h1, h2, hat.iv, hat.iv, hat.storageKeyRlc,
    hat.sp, hat.sp, hat.oldValue, hat.newValue]
  have e : ((a / 2 ^ 32 : ℕ) : Fr) * ((2 ^ 32 : ℕ) : Fr) + ((a % 2 ^ 32 : ℕ) : Fr) = (a : Fr) := by
    rw [← Nat.cast_mul, ← Nat.cast_add, Nat.div_add_mod']
  have e2 : (startRow H ρ .NonceChanged a (addrKey H a) 0 (l.hash H x) (l.hash H x) x x).iv 0 *
      ((2 ^ 32 : ℕ) : Fr) + (startRow H ρ .NonceChanged a (addrKey H a) 0 (l.hash H x) (l.hash H x)
        x x).iv 1 = (a : Fr) := e
  rw [e2]
  rfl

/-- In particular: an account with nonce 5 is read as having nonce 6 (or any other). -/
example (H : HashFn) (ρ : Fr) :
    ∃ w, w.chal = ρ ∧ Accepted H 2049 2051 w ∧
      Exposes w 2051 .NonceChanged ((1 : ℕ) : Fr) 0
        (rootRlc ρ ((Trie.leaf (addressKey H 1) (Account.data H ⟨5, 0, 0, 0, 0, 0⟩)).hash H))
        (rootRlc ρ ((Trie.leaf (addressKey H 1) (Account.data H ⟨5, 0, 0, 0, 0, 0⟩)).hash H))
        ((6 : ℕ) : Fr) ((6 : ℕ) : Fr) := by
  obtain ⟨w, h1, h2, h3, -⟩ := c56_false H ρ (a := 1) (x := 6) (by norm_num) (by norm_num)
    ⟨5, 0, 0, 0, 0, 0⟩
  exact ⟨w, h1, h2, h3⟩

end Props
end Mpt
