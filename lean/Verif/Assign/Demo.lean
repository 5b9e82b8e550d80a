import Verif.Assign.Runs
import Verif.Exposed

set_option autoImplicit false

/-!
# Accepted witnesses for given runs

`demo`: the smallest circuit (2049 rows), whose tables contain the given byte strings, keys, key-bit
requests and hash inputs, and whose update rows are the given runs followed by padding. It is accepted
whenever the runs satisfy their row relations, for every hash function and every challenge. It is used
to show that the hypotheses of the soundness theorems can be met, and for the counterexamples of
`Verif.Props.Negative`.
-/

namespace Mpt
open Spec MptUpdate

/-- A proper prefix of a listed byte string is served, too. -/
theorem Assembly.prefixServed {a : Assembly} {U : ℕ} (hf : a.TablesFit U) {s : List ℕ}
    (h : s ∈ a.strings) (j : ℕ) (hj : j < s.length) :
    InRlc a.witness U ((beVal (s.take (j + 1)) : ℕ) : Fr) (j : Fr)
      (Spec.rlc a.ρ (s.take (j + 1))) := by
  obtain ⟨pre, post, hs⟩ := List.append_of_mem h
  have hrow := ByteRep.assignRows_getElem? a.ρ pre post s j hj
  rw [← hs] at hrow
  have hfit := hf.bytesFit
  have hen : Enabled a.n (((ByteRep.total pre + j : ℕ) : ℤ) + 1) := by
    constructor
    · omega
    · rw [hs] at hfit
      simp only [ByteRep.total, List.map_append, List.map_cons, List.sum_append, List.sum_cons] at hfit ⊢
      omega
  have hb := a.byteAssigned
  have e : a.witness.chal = a.ρ := rfl
  refine ⟨_, (sel_one hf hen).1, (sel_one hf hen).2, ?_, ?_, ?_⟩
  · rw [hb .brValue (by simp), ByteRep.cell, tableCell_succ, e, hrow]; rfl
  · rw [hb .brIndex (by simp), ByteRep.cell, tableCell_succ, e, hrow]; rfl
  · rw [hb .brRlc (by simp), ByteRep.cell, tableCell_succ, e, hrow]; rfl

/-- The smallest circuit with the given runs and table contents. -/
def demo (H : HashFn) (ρ : Fr) (runs : List (List URow)) (strings : List (List ℕ)) (keys : List Fr)
    (reqs : List KeyBit.Req) (pos : List (Fr × Fr × Fr)) : Assembly where
  H := H
  ρ := ρ
  n := 2049
  rows := runs.flatten ++ List.replicate (2048 - runs.flatten.length) (.padding H)
  strings := List.replicate 16 0 :: strings
  keys := 0 :: keys
  reqs := reqs
  pos := (0, 0, HashDomain.Pair.toFr) :: pos
  table := posTable H ((0, 0, HashDomain.Pair.toFr) :: pos)

/-- The table contents of a demo circuit are admissible. -/
structure DemoFits (runs : List (List URow)) (strings : List (List ℕ)) (keys : List Fr)
    (reqs : List KeyBit.Req) (pos : List (Fr × Fr × Fr)) : Prop where
  runsFit : runs.flatten.length < 2048
  bytes : ∀ s ∈ strings, IsBytes s ∧ s ≠ [] ∧ s.length < 2 ^ 64
  bytesFit : ByteRep.total strings ≤ 2032
  keysFit : keys.length ≤ 62
  reqsOK : ∀ q ∈ reqs, KeyBit.Correct q ∧ q.1 ∈ keys
  reqsFit : reqs.length ≤ 2048
  posFit : pos.length ≤ 2047

section
variable {H : HashFn} {ρ : Fr} {runs : List (List URow)} {strings : List (List ℕ)} {keys : List Fr}
variable {reqs : List KeyBit.Req} {pos : List (Fr × Fr × Fr)}

theorem DemoFits.tables (h : DemoFits runs strings keys reqs pos) :
    (demo H ρ runs strings keys reqs pos).TablesFit 2049 := by
  refine ⟨by simp [demo, ByteBit.nRowsRequired], le_refl _, by norm_num, ?_, ?_, ?_, by simp [demo],
    fun q hq => (h.reqsOK q hq).1, fun q hq => List.mem_cons_of_mem _ (h.reqsOK q hq).2, ?_, ?_,
    by intro t ht; simp [demo] at ht⟩
  · intro s hs
    rcases List.mem_cons.1 hs with rfl | hs
    · refine ⟨?_, by simp, by simp⟩
      intro b hb
      rw [(List.mem_replicate.1 hb).2]; norm_num
    · exact h.bytes s hs
  · have := h.bytesFit
    simp only [demo, ByteRep.total, List.map_cons, List.sum_cons, List.length_replicate] at this ⊢
    omega
  · have := h.keysFit
    simp only [demo, List.length_cons]; omega
  · have := h.reqsFit
    simp only [demo]; omega
  · have := h.posFit
    exact posTable_fits _ _ _ (by rw [List.length_cons]; omega)

theorem beVal_zeros (k : ℕ) : beVal (List.replicate k 0) = 0 := by
  induction k with
  | zero => rfl
  | succ k ih => simp [List.replicate_succ, beVal, ih]
theorem rlc_replicate_zero (ρ : Fr) (k : ℕ) : Spec.rlc ρ (List.replicate k 0) = 0 := by
  induction k with
  | zero => rfl
  | succ k ih => simp [List.replicate_succ, Spec.rlc, ih]

theorem DemoFits.hash (h : DemoFits runs strings keys reqs pos) {l r d : Fr} (hm : (l, r, d) ∈ pos) :
    P1 (demo H ρ runs strings keys reqs pos).witness 2049 l r d (H l r d) :=
  Assembly.posServed h.tables (List.mem_cons_of_mem _ hm)
theorem DemoFits.zeroHash (h : DemoFits runs strings keys reqs pos) :
    P1 (demo H ρ runs strings keys reqs pos).witness 2049 0 0 HashDomain.Pair.toFr (zeroPairHash H) :=
  Assembly.posServed h.tables (List.mem_cons_self ..)
theorem DemoFits.zeros (h : DemoFits runs strings keys reqs pos) (j : ℕ) (hj : j < 16) :
    InRlc (demo H ρ runs strings keys reqs pos).witness 2049 0 (j : Fr) 0 := by
  have := Assembly.prefixServed (h.tables (H := H) (ρ := ρ)) (s := List.replicate 16 0)
    (List.mem_cons_self ..) j (by simpa using hj)
  rw [List.take_replicate, beVal_zeros, rlc_replicate_zero] at this
  simpa using this
theorem bytes_of_rlc {w : Witness Fr} {U : ℕ} {v k x : Fr} (h : InRlc w U v k x) : InBytes w U v k := by
  obtain ⟨r, h1, h2, h3, h4, _⟩ := h
  exact ⟨r, h1, h2, h3, h4⟩
theorem DemoFits.string (h : DemoFits runs strings keys reqs pos) {s : List ℕ} (hs : s ∈ strings)
    {k : ℕ} (hk : s.length = k + 1) :
    InRlc (demo H ρ runs strings keys reqs pos).witness 2049 ((beVal s : ℕ) : Fr) (k : Fr)
      (Spec.rlc ρ s) := by
  have := Assembly.rlcServed (h.tables (H := H) (ρ := ρ)) (s := s) (List.mem_cons_of_mem _ hs)
  rwa [hk, Nat.add_sub_cancel] at this
theorem DemoFits.key (h : DemoFits runs strings keys reqs pos) {v : Fr} (hv : v ∈ keys) :
    InFrRlc (demo H ρ runs strings keys reqs pos).witness 2049 v (rootRlc ρ v) :=
  Assembly.frRlcServed h.tables (List.mem_cons_of_mem _ hv)
theorem DemoFits.zeroKey (h : DemoFits runs strings keys reqs pos) :
    InFrRlc (demo H ρ runs strings keys reqs pos).witness 2049 0 0 := by
  have := Assembly.frRlcServed (h.tables (H := H) (ρ := ρ)) (v := 0) (List.mem_cons_self ..)
  have e : Spec.rlc (demo H ρ runs strings keys reqs pos).ρ (frBytes 0) = 0 := by
    rw [Canonical.frBytes_zero, rlc_replicate_zero]
  rwa [e] at this
theorem DemoFits.bit (h : DemoFits runs strings keys reqs pos) {q : KeyBit.Req} (hq : q ∈ reqs) :
    InKeyBit (demo H ρ runs strings keys reqs pos).witness 2049 q.1 ((q.2.1 : ℕ) : Fr) (bitFr q.2.2) :=
  Assembly.keyBitServed h.tables hq

theorem DemoFits.padding (h : DemoFits runs strings keys reqs pos) :
    RunSat H (demo H ρ runs strings keys reqs pos).witness 2049 [.padding H] :=
  padding_sat h.zeroHash (by simpa using bytes_of_rlc (h.zeros 15 (by norm_num)))
    (by simpa using bytes_of_rlc (h.zeros 3 (by norm_num))) h.zeroKey

/-- **Demo circuits are accepted and have sound tables**, if the runs satisfy their relations. -/
theorem DemoFits.accepted (h : DemoFits runs strings keys reqs pos)
    (hr : ∀ run ∈ runs, RunSat H (demo H ρ runs strings keys reqs pos).witness 2049 run) :
    Accepted H 2049 2049 (demo H ρ runs strings keys reqs pos).witness ∧
      TablesOK (demo H ρ runs strings keys reqs pos).witness 2049 := by
  have hlen := h.runsFit
  have ha : Accepted H 2049 2049 (demo H ρ runs strings keys reqs pos).witness := by
    refine Assembly.accepted_of_runs (a := demo H ρ runs strings keys reqs pos) h.tables runs
      (2048 - runs.flatten.length) (by omega) rfl ?_ h.padding hr
    simp only [demo, List.length_append, List.length_replicate]; omega
  exact ⟨ha, ha.tablesOK (.of_mod (by norm_num)
    (Assembly.brIndex_one (fun s hs => (h.tables (H := H) (ρ := ρ)).bytes s hs |>.2.1)))⟩

/-- The claim of a run that starts on row 1 is exposed. -/
theorem demo_exposes {u : URow} {l : List URow} {runs : List (List URow)}
    (ha : Accepted H 2049 2049 (demo H ρ ((u :: l) :: runs) strings keys reqs pos).witness)
    (hu : u.seg = .Start) :
    Exposes (demo H ρ ((u :: l) :: runs) strings keys reqs pos).witness 2049 u.proof
      (u.iv 0 * ((2 ^ 32 : ℕ) : Fr) + u.iv 1) u.storageKeyRlc (u.sp 0) (u.sp 1) u.oldValue
      u.newValue := by
  have hen : Enabled 2049 1 := ⟨by norm_num, by norm_num⟩
  have hat := (demo H ρ ((u :: l) :: runs) strings keys reqs pos).atRow 1
  have e : rowAt (demo H ρ ((u :: l) :: runs) strings keys reqs pos).rows 1 = u := by
    have := rowAt_succ (demo H ρ ((u :: l) :: runs) strings keys reqs pos).rows 0
    simp only [Nat.cast_zero, zero_add] at this
    rw [this]
    rfl
  rw [e] at hat
  refine ⟨1, ⟨by norm_num, by norm_num⟩, ?_⟩
  have h1 : segAt (demo H ρ ((u :: l) :: runs) strings keys reqs pos).witness 1 = .Start := by
    rw [segAt, OneHot.repr_unique _ _ _ _ hat.seg, hu]
  have h2 : proofAt (demo H ρ ((u :: l) :: runs) strings keys reqs pos).witness 1 = u.proof := by
    rw [proofAt, OneHot.repr_unique _ _ _ _ hat.proof]
  rw [ha.exposed_eq hen, if_pos h1, h2, hat.iv, hat.iv, hat.storageKeyRlc, hat.sp, hat.sp,
    hat.oldValue, hat.newValue]

end
end Mpt
