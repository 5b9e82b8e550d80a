import Verif.Gadgets.UpdateProofRows

set_option autoImplicit false

/-!
# Accepted witnesses

What an accepted witness of the whole circuit satisfies on its enabled rows, and the statement that
the internal lookup tables are sound.
-/

namespace Mpt
open Spec MptUpdate

/-- `w` is accepted by the circuit built by `MptCircuitConfig::configure`, with the fixed columns
that `assign` writes for `n` rows, in a halo2 table with `U` usable rows.
* `sat`: all gates and lookups are satisfied (halo2, trusted);
* `fixed`: fixed columns are part of the verifying key, hence as assigned;
* `rows`, `size`: the `n` rows fit in the usable area; tables have fewer than `2^64` rows;
* `posEnable`, `pos`: the external Poseidon table is sound. Models /repo/src/mpt.rs:39-112. -/
structure Accepted (H : HashFn) (n U : ℕ) (w : Witness Fr) : Prop where
  sat : ∃ cs, Cmd.circuit (mptCircuit H) = some cs ∧ cs.Sat w U
  fixed : FixedOK n w
  rows : n ≤ U
  size : U ≤ 2 ^ 64
  posEnable : ∀ r, InU U r → w.fix .posEnable r = 0 ∨ w.fix .posEnable r = 1
  pos : PosSound H w U

/-- The lookup tables of the circuit only contain correct entries: byte strings and their RLCs,
RLCs of canonical representations, key bits (at the indices that the rows of the circuit look up).
The lookups are /repo/src/gadgets/byte_representation.rs:37-51, /repo/src/gadgets/canonical_representation.rs:314-332, /repo/src/gadgets/key_bit.rs:169-178. -/
structure TablesOK (w : Witness Fr) (U : ℕ) : Prop where
  bytes : ∀ (v : Fr) (k : ℕ), k < 2 ^ 64 → InBytes w U v k → ∃ x : ℕ, x < 256 ^ (k + 1) ∧ v = x
  rlc : ∀ (v x : Fr) (k : ℕ), k < 2 ^ 64 → InRlc w U v k x →
    ∃ l, IsBytes l ∧ l.length = k + 1 ∧ v = (beVal l : ℕ) ∧ x = Spec.rlc w.chal l
  frRlc : ∀ v x : Fr, InFrRlc w U v x → x = Spec.rlc w.chal (frBytes v)
  keyBit : ∀ (v b : Fr) (k : ℕ), k < 2 ^ 64 → (∃ r, w.fix .selector r = 1 ∧ w.adv .depth r = (k + 1 : ℕ)) →
    InKeyBit w U v k b → k < 256 ∧ b = bitFr (v.val.testBit k)

variable {H : HashFn} {n U : ℕ} {w : Witness Fr}

theorem Accepted.holds (h : Accepted H n U w) (r : ℤ) (hr : Enabled n r) :
    Cmd.HoldsL w U r (mptCircuit H) := by
  obtain ⟨cs, h1, h2⟩ := h.sat
  exact Cmd.holds_of_sat _ cs h1 w U ⟨fun r _ => sel_binary h.fixed r, h.posEnable⟩ h2 r
    (enabled_inU hr h.rows) ((sel_eq_one_iff h.fixed r).2 hr)

theorem Accepted.byteRep (h : Accepted H n U w) (r : ℤ) (hr : Enabled n r) :
    Cmd.HoldsL w U r ByteRep.configure := by
  have := h.holds r hr
  simp only [mptCircuit, Cmd.holdsL_append] at this
  tauto
theorem Accepted.canonical (h : Accepted H n U w) (r : ℤ) (hr : Enabled n r) :
    Cmd.HoldsL w U r Canonical.configure := by
  have := h.holds r hr
  simp only [mptCircuit, Cmd.holdsL_append] at this
  tauto
theorem Accepted.keyBit (h : Accepted H n U w) (r : ℤ) (hr : Enabled n r) :
    Cmd.HoldsL w U r KeyBit.configure := by
  have := h.holds r hr
  simp only [mptCircuit, Cmd.holdsL_append] at this
  tauto
theorem Accepted.update (h : Accepted H n U w) (r : ℤ) (hr : Enabled n r) :
    Cmd.HoldsL w U r (MptUpdate.configure H) := by
  have := h.holds r hr
  simp only [mptCircuit, Cmd.holdsL_append] at this
  tauto
theorem Accepted.final (h : Accepted H n U w) (r : ℤ) (hr : Enabled n r) :
    Cmd.HoldsL w U r [finalRow] := by
  have := h.holds r hr
  simp only [mptCircuit, Cmd.holdsL_append] at this
  tauto

/-- No row of the circuit is at a depth of more than 248 levels. For /repo/src/gadgets/mpt_update.rs:212-240. -/
def Shallow (n : ℕ) (w : Witness Fr) : Prop := ∀ r, Enabled n r → (w.adv .depth r).val ≤ 248

/-- The cells at the edges of the tables are in order:
* `size`: the last group of the canonical-representation table is not cut off by the last row;
* `first`: the first string of the byte-representation table starts on the first enabled row;
* `last`: the rows after the last group of the canonical-representation table, if there are any, hold the
  leading bytes of their values, or no path of the circuit is longer than 248 levels (so that the leading
  bytes of keys are not looked up).
None of this is enforced by the code (/repo/src/gadgets/byte_representation.rs:41-72,
/repo/src/gadgets/canonical_representation.rs:54-126); see findings B1 and B2. -/
structure EdgesOK (n : ℕ) (w : Witness Fr) : Prop where
  size : n % 32 ≠ 0
  first : w.adv .brIndex 1 = 0
  last : TrailingOK n w ∨ Shallow n w

theorem EdgesOK.of_mod (hn : n % 32 = 1) (h1 : w.adv .brIndex 1 = 0) : EdgesOK n w :=
  ⟨by omega, h1, .inl (.of_mod hn)⟩

/-- The tables are sound when the cells at their edges are in order. The code does not enforce that;
`Verif.Props.Negative` shows what happens otherwise. -/
theorem Accepted.tablesOK (h : Accepted H n U w) (hE : EdgesOK n w) : TablesOK w U := by
  have hn := hE.size
  have h1 := hE.first
  have hn64 : n ≤ 2 ^ 64 := le_trans h.rows h.size
  refine ⟨?_, ?_, ?_, ?_⟩
  · rintro v k hk hb
    have := (holds_bytes (w := w) (U := U) (r := 0) "" (.const v) (.const (k : Fr))).2 hb
    obtain ⟨l, hl, hlen, hv⟩ := bytesLookup_sound h.fixed hn64 h.byteRep h1 k hk
      (qi := .const (k : Fr)) rfl this
    exact ⟨beVal l, hlen ▸ beVal_lt l hl, hv⟩
  · rintro v x k hk hb
    have := (holds_rlc (w := w) (U := U) (r := 0) "" (.const v) (.const (k : Fr)) (.const x)).2 hb
    exact rlcLookup_sound h.fixed hn64 h.byteRep h1 k hk (qi := .const (k : Fr)) rfl this
  · rintro v x hb
    have := (holds_frRlc (w := w) (U := U) (r := 0) "" (.const v) (.const x)).2 hb
    exact frRlcLookup_sound h.fixed hn h.canonical this
  · rintro v b k hk ⟨r, hr, hd⟩ hb
    rcases hE.last with hT | hS
    · have := (holds_keyBit (w := w) (U := U) (r := 0) "" (.const v) (.const (k : Fr)) (.const b)).2 hb
      obtain ⟨i, h1, h2, h3⟩ := keyBitLookup_sound h.fixed hn hT h.canonical h.keyBit this
      have big := frModulus_big
      have : k = i := natCast_inj_of_lt (by omega) (by omega) h2
      subst this
      exact ⟨h1, h3⟩
    · have big := frModulus_big
      have h2 := hS r ((sel_eq_one_iff h.fixed r).1 hr)
      rw [hd, ZMod.val_natCast, Nat.mod_eq_of_lt (by omega)] at h2
      obtain ⟨r', -, e1, rfl, e3, rfl⟩ := hb
      exact ⟨by omega, keyBit_row_sound_lt_248 h.fixed hn h.canonical
        (h.keyBit r' ((sel_eq_one_iff h.fixed r').1 e1)) k (by omega) e3.symm⟩

/-! ## Decoding -/

/-- Segment, path and proof type of a row. /repo/src/gadgets/mpt_update.rs:53-78. -/
noncomputable def segAt (w : Witness Fr) (r : ℤ) : SegmentType := segmentType.decode w r
/-- Path type of a row, /repo/src/gadgets/mpt_update.rs:53-78. -/
noncomputable def pathAt (w : Witness Fr) (r : ℤ) : PathType := pathType.decode w r
/-- Proof type of a row, /repo/src/gadgets/mpt_update.rs:53-78. -/
noncomputable def proofAt (w : Witness Fr) (r : ℤ) : MPTProofType := proofType.decode w r

theorem Accepted.segRepr (h : Accepted H n U w) {r : ℤ} (hr : Enabled n r) :
    segmentType.Repr w r (segAt w r) := by
  obtain ⟨σ, hσ⟩ := (decoded_of_configure H (h.update r hr)).1
  rwa [segAt, OneHot.repr_unique _ _ _ _ hσ]
theorem Accepted.pathRepr (h : Accepted H n U w) {r : ℤ} (hr : Enabled n r) :
    pathType.Repr w r (pathAt w r) := by
  obtain ⟨σ, hσ⟩ := (decoded_of_configure H (h.update r hr)).2.1
  rwa [pathAt, OneHot.repr_unique _ _ _ _ hσ]
theorem Accepted.proofRepr (h : Accepted H n U w) {r : ℤ} (hr : Enabled n r) :
    proofType.Repr w r (proofAt w r) := by
  obtain ⟨σ, hσ⟩ := (decoded_of_configure H (h.update r hr)).2.2.1
  rwa [proofAt, OneHot.repr_unique _ _ _ _ hσ]
theorem Accepted.iz (h : Accepted H n U w) {r : ℤ} (hr : Enabled n r) (i : Fin 4) :
    w.adv (.izInv i) r = (w.adv (.izVal i) r)⁻¹ :=
  (decoded_of_configure H (h.update r hr)).2.2.2 i

theorem Accepted.startIff (h : Accepted H n U w) {r : ℤ} (hr : Enabled n r) :
    segAt w r = .Start ↔ pathAt w r = .Start := by
  have h1 := h.update r hr
  simp only [MptUpdate.configure, Cmd.holdsL_append, Cmd.holdsL_cons, Cmd.holds_assertEqual] at h1
  obtain ⟨⟨⟨⟨⟨_, h2, _⟩, _⟩, _⟩, _⟩, _⟩ := h1
  have e1 : (seg [.Start]).eval w r = if segAt w r ∈ [SegmentType.Start] then (1 : Fr) else 0 :=
    OneHot.eval_matches _ _ _ _ _ _ (by decide) (by simpa using h.segRepr hr)
  have e2 : (pth [.Start]).eval w r = if pathAt w r ∈ [PathType.Start] then (1 : Fr) else 0 :=
    OneHot.eval_matches _ _ _ _ _ _ (by decide) (by simpa using h.pathRepr hr)
  rw [e1, e2] at h2
  simp only [List.mem_singleton] at h2
  by_cases a : segAt w r = .Start <;> by_cases b : pathAt w r = .Start <;> simp_all

/-- The full row relation on a row whose next row is enabled, and whose previous row is enabled
unless it is a Start row. -/
theorem Accepted.row (h : Accepted H n U w) {r : ℤ} (hr : Enabled n r)
    (hp : segAt w r = .Start ∨ Enabled n (r - 1)) (hn : Enabled n (r + 1)) :
    RowRel H w U r (segAt w r) (segAt w (r + 1)) (pathAt w (r - 1)) (pathAt w r) (pathAt w (r + 1))
      (proofAt w (r - 1)) (proofAt w r) :=
  (configure_iff ⟨h.segRepr hr, h.segRepr hn,
    fun hs => h.pathRepr (hp.resolve_left (fun h2 => hs ((h.startIff hr).1 h2))),
    h.pathRepr hr, h.pathRepr hn,
    fun hs => h.proofRepr (hp.resolve_left hs), h.proofRepr hr, fun i => h.iz hr i⟩
    ((sel_eq_one_iff h.fixed r).2 hr) H).1 (h.update r hr)

end Mpt
