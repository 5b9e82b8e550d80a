import Verif.Assign.HonestSlotEmpty
import Verif.Assign.HonestNewRun
import Verif.Props.Rows
import Verif.Props.Circuit

set_option autoImplicit false

/-!
# Completeness (C35): the witness assigned for a list of honest proofs satisfies the circuit
-/

namespace Mpt
open Spec MptUpdate Types Requests Props

variable {H : HashFn} {w : Witness Fr} {U : ℕ}

/-- An honest proof of a supported claim. -/
inductive ProofReady (H : HashFn) (p : Proof) : Prop
  | absent (h : AbsentReady H p)
  | fresh (a : AccountData) (h : NewReady H p a)
  | field (o n : AccountData) (so sn r0 : Fr) (h : BothReady H p o n so sn)
      (hK : FieldKind H p o n so sn) (hst : p.storage = .Root r0)
  | slot (leafP : PathType) (a : AccountData) (so sn : Fr) (sk : ℕ) (key : Fr) (rows : List TrieRow)
      (old new : StorageLeaf) (h : SlotReady H leafP p a so sn sk key rows old new)
      (hK : SlotKind H p sk key leafP old new) (hkey : key = storageKeyHash H sk)
      (hnil : rows = [] → (leafP = .ExtensionNew → so = 0) ∧ (leafP = .ExtensionOld → sn = 0))
  | slotEmpty (a : AccountData) (so : Fr) (sk : ℕ) (key : Fr) (rows : List TrieRow) (l : StorageLeaf)
      (h : SlotReady H .Start p a so so sk key rows l l) (hK : p.claim.kind = .IsEmpty (some sk))
      (hl : AbsentLeaf H key l) (hroots : p.claim.oldRoot = p.claim.newRoot)
      (hsame : ∀ row ∈ p.accountTrieRows, row.old = row.new) (hsame' : ∀ row ∈ rows, row.old = row.new)

/-- **The rows of an honest proof satisfy the constraints.** -/
theorem run_sat {ρ : Fr} {p : Proof} (hS : Serves H w U ρ p) (hR : ProofReady H p) {run : List URow}
    (h : assignSingleProof H ρ p = some run) : RunSat H w U run := by
  cases hR with
  | absent hR => exact run_sat_absent hS hR h
  | fresh a hR => exact run_sat_new hS hR h
  | field o n so sn r0 hR hK hst => exact run_sat_field hS hR hK hst h
  | slot leafP a so sn sk key rows old new hR hK hkey hnil => exact run_sat_slot hS hR hK hkey hnil h
  | slotEmpty a so sk key rows l hR hK hl hroots hsame hsame' =>
    exact run_sat_slotEmpty hS hR hK hl hroots hsame hsame' h

/-- The integers of a proof are in the ranges of their Rust types. -/
structure InTypes (p : Proof) : Prop where
  address : IsBytes p.claim.address ∧ p.claim.address.length = 20
  u64 : ∀ x ∈ proofU64s p, x < 2 ^ 64
  u128 : ∀ l, proofU128s p = some l → ∀ x ∈ l, x < 2 ^ 128

theorem beVal_lt_of_length {s : List ℕ} (h : IsBytes s) {k : ℕ} (hk : s.length = k) : beVal s < 256 ^ k := by
  subst hk; exact beVal_lt s h

theorem InTypes.low {p : Proof} (h : InTypes p) : addressLow p.claim.address < 2 ^ 32 := by
  obtain ⟨h1, h2⟩ := h.address
  have := beVal_lt_of_length (s := p.claim.address.drop 16) (k := 4)
    (fun b hb => h1 b (List.mem_of_mem_drop hb)) (by rw [List.length_drop, h2])
  unfold addressLow
  norm_num at this ⊢
  exact this

/-- The strings served are the ones requested. -/
theorem strings_mem {br : List ℕ × List ℕ × List ℕ × List Fr} {strings : List (List ℕ)}
    (h : ByteRep.byteStrings br.1 br.2.1 br.2.2.1 br.2.2.2 = some strings) :
    (∀ x ∈ br.1, beBytes 4 x ∈ strings) ∧ (∀ x ∈ br.2.1, beBytes 8 x ∈ strings) ∧
    (∀ x ∈ br.2.2.1, beBytes 16 x ∈ strings) ∧
    (∀ x ∈ br.2.2.2, beBytes 31 x.val ∈ strings ∧ x.val < 256 ^ 31) ∧
    (∀ s ∈ strings, IsBytes s ∧ s ≠ [] ∧ s.length < 2 ^ 64) := by
  obtain ⟨f, hf, h⟩ := Option.bind_eq_some_iff.1 h
  cases h
  obtain ⟨m1, m2⟩ := mem_mapM_of _ _ _ hf
  have hfr : ∀ x s, ByteRep.frToBigEndian x = some s → s = beBytes 31 x.val ∧ x.val < 256 ^ 31 := by
    intro x s hx
    unfold ByteRep.frToBigEndian at hx
    have e : frBytes x = (x.val / 256 ^ 31 % 256) :: beBytes 31 x.val := rfl
    rw [e] at hx
    split at hx
    · rename_i rest heq
      cases hx
      obtain ⟨h0, rfl⟩ := List.cons.inj heq
      refine ⟨rfl, ?_⟩
      have hlt : x.val < 256 ^ 32 := lt_trans (ZMod.val_lt x) frModulus_lt_pow
      have : x.val / 256 ^ 31 < 256 := by
        rw [Nat.div_lt_iff_lt_mul (by positivity)]
        calc x.val < 256 ^ 32 := hlt
          _ = 256 * 256 ^ 31 := by norm_num
      rw [Nat.mod_eq_of_lt this] at h0
      exact (Nat.div_eq_zero_iff_lt (by positivity)).1 h0
    · cases hx
  refine ⟨?_, ?_, ?_, ?_, ?_⟩
  · intro x hx
    exact List.mem_append_left _ (List.mem_append_left _ (List.mem_append_left _ (List.mem_map_of_mem hx)))
  · intro x hx
    exact List.mem_append_left _ (List.mem_append_left _ (List.mem_append_right _ (List.mem_map_of_mem hx)))
  · intro x hx
    exact List.mem_append_left _ (List.mem_append_right _ (List.mem_map_of_mem hx))
  · intro x hx
    obtain ⟨s, hs, e⟩ := m2 x hx
    obtain ⟨rfl, hlt⟩ := hfr x s e
    exact ⟨List.mem_append_right _ hs, hlt⟩
  · intro s hs
    have hb : ∀ k x, 0 < k → k < 32 → IsBytes (beBytes k x) ∧ beBytes k x ≠ [] ∧ (beBytes k x).length < 2 ^ 64 := by
      intro k x h1 h2
      have hl := beBytes_length k x
      refine ⟨isBytes_beBytes k x, ?_, by rw [hl]; omega⟩
      intro h
      rw [h] at hl
      simp at hl; omega
    simp only [List.mem_append, List.mem_map] at hs
    rcases hs with ((⟨x, -, rfl⟩ | ⟨x, -, rfl⟩) | ⟨x, -, rfl⟩) | hs
    · exact hb _ _ (by norm_num) (by norm_num)
    · exact hb _ _ (by norm_num) (by norm_num)
    · exact hb _ _ (by norm_num) (by norm_num)
    · obtain ⟨x, -, e⟩ := m1 s hs
      obtain ⟨rfl, -⟩ := hfr x s e
      exact hb _ _ (by norm_num) (by norm_num)

/-- The tables of the assembly serve the requests of each proof. -/
theorem serves_of {a : Assembly} (hf : a.TablesFit U) {ps : List Proof} {es : List Entry}
    {bits : List (Fr × ℕ × Bool)} {br : List ℕ × List ℕ × List ℕ × List Fr}
    (hes : hashTraces a.H ps = some es) (hpos : a.pos = traceInputs es)
    (hbits : keyBitLookups a.H ps = some bits) (hreqs : a.reqs = bits) (hkeys : a.keys = updateKeys a.H ps)
    (hbr : byteRepresentations ps = some br)
    (hstr : ByteRep.byteStrings br.1 br.2.1 br.2.2.1 br.2.2.2 = some a.strings)
    (hK : ∀ p ∈ ps, HashedKey a.H p.storage) (hT : ∀ p ∈ ps, InTypes p) {p : Proof} (hp : p ∈ ps) :
    Serves a.H a.witness U a.ρ p := by
  obtain ⟨-, -, hmem, htrue⟩ := c36_hash_traces_partial a.H ps es hes
  obtain ⟨-, -, -, -, b1, b2, b3, b4⟩ := c37_byte_requests ps br hbr
  obtain ⟨s1, s2, s3, s4, -⟩ := strings_mem hstr
  refine ⟨rfl, ?_, ?_, ?_, ?_, ?_, ?_, ?_⟩
  · obtain ⟨x, h1, -⟩ := Option.map_eq_some_iff.1 hes
    obtain ⟨l, h3, -⟩ := Option.bind_eq_some_iff.1 h1
    obtain ⟨b, -, hpe⟩ := (mem_mapM_of _ _ _ h3).2 p hp
    refine ⟨b, hpe, fun e he => ?_⟩
    have hm : e ∈ es := (hmem e).2 (.inr ⟨p, hp, b, hpe, he⟩)
    rw [htrue hK e hm]
    exact Assembly.posServed hf (by rw [hpos]; exact List.mem_map_of_mem hm)
  · obtain ⟨x, h1, h2⟩ := Option.map_eq_some_iff.1 hbits
    obtain ⟨l, h3, h4⟩ := Option.bind_eq_some_iff.1 h1
    cases h4
    obtain ⟨b, hb, hpe⟩ := (mem_mapM_of _ _ _ h3).2 p hp
    refine ⟨b, hpe, fun e he => Assembly.keyBitServed hf ?_⟩
    rw [hreqs, ← h2, mem_sortDedup]
    exact List.mem_cons_of_mem _ (List.mem_cons_of_mem _ (List.mem_flatten.2 ⟨b, hb, he⟩))
  · intro x hx
    rw [c47_rlc_eq]
    refine Assembly.frRlcServed hf ?_
    rw [hkeys, updateKeys, mem_sortDedup]
    exact List.mem_cons_of_mem _ (List.mem_cons_of_mem _ (List.mem_flatMap.2 ⟨p, hp, hx⟩))
  · have := Assembly.bytesServed hf (s1 _ ((b1 _).2 ⟨p, hp, rfl⟩))
    rw [beVal_beBytes _ _ (by have := (hT p hp).low; norm_num at this ⊢; exact this), beBytes_length] at this
    simpa using this
  · intro x hx
    have := Assembly.bytesServed hf (s2 _ ((b2 _).2 ⟨p, hp, hx⟩))
    rw [beVal_beBytes _ _ (by have := (hT p hp).u64 x hx; norm_num at this ⊢; exact this),
      beBytes_length] at this
    simpa using this
  · obtain ⟨x, h1, -⟩ := Option.bind_eq_some_iff.1 hbr
    obtain ⟨l, h3, -⟩ := Option.bind_eq_some_iff.1 h1
    obtain ⟨b, -, hpe⟩ := (mem_mapM_of _ _ _ h3).2 p hp
    refine ⟨b, hpe, fun e he => ?_⟩
    have := Assembly.rlcServed hf (s3 _ ((b3 _).2 (.inr ⟨p, hp, b, hpe, he⟩)))
    rw [beVal_beBytes _ _ (by have := (hT p hp).u128 b hpe e he; norm_num at this ⊢; exact this),
      beBytes_length, ← c47_rlc_eq] at this
    have this : InRlc a.witness U ((e : ℕ) : Fr) 15 (rlcFold (beBytes 16 e) a.ρ) := by simpa using this
    exact ⟨bytes_of_rlc this, this⟩
  · intro x hx
    obtain ⟨m, hlt⟩ := s4 _ ((b4 _).2 ⟨p, hp, hx⟩)
    have := Assembly.rlcServed hf m
    rw [beVal_beBytes _ _ hlt, beBytes_length, ← c47_rlc_eq, ZMod.natCast_zmod_val] at this
    simpa using this

/-- The padding row is accepted. -/
theorem padding_of {a : Assembly} (hf : a.TablesFit U) {ps : List Proof} {es : List Entry}
    {br : List ℕ × List ℕ × List ℕ × List Fr}
    (hes : hashTraces a.H ps = some es) (hpos : a.pos = traceInputs es)
    (hbr : byteRepresentations ps = some br)
    (hstr : ByteRep.byteStrings br.1 br.2.1 br.2.2.1 br.2.2.2 = some a.strings) :
    RunSat a.H a.witness U [.padding a.H] := by
  obtain ⟨-, h0, hmem, -⟩ := c36_hash_traces_partial a.H ps es hes
  obtain ⟨-, -, -, -, b1, b2, b3, b4⟩ := c37_byte_requests ps br hbr
  obtain ⟨s1, s2, s3, s4, -⟩ := strings_mem hstr
  have hz := s3 0 ((b3 0).2 (.inl rfl))
  have e16 : beBytes 16 0 = List.replicate 16 0 := by decide
  rw [e16] at hz
  have hpre : ∀ j : ℕ, j < 16 → InRlc a.witness U 0 (j : Fr) 0 := by
    intro j hj
    have := Assembly.prefixServed hf hz j (by simpa using hj)
    rw [List.take_replicate, beVal_zeros, rlc_replicate_zero] at this
    simpa using this
  refine padding_sat (Assembly.posServed hf ?_) (by simpa using bytes_of_rlc (hpre 15 (by norm_num)))
    (by simpa using bytes_of_rlc (hpre 3 (by norm_num))) ?_
  · rw [hpos]
    exact List.mem_map_of_mem h0
  · have := Assembly.frRlcServed hf hf.zeroKey
    rwa [Canonical.frBytes_zero, rlc_replicate_zero] at this

/-- **Completeness, for proofs.** Whatever the challenge, the number of rows (if it is at least what
`n_rows_required` says, and enough for the keys), the number of threads and the Poseidon table (if it is
sound and holds the inputs listed by `hash_traces`), the witness assigned for honest proofs is
accepted, serially and in parallel. -/
theorem ready_accepted {ρ : Fr} {n m : ℕ} {ps : List Proof} (hp : ∀ p ∈ ps, Parsed H p)
    (hR : ∀ p ∈ ps, ProofReady H p) (hK : ∀ p ∈ ps, HashedKey H p.storage) (hT : ∀ p ∈ ps, InTypes p)
    (hm : nRowsRequired H ps = some m) (hn : m ≤ n + 1) (hr : 2 + totalRows ps ≤ n)
    (hk : 32 * ((updateKeys H ps).length + 1) ≤ n) (hU : n ≤ U) (hU2 : U ≤ 2 ^ 64) {es : List Entry} (hes : hashTraces H ps = some es)
    {table : Witness Fr} (ht : PosTableFits H table U (traceInputs es))
    {s : SerialCells} (hs : serialAssign H ρ n ps = some s) :
    Accepted H n U (s.witness ρ table) ∧ ∀ threads, 0 < threads →
      ∃ s', parAssign H ρ n threads ps = some s' ∧ Accepted H n U (s'.witness ρ n table) := by
  obtain ⟨br, bits, strings, runs, h1, h2, h3, h4, h5, h6, h7, h8, h9⟩ := serialWitness_eq hp hs
  obtain ⟨-, -, c1, c2, c3⟩ := c33_tight (ρ := ρ) ps hp n m hm hn hr hk
  set rows := runs.flatten ++ List.replicate (n - (1 + totalRows ps)) (URow.padding H) with hrows
  have hfit : ∀ th : Option ℕ, (∀ t, th = some t → 0 < t) → Assembly.TablesFit ⟨H, ρ, n, rows, strings,
      updateKeys H ps, bits, traceInputs es, table, th⟩ U := by
    intro th hth
    refine ⟨by show ByteBit.nRowsRequired ≤ n; unfold ByteBit.nRowsRequired; omega, hU, hU2,
      (strings_mem h4).2.2.2.2, c2 _ _ _ _ _ h1 h4, h6.2, ?_, h3, ?_, c1 _ h2, ht, ?_⟩
    · show (0 : Fr) ∈ updateKeys H ps
      rw [updateKeys, mem_sortDedup]; simp
    · intro q hq
      exact (c37_key_requests H ps bits h2).2.2.2.1 q hq
    · intro t h
      exact ⟨hth t h, keyBitLookups_head h2⟩
  have hacc : ∀ th : Option ℕ, (∀ t, th = some t → 0 < t) → Accepted H n U (Assembly.witness ⟨H, ρ, n, rows,
      strings, updateKeys H ps, bits, traceInputs es, table, th⟩) := by
    intro th hth
    have hf := hfit th hth
    refine Assembly.accepted_of_runs hf runs (n - (1 + totalRows ps)) (by omega) rfl ?_
      (padding_of hf (ps := ps) (es := es) (br := br) hes rfl h1 h4) ?_
    · show rows.length = n - 1
      rw [hrows, List.length_append, h8, List.length_replicate]; omega
    · intro run hr
      obtain ⟨p, hpm, hpe⟩ := (mem_mapM_of _ _ _ h5).1 run hr
      exact run_sat (serves_of hf (ps := ps) (es := es) (bits := bits) (br := br) hes rfl h2 rfl rfl h1 h4
        hK hT hpm) (hR p hpm) hpe
  refine ⟨?_, fun threads hth => ?_⟩
  · rw [h9 table (traceInputs es)]
    exact hacc none (fun t h => by cases h)
  · obtain ⟨s', bits', g1, g2, g3, g4⟩ := parWitness_eq hth hp hs
    refine ⟨s', g1, ?_⟩
    have hst : s.strings = strings := by
      obtain ⟨br', -, k1, -, -, -, -, -, k7, -⟩ := serialAssign_eq hs
      rw [h1] at k1
      cases k1
      rw [h4] at k7
      exact (Option.some.inj k7).symm
    rw [h2] at g2
    cases g2
    rw [g4 rows table (traceInputs es) (fun table => by rw [hst]; exact h9 table (traceInputs es)), hst]
    exact hacc (some threads) (fun t h => by cases h; exact hth)

end Mpt
