import Verif.Props.Complete
import Verif.Props.Trace
import Verif.Exposed

set_option autoImplicit false

/-!
# Theorems: what the assigned circuit exposes (C51)

The tuples other circuits can look up in an assigned circuit are exactly the claims of its proofs, besides
the all-zero tuple (rows in the middle of an update) and the padding claim.
-/

namespace Mpt.Props
open Mpt Spec Types MptUpdate Requests

variable {H : HashFn}

/-- The tuple by which a claim is looked up: selector, address, RLC of the storage key, proof type, RLCs of
the new and of the old root, new and old value. -/
def claimTuple (ρ : Fr) (c : Claim) : List Fr :=
  [1, (beVal c.address : Fr), rlc ρ (beBytes 32 c.storageKey), (c.kind.proofType.toNat : Fr),
    rootRlc ρ c.newRoot, rootRlc ρ c.oldRoot, c.newValueAssignment ρ, c.oldValueAssignment ρ]

/-- The tuple of rows in the middle of an update. -/
def zeroTuple : List Fr := [1, 0, 0, 0, 0, 0, 0, 0]

/-- The padding claim: the account with address 0 is not in the empty trie. -/
def paddingTuple : List Fr := [1, 0, 0, (MPTProofType.AccountDoesNotExist.toNat : Fr), 0, 0, 0, 0]

/-- What a row exposes, read off the row. -/
def rowTuple (u : URow) : List Fr :=
  if u.seg = .Start then
    [1, u.iv 0 * ((2 ^ 32 : ℕ) : Fr) + u.iv 1, u.storageKeyRlc, (u.proof.toNat : Fr), u.sp 1, u.sp 0,
      u.newValue, u.oldValue]
  else zeroTuple

theorem exposed_row {w : Witness Fr} {r : ℤ} {u : URow} (h : AtRow w r u) (hs : w.fix .selector r = 1) :
    exposed w r = rowTuple u := by
  have h1 : (seg [.Start]).eval w r = if u.seg = .Start then (1 : Fr) else 0 := by
    have : (seg [.Start]).eval w r = if u.seg ∈ [SegmentType.Start] then (1 : Fr) else 0 :=
      OneHot.eval_matches _ _ _ _ _ _ (by decide) (by simpa using h.seg)
    simpa using this
  have h2 : (proofType.index 0 : Query Fr).eval w r = (u.proof.toNat : Fr) := by
    rw [OneHot.eval_index _ _ _ _ u.proof (by simpa using h.proof)]
    generalize u.proof = t
    cases t <;> rfl
  simp only [exposed, lookupExprs, MptUpdate.lookup, List.map_cons, List.map_nil, Query.eval_mul,
    Query.eval_add, AdvCol.eval_cur, FixCol.eval_cur, Query.eval_const, hs, h1, h2, h.iv, h.sp,
    h.storageKeyRlc, h.oldValue, h.newValue, rowTuple, zeroTuple]
  split <;> simp

/-! ## The rows of one proof -/

/-- A list of rows that begins with the start row of `p`, the only start row. -/
def OneStart (ρ : Fr) (c : Claim) (l : List URow) : Prop :=
  ∃ u rest, l = u :: rest ∧ u.seg = .Start ∧ u.iv 0 = (addressHigh c.address : ℕ) ∧
    u.iv 1 = (addressLow c.address : ℕ) ∧ u.sp 0 = rlcFold (frBytes c.oldRoot) ρ ∧
    u.sp 1 = rlcFold (frBytes c.newRoot) ρ ∧ ∀ v ∈ rest, v.seg ≠ .Start

/-- A change of cells that keeps what start rows expose. -/
structure KeepsStart (f : URow → URow) : Prop where
  seg : ∀ u, (f u).seg = u.seg
  iv0 : ∀ u, (f u).iv 0 = u.iv 0
  iv1 : ∀ u, (f u).iv 1 = u.iv 1
  sp : ∀ u, (f u).sp = u.sp

theorem modifyLast_seg {f : URow → URow} (hf : KeepsStart f) (l : List URow) (h : ∀ v ∈ l, v.seg ≠ .Start) :
    ∀ v ∈ modifyLast f l, v.seg ≠ .Start := by
  induction l using modifyLast.induct with
  | case1 => simp [modifyLast]
  | case2 u => simpa [modifyLast, hf.seg] using h
  | case3 u v l ih =>
    intro x hx
    rw [modifyLast] at hx
    rcases List.mem_cons.1 hx with rfl | hx
    · exact h _ (by simp)
    · exact ih (fun y hy => h y (List.mem_cons_of_mem _ hy)) x hx

theorem OneStart.modifyLast {ρ : Fr} {c : Claim} {l : List URow} (h : OneStart ρ c l) {f : URow → URow}
    (hf : KeepsStart f) : OneStart ρ c (modifyLast f l) := by
  obtain ⟨u, rest, rfl, h1, h2, h3, h4, h5, h6⟩ := h
  cases rest with
  | nil =>
    exact ⟨f u, [], rfl, by rw [hf.seg, h1], by rw [hf.iv0, h2], by rw [hf.iv1, h3], by rw [hf.sp, h4],
      by rw [hf.sp, h5], by simp⟩
  | cons v rest => exact ⟨u, _, rfl, h1, h2, h3, h4, h5, modifyLast_seg hf _ h6⟩

theorem OneStart.append {ρ : Fr} {c : Claim} {l : List URow} (h : OneStart ρ c l) {l' : List URow}
    (h' : ∀ v ∈ l', v.seg ≠ .Start) : OneStart ρ c (l ++ l') := by
  obtain ⟨u, rest, rfl, h1, h2, h3, h4, h5, h6⟩ := h
  refine ⟨u, rest ++ l', rfl, h1, h2, h3, h4, h5, fun v hv => ?_⟩
  rcases List.mem_append.1 hv with hv | hv
  · exact h6 v hv
  · exact h' v hv

theorem trieURows_seg {s : SegmentType} {key otherKey : Fr} (rows : List TrieRow) :
    ∀ (i : ℕ) (us : List URow), trieURows s key otherKey i rows = some us → ∀ v ∈ us, v.seg = s := by
  induction rows with
  | nil => intro i us h; rw [trieURows] at h; cases h; simp
  | cons row rows ih =>
    intro i us h
    rw [trieURows] at h
    obtain ⟨iv, h1, h⟩ := Option.bind_eq_some_iff.1 h
    obtain ⟨rest, h2, h⟩ := Option.bind_eq_some_iff.1 h
    cases h
    intro v hv
    rcases List.mem_cons.1 hv with rfl | hv
    · rfl
    · exact ih _ _ h2 v hv

theorem leafRowsZip_seg (key otherKey : Fr) (pt : PathType) (ss : List SegmentType) :
    ∀ (xs os ns : List Fr) (ds : List Bool), ∀ v ∈ leafRowsZip key otherKey pt ss xs os ns ds, v.seg ∈ ss := by
  induction ss with
  | nil => intro xs os ns ds v hv; simp [leafRowsZip] at hv
  | cons s ss ih =>
    intro xs os ns ds v hv
    cases xs <;> cases os <;> cases ns <;> cases ds <;> simp only [leafRowsZip, List.not_mem_nil] at hv
    rcases List.mem_cons.1 hv with rfl | hv
    · exact List.mem_cons_self
    · exact List.mem_cons_of_mem _ (ih _ _ _ _ v hv)

theorem leafCodeHash_seg (ρ : Fr) (k : ClaimKind) (u : URow) : (leafCodeHash ρ k u).seg = u.seg := by
  unfold leafCodeHash
  split
  · rename_i o n; cases o <;> cases n <;> rfl
  · rfl

theorem leafRow3_seg {ρ : Fr} {p : Proof} {u v : URow} (h : leafRow3 H ρ p u = some v) : v.seg = u.seg := by
  unfold leafRow3 at h
  split at h
  · cases h; rfl
  · obtain ⟨k, -, h⟩ := Option.bind_eq_some_iff.1 h
    obtain ⟨o, -, h⟩ := Option.bind_eq_some_iff.1 h
    cases h; rfl

theorem leafURows_seg {ρ : Fr} {p : Proof} {a b : Fr} {l : List URow} (h : leafURows H ρ p a b = some l) :
    ∀ v ∈ l, v.seg ≠ .Start := by
  unfold leafURows at h
  obtain ⟨fin, -, h⟩ := Option.bind_eq_some_iff.1 h
  obtain ⟨pt, -, h⟩ := Option.bind_eq_some_iff.1 h
  obtain ⟨dirs, -, h⟩ := Option.bind_eq_some_iff.1 h
  obtain ⟨sib, -, h⟩ := Option.bind_eq_some_iff.1 h
  have hz := leafRowsZip_seg (accountKey H p.claim.address) a pt
    [.AccountLeaf0, .AccountLeaf1, .AccountLeaf2, .AccountLeaf3] sib
    (p.oldAccountLeafHashes.getD (List.replicate 4 (finalHashes H p).1))
    (p.newAccountLeafHashes.getD (List.replicate 4 (finalHashes H p).2)) dirs
  have hz' : ∀ v ∈ leafRowsZip (accountKey H p.claim.address) a pt
    [.AccountLeaf0, .AccountLeaf1, .AccountLeaf2, .AccountLeaf3] sib
    (p.oldAccountLeafHashes.getD (List.replicate 4 (finalHashes H p).1))
    (p.newAccountLeafHashes.getD (List.replicate 4 (finalHashes H p).2)) dirs, v.seg ≠ .Start := by
    intro v hv e
    have := hz v hv
    rw [e] at this
    simp at this
  dsimp only at h
  revert h hz'
  generalize leafRowsZip _ _ _ _ _ _ _ _ = rows
  intro h hz'
  unfold decorateLeaf at h
  split at h
  · rename_i u0 u1 u2 u3
    obtain ⟨d', h1, h⟩ := Option.bind_eq_some_iff.1 h
    cases h
    intro v hv
    simp only [List.mem_cons, List.not_mem_nil, or_false] at hv
    rcases hv with rfl | rfl | rfl | rfl
    · exact hz' u0 (by simp)
    · exact hz' _ (by simp)
    · exact hz' _ (by simp)
    · rw [leafCodeHash_seg, leafRow3_seg h1]; exact hz' _ (by simp)
  · rename_i u0 u1
    cases h
    intro v hv
    simp only [List.mem_cons, List.not_mem_nil, or_false] at hv
    rcases hv with rfl | rfl
    · exact hz' u0 (by simp)
    · exact hz' _ (by simp)
  · cases h

theorem keeps_absence (a b c : Fr) : KeepsStart (fun u => u.withAbsence a b c) :=
  ⟨fun _ => rfl, fun u => by simp [URow.withAbsence, setFn], fun u => by simp [URow.withAbsence, setFn],
    fun _ => rfl⟩

theorem keeps_emptyStorage {key otherKey : Fr} {o n : StorageLeaf} {f : URow → URow}
    (h : emptyStorage H key otherKey o n = some f) : KeepsStart f := by
  unfold emptyStorage at h
  split at h <;> first
    | (split at h <;> first | (cases h; done) | skip)
    | (cases h; done)
    | skip
  · cases h; exact keeps_absence _ _ _
  · cases h; exact ⟨fun _ => rfl, fun _ => rfl, fun _ => rfl, fun _ => rfl⟩
  · cases h; exact ⟨fun _ => rfl, fun _ => rfl, fun _ => rfl, fun _ => rfl⟩
  · cases h; exact ⟨fun _ => rfl, fun _ => rfl, fun _ => rfl, fun _ => rfl⟩

theorem entryWord_seg (ρ : Fr) (a b : Fin 10) (l : StorageLeaf) (u : URow) :
    (entryWord ρ a b l u).seg = u.seg := by
  unfold entryWord; split <;> rfl

theorem storageURow_seg (ρ key otherKey : Fr) (pt : PathType) (a b c : Fr) (o n : StorageLeaf) :
    (storageURow H ρ key otherKey pt a b c o n).seg = .StorageLeaf0 := by
  unfold storageURow; rw [entryWord_seg, entryWord_seg]

theorem storageExt_seg {key hash : Fr} {s o : StorageLeaf} {u v : URow}
    (h : storageExt H key hash s o u = some v) : v.seg = u.seg := by
  unfold storageExt at h
  generalize (if key ≠ o.key H then o.key H else s.key H) = ok at h
  dsimp only at h
  split at h
  · obtain ⟨d, -, rfl⟩ := Option.map_eq_some_iff.1 h; rfl
  · cases h; rfl

theorem storageLeafURow_seg {ρ key otherKey : Fr} {o n : StorageLeaf} {pt : PathType} {u : URow}
    (h : storageLeafURow H ρ key otherKey o n pt = some u) : u.seg = .StorageLeaf0 := by
  cases pt with
  | Start => cases h
  | Common =>
    obtain ⟨x, -, h⟩ := Option.bind_eq_some_iff.1 h
    obtain ⟨y, -, h⟩ := Option.bind_eq_some_iff.1 h
    cases h; exact storageURow_seg _ _ _ _ _ _ _ _ _
  | ExtensionOld =>
    obtain ⟨x, -, h⟩ := Option.bind_eq_some_iff.1 h
    rw [storageExt_seg h]; exact storageURow_seg _ _ _ _ _ _ _ _ _
  | ExtensionNew =>
    obtain ⟨x, -, h⟩ := Option.bind_eq_some_iff.1 h
    rw [storageExt_seg h]; exact storageURow_seg _ _ _ _ _ _ _ _ _

theorem body_oneStart {ρ : Fr} {p : Proof} {body : List URow} (h : bodyURows H ρ p = some body) :
    OneStart ρ p.claim body := by
  unfold bodyURows at h
  obtain ⟨other, -, h⟩ := Option.bind_eq_some_iff.1 h
  obtain ⟨trie, h1, h⟩ := Option.bind_eq_some_iff.1 h
  obtain ⟨-, -, h⟩ := Option.bind_eq_some_iff.1 h
  have hpre : OneStart ρ p.claim (startURow H ρ p other.1 :: trie) :=
    ⟨_, _, rfl, rfl, by simp [startURow, setFn], by simp [startURow, setFn], by simp [startURow, setFn],
      by simp [startURow, setFn], fun v hv => by rw [trieURows_seg _ _ _ h1 v hv]; simp⟩
  split at h
  · cases h; exact hpre.modifyLast (keeps_absence _ _ _)
  · obtain ⟨leaf, h2, h⟩ := Option.bind_eq_some_iff.1 h
    have hl := hpre.append (leafURows_seg h2)
    unfold storageURows at h
    split at h
    · cases h; exact hl
    · obtain ⟨ok, -, h⟩ := Option.bind_eq_some_iff.1 h
      obtain ⟨tr, h3, h⟩ := Option.bind_eq_some_iff.1 h
      have ht := hl.append (l' := tr) fun v hv => by rw [trieURows_seg _ _ _ h3 v hv]; simp
      split at h
      · obtain ⟨u, h4, h⟩ := Option.bind_eq_some_iff.1 h
        cases h
        exact ht.append fun v hv => by
          rw [List.mem_singleton.1 hv, storageLeafURow_seg h4]; simp
      · obtain ⟨f, h4, h⟩ := Option.bind_eq_some_iff.1 h
        cases h
        exact ht.modifyLast (keeps_emptyStorage h4)

theorem address_eq {a : List ℕ} (h : a.length = 20) : addressHigh a * 2 ^ 32 + addressLow a = beVal a := by
  unfold addressHigh addressLow
  conv_rhs => rw [← List.take_append_drop 16 a]
  rw [beVal_append, List.length_drop, h]
  norm_num

/-- The tuples exposed by the rows of one proof. -/
theorem run_tuples {ρ : Fr} {p : Proof} (hp : Parsed H p) (ha : p.claim.address.length = 20) {run : List URow}
    (h : assignSingleProof H ρ p = some run) :
    ∃ u rest, run = u :: rest ∧ rowTuple u = claimTuple ρ p.claim ∧ ∀ v ∈ rest, rowTuple v = zeroTuple := by
  obtain ⟨body, h1, h2⟩ := Option.map_eq_some_iff.1 h
  obtain ⟨t, tr, ht⟩ := hp
  have hl := bodyURows_length H ρ p (proofFrom_lengths H t tr p ht) body h1
  rw [← hl, overlay_eq] at h2
  obtain ⟨u, rest, rfl, e1, e2, e3, e4, e5, e6⟩ := body_oneStart h1
  refine ⟨u.withBase ρ p.claim, rest.map (URow.withBase ρ p.claim), by rw [← h2]; rfl, ?_, ?_⟩
  · have hs : (u.withBase ρ p.claim).seg = .Start := e1
    rw [rowTuple, if_pos hs, claimTuple]
    have hadr : ((beVal p.claim.address : ℕ) : Fr) =
        (addressHigh p.claim.address : ℕ) * ((2 ^ 32 : ℕ) : Fr) + (addressLow p.claim.address : ℕ) := by
      rw [← address_eq ha]; push_cast; ring
    have f1 : (u.withBase ρ p.claim).iv = u.iv := rfl
    have f2 : (u.withBase ρ p.claim).sp = u.sp := rfl
    rw [f1, f2, e2, e3, e4, e5, hadr]
    simp only [URow.withBase, c47_rlc_eq, rootRlc, u256ToBigEndian]
  · intro v hv
    obtain ⟨x, hx, rfl⟩ := List.mem_map.1 hv
    have hs : (x.withBase ρ p.claim).seg ≠ .Start := e6 x hx
    rw [rowTuple, if_neg hs]

theorem padding_tuple : rowTuple (URow.padding H) = paddingTuple := by
  simp [rowTuple, URow.padding, paddingTuple]

/-! ## The whole circuit -/

/-- What an assigned circuit exposes. -/
theorem assembly_tuples (a : Assembly) (ps : List Proof) (hp : ∀ p ∈ ps, Parsed a.H p)
    (ha : ∀ p ∈ ps, p.claim.address.length = 20) (runs : List (List URow))
    (h : ps.mapM (assignSingleProof a.H a.ρ) = some runs) (k : ℕ)
    (hr : a.rows = runs.flatten ++ List.replicate k (.padding a.H)) (hl : a.rows.length = a.n - 1) :
    (∀ p ∈ ps, ∃ r, Enabled a.n r ∧ exposed a.witness r = claimTuple a.ρ p.claim) ∧
    ∀ r, Enabled a.n r → (∃ p ∈ ps, exposed a.witness r = claimTuple a.ρ p.claim) ∨
      exposed a.witness r = zeroTuple ∨ exposed a.witness r = paddingTuple := by
  have hsel : ∀ r, Enabled a.n r → a.witness.fix .selector r = 1 := by
    intro r hr
    show fixedCell a.n .selector r = 1
    have h1 := hr.1
    have h2 := hr.2
    simp only [fixedCell]
    rw [if_pos]
    omega
  obtain ⟨m1, m2⟩ := mem_mapM_of _ _ _ h
  constructor
  · intro p hpm
    obtain ⟨run, hrun, he⟩ := m2 p hpm
    obtain ⟨u, rest, rfl, ht, -⟩ := run_tuples (hp p hpm) (ha p hpm) he
    have hu : u ∈ a.rows := by
      rw [hr]; exact List.mem_append_left _ (List.mem_flatten.2 ⟨_, hrun, by simp⟩)
    obtain ⟨i, hi, hiu⟩ := List.mem_iff_getElem.1 hu
    have hen : Enabled a.n ((i : ℤ) + 1) := ⟨by omega, by omega⟩
    refine ⟨(i : ℤ) + 1, hen, ?_⟩
    have hat := Assembly.atRow a ((i : ℤ) + 1)
    rw [rowAt_succ, List.getD_eq_getElem _ _ hi, hiu] at hat
    rw [exposed_row hat (hsel _ hen), ht]
  · intro r hen
    have hat := Assembly.atRow a r
    rw [exposed_row hat (hsel _ hen)]
    have h1 := hen.1
    have h2 := hen.2
    have hi : (r - 1).toNat < a.rows.length := by omega
    have hmem : rowAt a.rows r ∈ a.rows := by
      rw [rowAt, if_pos h1, List.getD_eq_getElem _ _ hi]; exact List.getElem_mem hi
    rw [hr] at hmem
    rcases List.mem_append.1 hmem with hmem | hmem
    · obtain ⟨run, hrun, hmem⟩ := List.mem_flatten.1 hmem
      obtain ⟨p, hpm, he⟩ := m1 run hrun
      obtain ⟨u, rest, rfl, ht, hz⟩ := run_tuples (hp p hpm) (ha p hpm) he
      rcases List.mem_cons.1 hmem with e | hmem
      · left; refine ⟨p, hpm, ?_⟩
        rw [hr, e, ht]
      · right; left
        rw [hr]; exact hz _ hmem
    · right; right
      rw [hr, List.eq_of_mem_replicate hmem, padding_tuple]

/-- **C51.** In a circuit assigned for a list of proofs, serially or in parallel, every claim of the list can
be looked up, and an enabled row exposes nothing but one of the claims, the all-zero tuple or the padding
claim. -/
theorem c51_exposed {ρ : Fr} {n : ℕ} {ps : List Proof} (hp : ∀ p ∈ ps, ∃ t tr, proofFrom H t tr = some p)
    (ha : ∀ p ∈ ps, p.claim.address.length = 20) {s : SerialCells} (hs : serialAssign H ρ n ps = some s)
    (table : Witness Fr) :
    ((∀ p ∈ ps, ∃ r, Enabled n r ∧ exposed (s.witness ρ table) r = claimTuple ρ p.claim) ∧
      ∀ r, Enabled n r → (∃ p ∈ ps, exposed (s.witness ρ table) r = claimTuple ρ p.claim) ∨
        exposed (s.witness ρ table) r = zeroTuple ∨ exposed (s.witness ρ table) r = paddingTuple) ∧
    ∀ threads, 0 < threads → ∃ s', parAssign H ρ n threads ps = some s' ∧
      (∀ p ∈ ps, ∃ r, Enabled n r ∧ exposed (s'.witness ρ n table) r = claimTuple ρ p.claim) ∧
      ∀ r, Enabled n r → (∃ p ∈ ps, exposed (s'.witness ρ n table) r = claimTuple ρ p.claim) ∨
        exposed (s'.witness ρ n table) r = zeroTuple ∨ exposed (s'.witness ρ n table) r = paddingTuple := by
  obtain ⟨br, bits, strings, runs, h1, h2, h3, h4, h5, h6, h7, h8, h9⟩ := serialWitness_eq hp hs
  have hlen : (runs.flatten ++ List.replicate (n - (1 + totalRows ps)) (URow.padding H)).length = n - 1 := by
    rw [List.length_append, h8, List.length_replicate]; omega
  constructor
  · rw [h9 table []]
    exact assembly_tuples ⟨H, ρ, n, _, _, _, _, _, table, none⟩ ps hp ha runs h5 _ rfl hlen
  · intro threads hth
    obtain ⟨s', bits', p1, p2, p3, p4⟩ := parWitness_eq hth hp hs
    refine ⟨s', p1, ?_⟩
    rw [h2] at p2
    cases p2
    obtain ⟨br', bits2, q1, q2, q3, q4, q5, q6, q7, q8⟩ := serialAssign_eq hs
    have hstr : s.strings = strings := by
      rw [h1] at q1; cases q1
      rw [h4] at q7; exact (Option.some.inj q7).symm
    rw [p4 _ table [] (fun table => by rw [hstr]; exact h9 table [])]
    exact assembly_tuples ⟨H, ρ, n, _, _, _, _, _, table, some threads⟩ ps hp ha runs h5 _ rfl hlen

end Mpt.Props
