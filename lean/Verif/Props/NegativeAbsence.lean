import Verif.Props.NegativeHidden
import Verif.Assign.HonestNoPanic
import Verif.Assign.HonestAccepted
import Verif.Props.WorldSound

set_option autoImplicit false

/-!
# B2 at the level of claims: existing accounts are proved absent

If `n_rows` is a multiple of 32, an account of a state can be "proved" not to exist as soon as some other
account's key has the same last byte. The witness follows the path of the other account's key, and
presents the bits of that key as those of the account's own key (`Verif.Props.NegativeHidden`).
-/

namespace Mpt.Spec.Trie
open Mpt (Fr)

/-- The number of internal nodes, from depth `i` on, on the path of `key`. -/
def pathLength (key : Fr) : ℕ → Trie → ℕ
  | i, node _ l r => 1 + bif keyBit key i then r.pathLength key (i + 1) else l.pathLength key (i + 1)
  | _, _ => 0

end Mpt.Spec.Trie

namespace Mpt.Props
open Mpt Spec MptUpdate Types Requests

variable {H : HashFn}

/-- The branch domain with this code. -/
def branchOf (d : Fr) : HashDomain :=
  if d = HashDomain.Branch1.toFr then .Branch1 else if d = HashDomain.Branch2.toFr then .Branch2
  else if d = HashDomain.Branch3.toFr then .Branch3 else .Branch0

theorem branchOf_spec {d : Fr} (h : IsBranch d) : branchDomain (branchOf d) ∧ (branchOf d).toFr = d := by
  unfold branchOf branchDomain
  rcases h with h | h | h | h <;> rw [h] <;> simp [toFr_eq_iff]

/-- The rows of the path of `key`, nothing being changed. -/
def pathRows (H : HashFn) (key : Fr) : ℕ → Trie → List TrieRow
  | i, .node d l r =>
    if keyBit key i then
      ⟨branchOf d, r.hash H, r.hash H, l.hash H, true, .Common⟩ :: pathRows H key (i + 1) r
    else ⟨branchOf d, l.hash H, l.hash H, r.hash H, false, .Common⟩ :: pathRows H key (i + 1) l
  | _, _ => []

theorem pathRows_length (key : Fr) (t : Trie) : ∀ i, (pathRows H key i t).length = t.pathLength key i := by
  induction t with
  | empty => intro i; rfl
  | leaf k d => intro i; rfl
  | node d l r hl hr =>
    intro i
    rw [pathRows, Trie.pathLength]
    cases h : keyBit key i
    · rw [if_neg (by simp), List.length_cons, hl, cond_false]; omega
    · rw [if_pos rfl, List.length_cons, hr, cond_true]; omega

theorem pathRows_mem (key : Fr) (t : Trie) : ∀ i, ∀ row ∈ pathRows H key i t,
    row.pathType = .Common ∧ row.old = row.new := by
  induction t with
  | empty => intro i row h; cases h
  | leaf k d => intro i row h; cases h
  | node d l r hl hr =>
    intro i row h
    rw [pathRows] at h
    split at h <;> rcases List.mem_cons.1 h with rfl | h
    · exact ⟨rfl, rfl⟩
    · exact hr _ _ h
    · exact ⟨rfl, rfl⟩
    · exact hl _ _ h

theorem pathRows_honest (key : Fr) (t : Trie) (ht : t.Branching) : ∀ i,
    RowsHonest H .Start (t.hash H, t.hash H) (pathRows H key i t) := by
  induction t with
  | empty => intro i; trivial
  | leaf k d => intro i; trivial
  | node d l r hl hr =>
    intro i
    obtain ⟨h1, h2, h3⟩ := ht
    obtain ⟨b1, b2⟩ := branchOf_spec h1
    rw [pathRows]
    have key' : ∀ (row : TrieRow) (c : Trie), row.pathType = .Common → row.domain = branchOf d →
        row.nodeHash H row.old row.domain = (Trie.node d l r).hash H →
        row.nodeHash H row.new row.domain = (Trie.node d l r).hash H →
        RowHonest H .Start ((Trie.node d l r).hash H, (Trie.node d l r).hash H) row
          (pathRows H key (i + 1) c).head? := by
      intro row c e1 e2 e3 e4
      unfold RowHonest
      rw [e1]
      cases h : (pathRows H key (i + 1) c).head? with
      | none => exact ⟨e3, e4, (fun h => by cases h), (fun h => by cases h)⟩
      | some r' =>
        refine ⟨(row.domain, row.domain), ?_, e3, e4⟩
        rw [(pathRows_mem key c (i + 1) r' (List.mem_of_head? h)).1]; rfl
    split
    · refine ⟨b1, key' _ _ rfl rfl ?_ ?_, hr h3 _⟩ <;>
        simp [TrieRow.nodeHash, domainHash, b2, Trie.hash]
    · refine ⟨b1, key' _ _ rfl rfl ?_ ?_, hl h2 _⟩ <;>
        simp [TrieRow.nodeHash, domainHash, b2, Trie.hash]

theorem pathRows_end (key d : Fr) (t : Trie) : ∀ i, t.getFrom key i = some d →
    endHashes (t.hash H, t.hash H) (pathRows H key i t) =
      (H key d HashDomain.Leaf.toFr, H key d HashDomain.Leaf.toFr) := by
  induction t with
  | empty => intro i h; cases h
  | leaf k e =>
    intro i h
    rw [Trie.getFrom] at h
    split at h
    · rename_i hk
      cases h
      subst hk
      rfl
    · cases h
  | node e l r hl hr =>
    intro i h
    rw [Trie.getFrom] at h
    rw [pathRows]
    cases hb : keyBit key i <;> rw [hb] at h
    · rw [if_neg (by simp), endHashes_cons]
      exact hl _ h
    · rw [if_pos rfl, endHashes_cons]
      exact hr _ h

theorem pathRows_direction (key : Fr) (t : Trie) : ∀ i j (row : TrieRow),
    (pathRows H key i t)[j]? = some row → row.direction = keyBit key (i + j) := by
  induction t with
  | empty => intro i j row h; simp [pathRows] at h
  | leaf k e => intro i j row h; simp [pathRows] at h
  | node e l r hl hr =>
    intro i j row h
    rw [pathRows] at h
    cases hb : keyBit key i <;> rw [hb] at h
    · rw [if_neg (by simp)] at h
      cases j with
      | zero => simp at h; rw [← h]; simpa using hb.symm
      | succ j =>
        rw [List.getElem?_cons_succ] at h
        rw [hl _ _ _ h]; congr 1; omega
    · rw [if_pos rfl] at h
      cases j with
      | zero => simp at h; rw [← h]; simpa using hb.symm
      | succ j =>
        rw [List.getElem?_cons_succ] at h
        rw [hr _ _ _ h]; congr 1; omega

/-- The hash inputs of a row. -/
def rowInput (row : TrieRow) : Fr × Fr × Fr :=
  (leftOf row.direction row.sibling row.old, rightOf row.direction row.sibling row.old, row.domain.toFr)

theorem pathRows_lookups (key : Fr) (t : Trie) : ∀ i, ∃ l, triePoseidonLookups H (pathRows H key i t) = some l ∧
    ∀ e ∈ l, ∃ row ∈ pathRows H key i t, (e.1, e.2.1, e.2.2.1.toFr) = rowInput row ∧
      e.2.2.2 = H e.1 e.2.1 e.2.2.1.toFr := by
  induction t with
  | empty => intro i; exact ⟨[], rfl, by simp⟩
  | leaf k d => intro i; exact ⟨[], rfl, by simp⟩
  | node d l r hl hr =>
    intro i
    have step : ∀ (row : TrieRow) (c : Trie), row.pathType = .Common → row.old = row.new →
        (∃ l, triePoseidonLookups H (pathRows H key (i + 1) c) = some l ∧
          ∀ e ∈ l, ∃ row ∈ pathRows H key (i + 1) c, (e.1, e.2.1, e.2.2.1.toFr) = rowInput row ∧
            e.2.2.2 = H e.1 e.2.1 e.2.2.1.toFr) →
        ∃ l, triePoseidonLookups H (row :: pathRows H key (i + 1) c) = some l ∧
          ∀ e ∈ l, ∃ row' ∈ row :: pathRows H key (i + 1) c, (e.1, e.2.1, e.2.2.1.toFr) = rowInput row' ∧
            e.2.2.2 = H e.1 e.2.1 e.2.2.1.toFr := by
      rintro row c e1 e2 ⟨l, h1, h2⟩
      have hrow : row.poseidonLookups H (pathRows H key (i + 1) c).head? =
          some [row.trace H row.old row.domain, row.trace H row.new row.domain] := by
        unfold TrieRow.poseidonLookups
        rw [e1]
        dsimp only
        cases h : (pathRows H key (i + 1) c).head? with
        | none => rfl
        | some r' =>
          dsimp only
          rw [(pathRows_mem key c (i + 1) r' (List.mem_of_head? h)).1]
          rfl
      refine ⟨[row.trace H row.old row.domain, row.trace H row.new row.domain] ++ l, ?_, ?_⟩
      · simp only [triePoseidonLookups, hrow, h1, Option.bind_eq_bind, Option.bind_some]; rfl
      · have ht : ((row.trace H row.old row.domain).1, (row.trace H row.old row.domain).2.1,
            (row.trace H row.old row.domain).2.2.1.toFr) = rowInput row ∧
            (row.trace H row.old row.domain).2.2.2 = H (row.trace H row.old row.domain).1
              (row.trace H row.old row.domain).2.1 (row.trace H row.old row.domain).2.2.1.toFr := by
          unfold TrieRow.trace rowInput leftOf rightOf
          cases row.direction <;> exact ⟨rfl, rfl⟩
        intro e he
        rcases List.mem_append.1 he with he | he
        · simp only [List.mem_cons, List.not_mem_nil, or_false] at he
          rcases he with rfl | rfl
          · exact ⟨row, by simp, ht⟩
          · rw [← e2]; exact ⟨row, by simp, ht⟩
        · obtain ⟨row', m, h⟩ := h2 e he
          exact ⟨row', List.mem_cons_of_mem _ m, h⟩
    rw [pathRows]
    split
    · exact step _ _ rfl rfl (hr _)
    · exact step _ _ rfl rfl (hl _)

/-- The proof that the attack would have to produce. Its traces of account hashes are all zero. -/
def absenceProof (H : HashFn) (t : Trie) (adr : List ℕ) (kind : ClaimKind) (key data : Fr) : Proof where
  claim := ⟨t.hash H, t.hash H, adr, kind⟩
  addressHashTraces := ((pathRows H key 0 t).map toHashRow).reverse
  leafs := (none, none)
  oldTraces := emptyAccountHashTraces H none
  newTraces := emptyAccountHashTraces H none
  storage := .Root 0
  old := ⟨key, some data⟩
  new := ⟨key, some data⟩
  oldAccount := none
  newAccount := none
  accountTrieRows := pathRows H key 0 t

variable {t : Trie} {adr : List ℕ} {kind : ClaimKind} {key data : Fr}

theorem absence_ready (ht : t.Branching) (hk : EmptyKind kind) (hget : t.get key = some data)
    (hne : key ≠ accountKey H adr) (h0 : H key data HashDomain.Leaf.toFr ≠ 0) :
    AbsentReady H (absenceProof H t adr kind key data) where
  acc := ⟨pathRows_honest key t ht 0, rfl, pathRows_end key data t 0 hget⟩
  noOld := rfl
  noNew := rfl
  kind := hk
  same := fun row hm => (pathRows_mem key t 0 row hm).2
  roots := rfl
  paths := rfl
  leaf := .inr ⟨data, rfl, hne, h0⟩

/-- Every request for a bit is for a bit of `key`, in the name of `key` or of the account's key. -/
theorem absence_bits (rows : List TrieRow) : ∀ (i : ℕ),
    (∀ j row, rows[j]? = some row → row.direction = keyBit key (i + j)) →
    (∀ row ∈ rows, row.pathType = .Common) →
    ∃ bs, rowsBits H (absenceProof H t adr kind key data) i (rows.map toHashRow) = some bs ∧
      ∀ q ∈ bs, (q.1 = key ∨ q.1 = accountKey H adr) ∧ i ≤ q.2.1 ∧ q.2.1 < i + rows.length ∧
        q.2.2 = keyBit key q.2.1 := by
  induction rows with
  | nil => intro i _ _; exact ⟨[], rfl, by simp⟩
  | cons row rows ih =>
    intro i hd hc
    obtain ⟨bs, h1, h2⟩ := ih (i + 1) (fun j r h => by
      have := hd (j + 1) r (by rw [List.getElem?_cons_succ]; exact h)
      rw [this]; congr 1; omega) (fun r hr => hc r (List.mem_cons_of_mem _ hr))
    have hrow : row.direction = keyBit key i := by
      have := hd 0 row rfl
      simpa using this
    have hbits : ∃ l, rowBits H (absenceProof H t adr kind key data) i (toHashRow row) = some l ∧
        ∀ q ∈ l, (q.1 = key ∨ q.1 = accountKey H adr) ∧ q.2.1 = i ∧ q.2.2 = keyBit key i := by
      have hp : (toHashRow row).paddingOpen = false ∧ (toHashRow row).paddingClose = false := by
        have := hc row (by simp)
        simp [toHashRow, this]
      refine ⟨_, by unfold rowBits; rw [hp.1, hp.2], ?_⟩
      intro q hq
      rcases List.mem_append.1 hq with hq | hq
      · simp only [List.mem_cons, List.not_mem_nil, or_false] at hq
        rcases hq with rfl | rfl <;> exact ⟨.inl rfl, rfl, hrow⟩
      · split at hq
        · cases hq
        · rw [List.mem_singleton] at hq
          subst hq
          exact ⟨.inr rfl, rfl, hrow⟩
    obtain ⟨l, g1, g2⟩ := hbits
    refine ⟨l ++ bs, ?_, ?_⟩
    · rw [List.map_cons, rowsBits, g1, h1]; rfl
    · intro q hq
      rcases List.mem_append.1 hq with hq | hq
      · obtain ⟨a1, a2, a3⟩ := g2 q hq
        refine ⟨a1, by omega, by rw [List.length_cons]; omega, ?_⟩
        rw [a3, a2]
      · obtain ⟨a1, a2, a3, a4⟩ := h2 q hq
        exact ⟨a1, by omega, by rw [List.length_cons]; omega, a4⟩

/-- The requests for bits of `key`. -/
def keyRequests (key : Fr) (k : ℕ) : List KeyBit.Req := (List.range k).map fun i => (key, i, keyBit key i)

/-- The hash inputs of the attack. -/
def absencePos (H : HashFn) (t : Trie) (adr : List ℕ) (key data : Fr) : List (Fr × Fr × Fr) :=
  (0, 0, HashDomain.Pair.toFr) :: (0, 0, HashDomain.AccountFields.toFr) :: (0, 0, HashDomain.Leaf.toFr) ::
  (((addressHigh adr : ℕ) : Fr), ((addressLow adr <<< 96 : ℕ) : Fr), HashDomain.Pair.toFr) ::
  (key, data, HashDomain.Leaf.toFr) :: (pathRows H key 0 t).map rowInput

theorem absencePos_mem : (0, 0, HashDomain.Pair.toFr) ∈ absencePos H t adr key data ∧
    (0, 0, HashDomain.AccountFields.toFr) ∈ absencePos H t adr key data ∧
    (0, 0, HashDomain.Leaf.toFr) ∈ absencePos H t adr key data ∧
    (((addressHigh adr : ℕ) : Fr), ((addressLow adr <<< 96 : ℕ) : Fr), HashDomain.Pair.toFr) ∈
      absencePos H t adr key data ∧
    (key, data, HashDomain.Leaf.toFr) ∈ absencePos H t adr key data :=
  ⟨.head _, .tail _ (.head _), .tail _ (.tail _ (.head _)), .tail _ (.tail _ (.tail _ (.head _))),
    .tail _ (.tail _ (.tail _ (.tail _ (.head _))))⟩

/-- The circuit of the attack, before the forgery: all requests are for `key`. -/
def absenceCircuit (H : HashFn) (ρ : Fr) (n : ℕ) (t : Trie) (adr : List ℕ) (key data : Fr)
    (run : List URow) : Assembly where
  H := H
  ρ := ρ
  n := n
  rows := [run].flatten ++ List.replicate (n - 1 - run.length) (.padding H)
  strings := [List.replicate 16 0, beBytes 16 (addressHigh adr), beBytes 4 (addressLow adr)]
  keys := [0, accountKey H adr, key, t.hash H]
  reqs := keyRequests key (t.pathLength key 0) ++ keyRequests key (t.pathLength key 0)
  pos := absencePos H t adr key data
  table := posTable H (absencePos H t adr key data)

theorem absence_fits {ρ : Fr} {n U : ℕ} {run : List URow} (hn : 2080 ≤ n) (hU : n + 2 ≤ U)
    (hU' : U ≤ 2 ^ 64) (hd : t.pathLength key 0 ≤ 256) :
    (absenceCircuit H ρ n t adr key data run).TablesFit U := by
  have hstr : ∀ k x, 0 < k → k < 32 → IsBytes (beBytes k x) ∧ beBytes k x ≠ [] ∧
      (beBytes k x).length < 2 ^ 64 := by
    intro k x h1 h2
    refine ⟨isBytes_beBytes k x, ?_, by rw [beBytes_length]; omega⟩
    exact List.ne_nil_of_length_pos (by rw [beBytes_length]; exact h1)
  refine ⟨?_, ?_, hU', ?_, ?_, ?_, by simp [absenceCircuit], ?_, ?_, ?_, ?_, by intro t ht; cases ht⟩
  · show ByteBit.nRowsRequired ≤ n; unfold ByteBit.nRowsRequired; omega
  · show n ≤ U; omega
  · intro s hs
    simp only [absenceCircuit, List.mem_cons, List.not_mem_nil, or_false] at hs
    rcases hs with rfl | rfl | rfl
    · exact ⟨by unfold IsBytes; decide, by simp, by simp⟩
    · exact hstr _ _ (by norm_num) (by norm_num)
    · exact hstr _ _ (by norm_num) (by norm_num)
  · show 1 + ByteRep.total _ ≤ n
    simp [absenceCircuit, ByteRep.total]; omega
  · show 4 ≤ n / 32 - 1; omega
  · intro q hq
    simp only [absenceCircuit, keyRequests, List.mem_append, List.mem_map, List.mem_range, or_self] at hq
    obtain ⟨i, hi, rfl⟩ := hq
    exact ⟨by show i < 256; omega, rfl⟩
  · intro q hq
    simp only [absenceCircuit, keyRequests, List.mem_append, List.mem_map, List.mem_range, or_self] at hq
    obtain ⟨i, hi, rfl⟩ := hq
    simp [absenceCircuit]
  · show 1 + (keyRequests key (t.pathLength key 0) ++ keyRequests key (t.pathLength key 0)).length ≤ n
    simp [keyRequests]; omega
  · refine posTable_fits _ _ _ ?_
    simp only [absencePos, List.length_cons, List.length_map, pathRows_length]
    omega

/-- The kinds of claims that the attack can make. -/
def attackKind : ClaimKind → Prop
  | .IsEmpty (some _) => False
  | k => EmptyKind k

theorem attackKind.empty {k : ClaimKind} (h : attackKind k) : EmptyKind k := by
  unfold attackKind at h
  split at h
  · exact absurd h id
  · exact h

/-- The claims of these kinds. -/
theorem attackKind.claim {k : ClaimKind} (h : attackKind k) (old new : Fr) (adr : List ℕ) :
    (Claim.mk old new adr k).storageKey = 0 ∧
    proofU128s (absenceProof H t adr k key data) = some [addressHigh adr] := by
  unfold attackKind at h
  split at h
  · exact absurd h id
  · rename_i hk
    cases h with
    | isEmpty s =>
      cases s with
      | none => exact ⟨rfl, rfl⟩
      | some s => exact absurd rfl (hk s)
    | _ => exact ⟨rfl, rfl⟩

theorem kind_of_type {type : MPTProofType} (h : type ∈ [MPTProofType.NonceChanged, .BalanceChanged,
    .CodeHashExists, .CodeSizeExists, .AccountDoesNotExist]) : ∃ k, attackKind k ∧ k.proofType = type := by
  simp only [List.mem_cons, List.not_mem_nil, or_false] at h
  rcases h with rfl | rfl | rfl | rfl | rfl
  · exact ⟨.Nonce (some 0) (some 0), .nonce, rfl⟩
  · exact ⟨.Balance (some 0) (some 0), .balance, rfl⟩
  · exact ⟨.CodeHash (some 0) (some 0), .codeHash, rfl⟩
  · exact ⟨.CodeSize (some 0) (some 0), .codeSize, rfl⟩
  · exact ⟨.IsEmpty none, .isEmpty none, rfl⟩

theorem absence_run {ρ : Fr} {run : List URow} (hk : attackKind kind)
    (hrun : assignSingleProof H ρ (absenceProof H t adr kind key data) = some run) :
    run.length = 1 + t.pathLength key 0 ∧ ∃ u us, run = u :: us ∧
      IsStart H ρ (absenceProof H t adr kind key data) key u ∧ Claims kind.proofType 0 0 0 u := by
  obtain ⟨body, hb, rfl⟩ := assignSingleProof_eq rfl hrun
  have hl := bodyURows_length H ρ _ (by simp [absenceProof]) body hb
  refine ⟨?_, ?_⟩
  · rw [List.length_map, hl]
    simp [Proof.nRows, absenceProof, pathRows_length]
  · obtain ⟨other, h1, hb⟩ := Option.bind_eq_some_iff.1 hb
    obtain ⟨trie, h2, hb⟩ := Option.bind_eq_some_iff.1 hb
    obtain ⟨_, -, hb⟩ := Option.bind_eq_some_iff.1 hb
    rw [if_pos (by rfl)] at hb
    cases hb
    have hok : other.1 = key := by
      unfold otherLeaf at h1
      dsimp only at h1
      have key' : ∀ d : Fr, some (key, d) = some other → other.1 = key := by
        intro d h; rw [← Option.some.inj h]
      split at h1
      · split at h1
        · exact key' data h1
        · cases h1
      · split at h1
        · exact key' data h1
        · exact key' data h1
    have hcl : ∀ u : URow, Claims kind.proofType 0 0 0 (u.withBase ρ (absenceProof H t adr kind key data).claim) := by
      intro u
      have := claims_base ρ (absenceProof H t adr kind key data).claim u
      have e1 : (absenceProof H t adr kind key data).claim.storageKey = 0 := (attackKind.claim (H := H)
        (t := t) (key := key) (data := data) hk _ _ adr).1
      have e2 := EmptyKind.values (c := (absenceProof H t adr kind key data).claim) hk.empty ρ
      rw [e1, e2.1, e2.2] at this
      have e3 : rlcFold (u256ToBigEndian 0) ρ = 0 := by
        unfold u256ToBigEndian; exact rlcFold_zero 32 ρ
      rw [e3] at this
      exact this
    rw [hok]
    cases trie with
    | nil => exact ⟨_, [], rfl, ((isStart_row ρ _ key).absence _ _ _).base _, hcl _⟩
    | cons v l => exact ⟨_, _, rfl, (isStart_row ρ _ key).base _, hcl _⟩


/-- The forged witness. -/
def absenceWitness (H : HashFn) (ρ : Fr) (n : ℕ) (t : Trie) (adr : List ℕ) (key data : Fr)
    (run : List URow) : Witness Fr :=
  (absenceCircuit H ρ n t adr key data run).hidden (accountKey H adr) key
    (((1 + t.pathLength key 0 : ℕ) : ℤ)) (((1 + 2 * t.pathLength key 0 : ℕ) : ℤ))

section
variable {ρ : Fr} {n U : ℕ} {run : List URow}

theorem keyRequests_getElem? (k i : ℕ) (h : i < k) : (keyRequests key k)[i]? = some (key, i, keyBit key i) := by
  simp [keyRequests, h]

theorem absence_req (i : ℕ) (hi : i < t.pathLength key 0) :
    KeyBit.reqAt 1 (absenceCircuit H ρ n t adr key data run).reqs ((i : ℤ) + 1) = (key, i, keyBit key i) ∧
    KeyBit.reqAt 1 (absenceCircuit H ρ n t adr key data run).reqs
      (((1 + t.pathLength key 0 + i : ℕ)) : ℤ) = (key, i, keyBit key i) := by
  have hlen : (keyRequests key (t.pathLength key 0)).length = t.pathLength key 0 := by simp [keyRequests]
  constructor
  · unfold KeyBit.reqAt
    rw [if_pos (by omega)]
    have : ((i : ℤ) + 1 - 1).toNat = i := by omega
    rw [this, show (absenceCircuit H ρ n t adr key data run).reqs = keyRequests key (t.pathLength key 0) ++
      keyRequests key (t.pathLength key 0) from rfl, List.getElem?_append_left (by omega),
      keyRequests_getElem? _ _ hi]
    rfl
  · unfold KeyBit.reqAt
    rw [if_pos (by omega)]
    have : ((((1 + t.pathLength key 0 + i : ℕ)) : ℤ) - 1).toNat = t.pathLength key 0 + i := by omega
    rw [this, show (absenceCircuit H ρ n t adr key data run).reqs = keyRequests key (t.pathLength key 0) ++
      keyRequests key (t.pathLength key 0) from rfl, List.getElem?_append_right (by omega), hlen,
      Nat.add_sub_cancel_left, keyRequests_getElem? _ _ hi]
    rfl

theorem absence_hidden (hn : 2080 ≤ n) (hd : t.pathLength key 0 ≤ 256)
    (hb : (accountKey H adr).val % 256 = key.val % 256) :
    Assembly.HiddenOK (absenceCircuit H ρ n t adr key data run) (accountKey H adr) key
      (((1 + t.pathLength key 0 : ℕ) : ℤ)) (((1 + 2 * t.pathLength key 0 : ℕ) : ℤ)) where
  serial := rfl
  reqs := by
    intro r h1 h2
    obtain ⟨i, hi⟩ : ∃ i : ℕ, r = (((1 + t.pathLength key 0 + i : ℕ)) : ℤ) :=
      ⟨(r - ((1 + t.pathLength key 0 : ℕ) : ℤ)).toNat, by omega⟩
    subst hi
    rw [(absence_req i (by omega)).2]
  one := by omega
  fits := by show _ ≤ (n : ℤ); omega
  key := by simp [absenceCircuit]
  byte := hb

theorem absence_serves (ht : t.Branching) (hk : attackKind kind) (hadr : IsBytes adr) (hal : adr.length = 20)
    (hget : t.get key = some data) (hn : 2080 ≤ n) (hU : n + 2 ≤ U) (hU' : U ≤ 2 ^ 64)
    (hd : t.pathLength key 0 ≤ 256) (hb : (accountKey H adr).val % 256 = key.val % 256) :
    Serves H (absenceWitness H ρ n t adr key data run) U ρ (absenceProof H t adr kind key data) := by
  set A := absenceCircuit H ρ n t adr key data run with hA
  have hf : A.TablesFit U := absence_fits hn hU hU' hd
  have hH := absence_hidden (H := H) (ρ := ρ) (t := t) (adr := adr) (key := key) (data := data) (run := run)
    (n := n) hn hd hb
  have hP : ∀ l r d, (l, r, d) ∈ absencePos H t adr key data →
      P1 (absenceWitness H ρ n t adr key data run) U l r d (H l r d) :=
    fun l r d h => Assembly.posServed hf h
  obtain ⟨hhigh, hlow, hsum, -⟩ : addressHigh adr < 256 ^ 16 ∧ addressLow adr < 256 ^ 4 ∧ True ∧ True := by
    obtain ⟨h1, h2, h3, h4, -⟩ := c48_account_key H adr hadr hal
    refine ⟨?_, ?_, trivial, trivial⟩
    · rw [h3]
      have : beVal adr / 2 ^ 32 < 2 ^ 128 := Nat.div_lt_of_lt_mul (by rw [← pow_add]; exact h1)
      norm_num at this ⊢; omega
    · rw [h4]
      have := Nat.mod_lt (beVal adr) (show 0 < 2 ^ 32 by norm_num)
      norm_num at this ⊢; omega
  have hstr : ∀ k x, beBytes (k + 1) x ∈ A.strings → x < 256 ^ (k + 1) →
      InRlc (absenceWitness H ρ n t adr key data run) U (x : Fr) (k : Fr) (rlcFold (beBytes (k + 1) x) ρ) := by
    intro k x hm hx
    have : InRlc (absenceWitness H ρ n t adr key data run) U ((beVal (beBytes (k + 1) x) : ℕ) : Fr)
        (((beBytes (k + 1) x).length - 1 : ℕ) : Fr) (Spec.rlc ρ (beBytes (k + 1) x)) :=
      Assembly.rlcServed hf hm
    rwa [beVal_beBytes _ _ hx, beBytes_length, Nat.add_sub_cancel, ← c47_rlc_eq] at this
  refine ⟨rfl, ?_, ?_, ?_, ?_, ?_, ?_, ?_⟩
  · obtain ⟨l, h1, h2⟩ := pathRows_lookups (H := H) key t 0
    refine ⟨_, by
      rw [proofEntries, show (absenceProof H t adr kind key data).accountTrieRows = pathRows H key 0 t from rfl,
        h1, show (absenceProof H t adr kind key data).storage = .Root 0 from rfl]
      rfl, ?_⟩
    intro e he
    have hz : ∀ e ∈ tracesEntries H (emptyAccountHashTraces H none),
        P1 (absenceWitness H ρ n t adr key data run) U e.1.1 e.1.2 e.2.1 e.2.2 := by
      intro e he
      obtain ⟨q, hq, he⟩ := List.mem_flatMap.1 he
      have hq0 : q = (0, 0, 0) := by
        simp only [emptyAccountHashTraces, List.mem_cons, List.not_mem_nil, or_false, or_self] at hq
        exact hq
      subst hq0
      unfold tripleEntry at he
      dsimp only at he
      split at he
      · rename_i h
        rw [List.mem_singleton] at he
        subst he
        have := hP 0 0 HashDomain.AccountFields.toFr absencePos_mem.2.1
        rwa [show H 0 0 HashDomain.AccountFields.toFr = 0 from h] at this
      · split at he
        · rename_i h
          rw [List.mem_singleton] at he
          subst he
          have := hP 0 0 HashDomain.Leaf.toFr absencePos_mem.2.2.1
          rwa [show H 0 0 HashDomain.Leaf.toFr = 0 from h] at this
        · split at he
          · rename_i h
            rw [List.mem_singleton] at he
            subst he
            have := hP 0 0 HashDomain.Pair.toFr absencePos_mem.1
            rwa [show H 0 0 HashDomain.Pair.toFr = 0 from h] at this
          · cases he
    have hleaf : ∀ e ∈ leafEntry H ⟨key, some data⟩,
        P1 (absenceWitness H ρ n t adr key data run) U e.1.1 e.1.2 e.2.1 e.2.2 := by
      intro e he
      rw [leafEntry, List.mem_singleton] at he
      subst he
      exact hP key data HashDomain.Leaf.toFr absencePos_mem.2.2.2.2
    simp only [List.mem_append] at he
    rcases he with (((((he | he) | he) | he) | he) | he) | he
    · obtain ⟨x, hx, rfl⟩ := List.mem_map.1 he
      obtain ⟨row, hr, e1, e2⟩ := h2 x hx
      have hm : (x.1, x.2.1, x.2.2.1.toFr) ∈ absencePos H t adr key data := by
        rw [e1]
        simp only [absencePos, List.mem_cons]
        exact .inr (.inr (.inr (.inr (.inr (List.mem_map_of_mem hr)))))
      have := hP _ _ _ hm
      rw [← e2] at this
      exact this
    · simp at he
    · rw [List.mem_singleton] at he
      subst he
      exact hP _ _ HashDomain.Pair.toFr absencePos_mem.2.2.2.1
    · exact hleaf e he
    · exact hleaf e he
    · exact hz e he
    · exact hz e he
  · obtain ⟨bs, h1, h2⟩ := absence_bits (H := H) (t := t) (adr := adr) (kind := kind) (data := data)
      (pathRows H key 0 t) 0 (fun j row h => pathRows_direction key t 0 j row h)
      (fun row h => (pathRows_mem key t 0 row h).1)
    refine ⟨_, by
      rw [proofBits, show (absenceProof H t adr kind key data).addressHashTraces.reverse =
        (pathRows H key 0 t).map toHashRow from List.reverse_reverse _, h1]
      rfl, ?_⟩
    intro q hq
    have hq : q ∈ bs := by
      rcases List.mem_append.1 hq with hq | hq
      · exact hq
      · cases hq
    obtain ⟨g1, -, g2, g3⟩ := h2 q hq
    rw [pathRows_length, zero_add] at g2
    have hbit : ∀ x : Fr, (x = key ∨ x = accountKey H adr) →
        InKeyBit (absenceWitness H ρ n t adr key data run) U x ((q.2.1 : ℕ) : Fr) (bitFr (keyBit key q.2.1)) := by
      intro x hx
      obtain ⟨r1, r2⟩ := absence_req (H := H) (ρ := ρ) (n := n) (adr := adr) (data := data) (run := run)
        (t := t) (key := key) q.2.1 g2
      rcases hx with rfl | rfl
      · have := Assembly.hidden_bit hH (by show n ≤ U; omega) ((q.2.1 : ℤ) + 1) (by omega)
          (by show _ < (n : ℤ); omega)
        rw [r1, if_neg (by push_cast; omega)] at this
        exact this
      · have := Assembly.hidden_bit hH (by show n ≤ U; omega) (((1 + t.pathLength key 0 + q.2.1 : ℕ)) : ℤ)
          (by omega) (by show _ < (n : ℤ); omega)
        rw [r2, if_pos (by push_cast; omega)] at this
        exact this
    rw [g3]
    exact hbit _ g1
  · intro x hx
    have hx : x ∈ A.keys := by
      simp only [proofKeys, absenceProof, StorageProof.keyLookups, List.mem_append, List.mem_cons,
        List.not_mem_nil, or_false] at hx
      simp only [hA, absenceCircuit, List.mem_cons, List.not_mem_nil, or_false]
      tauto
    rw [c47_rlc_eq]
    exact (Assembly.hidden_served hf hx).2
  · have := hstr 3 (addressLow adr) (by simp [hA, absenceCircuit]) hlow
    exact_mod_cast bytes_of_rlc this
  · intro x hx
    exfalso
    unfold proofU64s at hx
    split at hx <;> cases hx
  · refine ⟨_, (attackKind.claim hk 0 0 adr).2, ?_⟩
    intro x hx
    rw [List.mem_singleton] at hx
    subst hx
    have := hstr 15 (addressHigh adr) (by simp [hA, absenceCircuit]) hhigh
    exact ⟨by exact_mod_cast bytes_of_rlc this, by exact_mod_cast this⟩
  · intro x hx
    exfalso
    unfold proofFrs at hx
    split at hx <;> cases hx

theorem absence_padding (hn : 2080 ≤ n) (hU : n + 2 ≤ U) (hU' : U ≤ 2 ^ 64)
    (hd : t.pathLength key 0 ≤ 256) :
    RunSat H (absenceWitness H ρ n t adr key data run) U [.padding H] := by
  set A := absenceCircuit H ρ n t adr key data run with hA
  have hf : A.TablesFit U := absence_fits hn hU hU' hd
  have hpre : ∀ j : ℕ, j < 16 → InRlc (absenceWitness H ρ n t adr key data run) U 0 (j : Fr) 0 := by
    intro j hj
    have : InRlc (absenceWitness H ρ n t adr key data run) U
        ((beVal ((List.replicate 16 (0 : ℕ)).take (j + 1)) : ℕ) : Fr) (j : Fr)
        (Spec.rlc ρ ((List.replicate 16 (0 : ℕ)).take (j + 1))) :=
      Assembly.prefixServed hf (s := List.replicate 16 0) (by simp [hA, absenceCircuit]) j (by simpa using hj)
    rw [List.take_replicate, beVal_zeros, rlc_replicate_zero] at this
    simpa using this
  refine padding_sat (Assembly.posServed hf (show (0, 0, HashDomain.Pair.toFr) ∈
    absencePos H t adr key data from absencePos_mem.1)) (by simpa using bytes_of_rlc (hpre 15 (by norm_num)))
    (by simpa using bytes_of_rlc (hpre 3 (by norm_num))) ?_
  have : InFrRlc (absenceWitness H ρ n t adr key data run) U 0 (Spec.rlc ρ (frBytes 0)) :=
    (Assembly.hidden_served hf (x := 0) (by simp [hA, absenceCircuit])).2
  rwa [Canonical.frBytes_zero, rlc_replicate_zero] at this

end

/-- **C56, C53 (false as stated, finding B2):** if `n_rows` is a multiple of 32, then every account of a
state can be presented as an absent one, with the state's own root and for whatever challenge, as soon as
some other account's key ends in the same byte. -/
theorem c56_false_absent (H : HashFn) (ρ : Fr) {n U : ℕ} (h32 : n % 32 = 0) (hn : 2080 ≤ n) (hU : n + 2 ≤ U)
    (hU' : U ≤ 2 ^ 64) {t : Trie} (ht : t.Branching) {adr : List ℕ} (hadr : IsBytes adr)
    (hal : adr.length = 20) {key data : Fr} (hget : t.get key = some data)
    (hne : key ≠ addressKey H (beVal adr)) (hb : key.val % 256 = (addressKey H (beVal adr)).val % 256)
    (hd : t.pathLength key 0 ≤ 256) (h0 : H key data HashDomain.Leaf.toFr ≠ 0)
    {type : MPTProofType} (htype : type ∈ [MPTProofType.NonceChanged, .BalanceChanged, .CodeHashExists,
      .CodeSizeExists, .AccountDoesNotExist]) :
    ∃ w, w.chal = ρ ∧ Accepted H n U w ∧
      Exposes w U type ((beVal adr : ℕ) : Fr) 0 (rootRlc ρ (t.hash H)) (rootRlc ρ (t.hash H)) 0 0 := by
  obtain ⟨-, hsplit, -, -, hak⟩ := c48_account_key H adr hadr hal
  have hak : accountKey H adr = addressKey H (beVal adr) := by rw [hak]; rfl
  rw [← hak] at hne hb
  obtain ⟨kind, hk, rfl⟩ := kind_of_type htype
  have hR := absence_ready (H := H) (adr := adr) ht hk.empty hget hne h0
  obtain ⟨run, hrun⟩ := assign_of_body (body_absent_some (ρ := ρ) hR)
  obtain ⟨hlen, u, us, hu, hst, hcl⟩ := absence_run hk hrun
  set A := absenceCircuit H ρ n t adr key data run with hA
  have hf : A.TablesFit U := absence_fits hn hU hU' hd
  have hS := absence_serves (H := H) (ρ := ρ) (run := run) ht hk hadr hal hget hn hU hU' hd hb.symm
  have hsat := run_sat_absent hS hR hrun
  have hpad := absence_padding (H := H) (ρ := ρ) (t := t) (adr := adr) (key := key) (data := data) (run := run)
    hn hU hU' hd
  have hrows : A.rows = [run].flatten ++ List.replicate (n - 1 - run.length) (.padding H) := rfl
  have hl : A.rows.length = A.n - 1 := by
    rw [hrows]
    show _ = n - 1
    simp only [List.length_append, List.flatten_cons, List.flatten_nil, List.append_nil, List.length_replicate]
    omega
  have hat := Assembly.hidden_atRow (a := A) (v := accountKey H adr) (b := key)
    (s := (((1 + t.pathLength key 0 : ℕ) : ℤ))) (e := (((1 + 2 * t.pathLength key 0 : ℕ) : ℤ)))
  have hacc : Accepted H n U (absenceWitness H ρ n t adr key data run) :=
    Assembly.hidden_accepted hf h32 (absence_hidden hn hd hb.symm) hU hl
      (rowAt_last (by show 2 ≤ n; omega) _ (n - 1 - run.length) (by omega) hrows hl)
      (rowRel_of_runs hat _ (n - 1 - run.length) hrows hpad
        (fun run' hr => by rw [List.mem_singleton] at hr; rw [hr]; exact hsat))
  refine ⟨_, rfl, hacc, 1, ⟨by norm_num, by omega⟩, ?_⟩
  have hat1 : AtRow (absenceWitness H ρ n t adr key data run) 1 u := by
    have h1 := hat 1
    have h2 := rowAt_succ A.rows 0
    simp only [Nat.cast_zero, zero_add] at h2
    rw [h2, hrows, hu] at h1
    exact h1
  have h1 : segAt (absenceWitness H ρ n t adr key data run) 1 = .Start := by
    have := hat1.seg
    rw [hst.seg] at this
    exact OneHot.repr_unique _ _ _ _ this
  have h2 : proofAt (absenceWitness H ρ n t adr key data run) 1 = kind.proofType := by
    have := hat1.proof
    rw [hcl.proof] at this
    exact OneHot.repr_unique _ _ _ _ this
  rw [hacc.exposed_eq ⟨by norm_num, by omega⟩, if_pos h1, h2, hat1.iv, hat1.iv, hat1.storageKeyRlc,
    hat1.sp, hat1.sp, hat1.oldValue, hat1.newValue, hst.iv0, hst.iv1, hst.sp0, hst.sp1, hcl.slot, hcl.old,
    hcl.new]
  have e : ((addressHigh adr : ℕ) : Fr) * ((2 ^ 32 : ℕ) : Fr) + ((addressLow adr : ℕ) : Fr) =
      ((beVal adr : ℕ) : Fr) := by
    rw [← Nat.cast_mul, ← Nat.cast_add, hsplit]
  rw [show (absenceProof H t adr kind key data).claim.address = adr from rfl, e, c47_rlc_eq, c47_rlc_eq]
  rfl

theorem pathLength_le (key : Fr) (t : ZkTrie) : ∀ i, i ≤ 256 → t.WFFrom i →
    t.trie.pathLength key i ≤ 256 - i := by
  induction t with
  | empty => intro i _ _; exact Nat.zero_le _
  | leaf k d => intro i _ _; exact Nat.zero_le _
  | node l r hl hr =>
    intro i _ hw
    obtain ⟨h1, -, -, -, -, h2, h3⟩ := hw
    rw [ZkTrie.trie, Trie.pathLength]
    have a1 := hl (i + 1) (by omega) h2
    have a2 := hr (i + 1) (by omega) h3
    cases keyBit key i
    · rw [cond_false]; omega
    · rw [cond_true]; omega

/-- **C53 (false as stated, finding B2):** in every state with two accounts whose keys end in the same byte,
either of them can be proved not to exist if `n_rows` is a multiple of 32. -/
theorem c53_false_absent (H : HashFn) (ρ : Fr) {n U : ℕ} (h32 : n % 32 = 0) (hn : 2080 ≤ n) (hU : n + 2 ≤ U)
    (hU' : U ≤ 2 ^ 64) {W : World} (hW : W.OK H) {adr other : List ℕ} (hadr : IsBytes adr ∧ adr.length = 20)
    {a b : AcctState} (ha : W.accounts (accountKey H adr) = some a)
    (hb : W.accounts (accountKey H other) = some b)
    (hne : accountKey H other ≠ accountKey H adr)
    (hbyte : (accountKey H other).val % 256 = (accountKey H adr).val % 256)
    (h0 : H (accountKey H other) (b.leafData H) HashDomain.Leaf.toFr ≠ 0) :
    W.accounts (accountKey H adr) ≠ none ∧ ∃ w, w.chal = ρ ∧ Accepted H n U w ∧
      Exposes w U .AccountDoesNotExist ((beVal adr : ℕ) : Fr) 0 (rootRlc ρ (W.trie.hash H))
        (rootRlc ρ (W.trie.hash H)) 0 0 := by
  obtain ⟨-, -, -, -, hak⟩ := c48_account_key H adr hadr.1 hadr.2
  have hak : accountKey H adr = addressKey H (beVal adr) := by rw [hak]; rfl
  have hget : W.trie.trie.get (accountKey H other) = some (b.leafData H) := by
    have := hW.accounts (accountKey H other)
    rw [hb] at this
    exact this
  refine ⟨by rw [ha]; simp, ?_⟩
  rw [hak] at hne hbyte
  exact c56_false_absent H ρ h32 hn hU hU' W.trie.branching hadr.1 hadr.2 hget hne hbyte
    (pathLength_le _ _ 0 (by norm_num) hW.wf) h0 (by simp)

/-- A toy hash function for the example. -/
def sumHash : HashFn := fun l r d => if d = HashDomain.Leaf.toFr then 1 else l + r + d

/-- Two addresses, 0 and `2^40`. -/
def zeroAddress : List ℕ := List.replicate 20 0
def secondAddress : List ℕ := List.replicate 14 0 ++ [1, 0, 0, 0, 0, 0]

theorem sum_keys : accountKey sumHash zeroAddress = HashDomain.Pair.toFr ∧
    accountKey sumHash secondAddress = 256 + HashDomain.Pair.toFr := by
  constructor
  · rw [(c48_account_key sumHash zeroAddress (by unfold IsBytes; decide) rfl).2.2.2.2]
    rw [show beVal zeroAddress = 0 from rfl]
    simp [sumHash, toFr_eq_iff]
  · rw [(c48_account_key sumHash secondAddress (by unfold IsBytes; decide) rfl).2.2.2.2]
    rw [show beVal secondAddress = 2 ^ 40 by decide]
    simp [sumHash, toFr_eq_iff]

/-- The hypotheses are met, and the account exists: both addresses have accounts in this state, reached by two
writes to the empty state, yet the first is proved absent. -/
example (ρ : Fr) : ∃ (W : World) (a b : AcctState), W.OK sumHash ∧
    W.accounts (accountKey sumHash zeroAddress) = some a ∧
    W.accounts (accountKey sumHash secondAddress) = some b ∧
    ∃ w, w.chal = ρ ∧ Accepted sumHash 2080 2082 w ∧
      Exposes w 2082 .AccountDoesNotExist ((beVal zeroAddress : ℕ) : Fr) 0
        (rootRlc ρ (W.trie.hash sumHash)) (rootRlc ρ (W.trie.hash sumHash)) 0 0 := by
  obtain ⟨k1, k2⟩ := sum_keys
  have hne : accountKey sumHash secondAddress ≠ accountKey sumHash zeroAddress := by
    rw [k1, k2]
    decide
  have hbyte : (accountKey sumHash secondAddress).val % 256 = (accountKey sumHash zeroAddress).val % 256 := by
    rw [k1, k2]
    decide
  set d : AccountData := ⟨3, 5, 0, 0, 0⟩
  have hd : AccountOK d := by constructor <;> simp [d]
  set W := (World.initial.set sumHash (accountKey sumHash zeroAddress) (Op.fresh d)).set sumHash
    (accountKey sumHash secondAddress) (Op.fresh d) with hWdef
  have hW : W.OK sumHash := World.set_ok (World.set_ok (World.initial_ok _) (fresh_ok hd)) (fresh_ok hd)
  have hb : W.accounts (accountKey sumHash secondAddress) = some (Op.fresh d) := by
    simp [hWdef, World.set]
  have ha : W.accounts (accountKey sumHash zeroAddress) = some (Op.fresh d) := by
    simp [hWdef, World.set, Function.update_of_ne hne.symm]
  exact ⟨W, Op.fresh d, Op.fresh d, hW, ha, hb, (c53_false_absent sumHash ρ (by norm_num) (by norm_num)
    (by norm_num) (by norm_num) hW ⟨by unfold IsBytes; decide, rfl⟩ ha hb hne hbyte (by simp [sumHash])).2⟩

end Mpt.Props
