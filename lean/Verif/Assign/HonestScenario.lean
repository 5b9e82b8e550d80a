import Verif.Assign.HonestReady

set_option autoImplicit false

/-!
# Every honest trace is parsed into a ready proof (C35)
-/

namespace Mpt
open Spec MptUpdate Types Requests Props

variable {H : HashFn}

/-- What the completeness theorem needs from a proof. -/
structure GoodProof (H : HashFn) (t : MPTProofType) (tr : SMTTrace) (p : Proof) : Prop where
  parse : proofFrom H t tr = some p
  ready : ProofReady H p
  hashed : HashedKey H p.storage
  types : InTypes p
  bits : ∃ l, proofBits H p = some l ∧ ∀ q ∈ l, KeyBit.Correct q
  u128 : ∃ l, proofU128s p = some l
  frs : ∀ x ∈ proofFrs p, x.val < 256 ^ 31
  entries : ∃ l, proofEntries H p = some l

theorem halves_lt (x : ℕ) : ∀ y ∈ halves x, y < 2 ^ 128 := by
  intro y hy
  have h1 : limb x 0 < 2 ^ 64 := Nat.mod_lt _ (by positivity)
  have h2 : limb x 1 < 2 ^ 64 := Nat.mod_lt _ (by positivity)
  have h3 : limb x 2 < 2 ^ 64 := Nat.mod_lt _ (by positivity)
  have h4 : limb x 3 < 2 ^ 64 := Nat.mod_lt _ (by positivity)
  simp only [halves, u256HiLo, Nat.shiftLeft_eq, List.mem_cons, List.not_mem_nil, or_false] at hy
  norm_num at h1 h2 h3 h4 hy ⊢
  omega

theorem high_lt {a : List ℕ} (h : IsBytes a ∧ a.length = 20) : addressHigh a < 2 ^ 128 := by
  have := beVal_lt_of_length (s := a.take 16) (k := 16)
    (fun b hb => h.1 b (List.mem_of_mem_take hb)) (by rw [List.length_take, h.2]; rfl)
  unfold addressHigh
  norm_num at this ⊢
  exact this

/-- The 128-bit requests. -/
theorem u128_lt {p : Proof} (ha : IsBytes p.claim.address ∧ p.claim.address.length = 20) (l : List ℕ)
    (h : proofU128s p = some l) : ∀ x ∈ l, x < 2 ^ 128 := by
  obtain ⟨m, hm, rfl⟩ := Option.map_eq_some_iff.1 h
  intro x hx
  rcases List.mem_cons.1 hx with rfl | hx
  · exact high_lt ha
  · have hh := halves_lt
    cases ht : p.claim.kind.proofType <;> rw [ht] at hm <;> dsimp only at hm
    case CodeHashExists =>
      cases hm
      rcases List.mem_append.1 hx with hx | hx
      · split at hx
        · exact hh _ x hx
        · cases hx
      · split at hx
        · exact hh _ x hx
        · cases hx
    case StorageChanged =>
      split at hm
      · cases hm
      · cases hm
        rcases List.mem_append.1 hx with hx | hx
        · rcases List.mem_append.1 hx with hx | hx <;> exact hh _ x hx
        · exact hh _ x hx
    case StorageDoesNotExist => cases hm; exact hh _ x hx
    all_goals (cases hm; cases hx)

/-- The 64-bit requests. -/
theorem u64_lt {p : Proof}
    (h : ∀ e, (p.oldAccount = some e ∨ p.newAccount = some e) → e.nonce < 2 ^ 64 ∧ e.codeSize < 2 ^ 64) :
    ∀ x ∈ proofU64s p, x < 2 ^ 64 := by
  intro x hx
  unfold proofU64s at hx
  have key : x ∈ (match p.oldAccount with | some a => [a.nonce, a.codeSize] | none => []) ++
    (match p.newAccount with | some a => [a.nonce, a.codeSize] | none => []) → x < 2 ^ 64 := by
    intro hx
    rcases List.mem_append.1 hx with hx | hx
    · cases ho : p.oldAccount <;> rw [ho] at hx
      · cases hx
      · have := h _ (.inl ho)
        simp only [List.mem_cons, List.not_mem_nil, or_false] at hx
        rcases hx with rfl | rfl
        · exact this.1
        · exact this.2
    · cases ho : p.newAccount <;> rw [ho] at hx
      · cases hx
      · have := h _ (.inr ho)
        simp only [List.mem_cons, List.not_mem_nil, or_false] at hx
        rcases hx with rfl | rfl
        · exact this.1
        · exact this.2
  split at hx
  · exact key hx
  · exact key hx
  · cases hx

theorem frs_lt {p : Proof}
    (h : ∀ e, (p.oldAccount = some e ∨ p.newAccount = some e) → e.balance.val < 256 ^ 31) :
    ∀ x ∈ proofFrs p, x.val < 256 ^ 31 := by
  intro x hx
  unfold proofFrs at hx
  split at hx
  · rcases List.mem_append.1 hx with hx | hx
    · cases ho : p.oldAccount <;> rw [ho] at hx
      · cases hx
      · simp only [List.mem_cons, List.not_mem_nil, or_false] at hx
        subst hx; exact h _ (.inl ho)
    · cases ho : p.newAccount <;> rw [ho] at hx
      · cases hx
      · simp only [List.mem_cons, List.not_mem_nil, or_false] at hx
        subst hx; exact h _ (.inr ho)
  · cases hx

/-- The account of one side. -/
def ethOf (a : AccountData) (root : Fr) : EthAccount :=
  ⟨a.nonce, a.codeSize, frFromBiguint a.balance, a.codeHash, root⟩

theorem sideAccount_some {a : AccountData} (h : a.codeHash < 2 ^ 256) (root : Fr) :
    sideAccount (some a) root = some (some (ethOf a root)) := by
  simp only [sideAccount, ethAccountFrom, u256FromBiguint, if_pos h, ethOf]
  rfl

theorem balance_val {b : ℕ} (h : b < 2 ^ 248) : (frFromBiguint b).val < 256 ^ 31 := by
  rw [frFromBiguint_eq, ZMod.val_natCast]
  refine lt_of_le_of_lt (Nat.mod_le _ _) ?_
  norm_num at h ⊢; exact h

theorem eth_ranges {a : AccountData} (h : AccountOK a) (root : Fr) :
    (ethOf a root).nonce < 2 ^ 64 ∧ (ethOf a root).codeSize < 2 ^ 64 ∧
      (ethOf a root).balance.val < 256 ^ 31 := ⟨h.nonce, h.codeSize, balance_val h.balance⟩

theorem noUpdate_kind {t : MPTProofType} {tr : SMTTrace} (h : NoStateUpdate tr) :
    claimKindFrom t tr = accountKind t tr := by
  unfold claimKindFrom
  rcases h with h | h <;> rw [h]

theorem storage_root {tr : SMTTrace} {r : List ℕ} {x : Fr} (hr : tr.commonStateRoot = some r)
    (hx : fr r = some x) : storageProofFrom H tr = some (.Root x) := by
  unfold storageProofFrom
  rw [hr]
  show Option.map _ (fr r) = _
  rw [hx]; rfl

/-- The side of an absent account. -/
theorem side_none {address : List ℕ} {e : PathEnd} {root : Fr} :
    (sideTraces H address none (e.map fun x => ⟨x.1, x.2⟩) root).t5.2.2 = endHash H e := by
  cases e <;> rfl

/-- The side of an existing account. -/
theorem side_some {address : List ℕ} {a : AccountData} (ha : a.codeHash < 2 ^ 256) {root : Fr}
    (l : Option LeafNode) :
    (sideTraces H address (some a) l root).t5.2.2 = endHash H (accountEnd H address a root) :=
  accountTraces_end ha root

/-- The last conditions on a parsed proof. -/
theorem good_of {t : MPTProofType} {tr : SMTTrace} {c : Change} {leafP : PathType}
    {po pn : List PathNode} {eo en : PathEnd} {ro rn : Fr} {kind : ClaimKind} {storage : StorageProof}
    {sr0 sr1 : Fr} {a0 a1 : Option EthAccount} {p : Proof}
    (hA : AccountPart H tr c po pn eo en ro rn)
    (h : ParsedAs H t tr c leafP po pn eo en ro rn kind storage sr0 sr1 a0 a1 p)
    (hR : ProofReady H p) (hk : HashedKey H storage)
    (hs : ∀ q ∈ storage.keyBitLookups H, KeyBit.Correct q)
    (hl : ∃ l, storage.poseidonLookups H = some l)
    (hu : ∃ l, proofU128s p = some l)
    (hr : ∀ e, (a0 = some e ∨ a1 = some e) → e.nonce < 2 ^ 64 ∧ e.codeSize < 2 ^ 64 ∧ e.balance.val < 256 ^ 31) :
    GoodProof H t tr p := by
  have ha : IsBytes p.claim.address ∧ p.claim.address.length = 20 := by
    rw [h.claim]; exact hA.address
  refine ⟨h.parse, hR, by rw [h.storage]; exact hk, ⟨ha, u64_lt fun e he => ?_, fun l => u128_lt ha l⟩,
    bits_ok hA h hs, hu, frs_lt fun e he => ?_, ready_entries hR (fun _ => by rw [h.storage]; exact hl)⟩
  · rw [h.oldAccount, h.newAccount] at he
    exact ⟨(hr e he).1, (hr e he).2.1⟩
  · rw [h.oldAccount, h.newAccount] at he
    exact (hr e he).2.2

theorem not_update {p : Proof} (h : p.claim.kind.proofType ≠ .StorageChanged) : ∃ l, proofU128s p = some l := by
  unfold proofU128s
  cases ht : p.claim.kind.proofType <;> first | exact absurd ht h | exact ⟨_, rfl⟩

/-! ## The scenarios -/

/-- The rows of two equal paths. -/
theorem same_rows {key : Fr} {c : Change} {leafP : PathType} {old new : SMTPath} {po : List PathNode}
    {e : PathEnd} {ro : Fr} {rows : List TrieRow}
    (h : PathsReady H key c leafP old new po po e e ro ro rows)
    (h1 : List.Forall₂ Denotes old.path po) (h2 : List.Forall₂ Denotes new.path po) :
    ∀ row ∈ rows, row.old = row.new := by
  have hf := h.from0
  have hl : old.path.length = new.path.length := by rw [h1.length_eq, h2.length_eq]
  revert hf
  generalize old.path = olds at h1
  generalize new.path = news at h2
  generalize olds.length = lo
  generalize news.length = ln
  generalize 0 = i
  clear h hl
  intro hf
  induction h1 generalizing i news rows with
  | nil =>
    cases h2
    rw [trieRowsFrom] at hf
    cases hf
    simp
  | cons hp h1 ih =>
    cases h2 with
    | cons hq h2 =>
      simp only [trieRowsFrom, Option.bind_eq_bind, Option.bind_eq_some_iff, Option.pure_def,
        Option.some.injEq] at hf
      obtain ⟨b, -, row', hr, rest, hrest, rfl⟩ := hf
      obtain ⟨-, f2, f3, -⟩ := bothRow_facts hp hq hr
      intro row hm
      rcases List.mem_cons.1 hm with rfl | hm
      · rw [f2, f3]
      · exact ih _ h2 _ hrest row hm

theorem absentEnd_leaf {key : Fr} {e : PathEnd} (h : AbsentEnd H key e) :
    ((pathOf key e).leafDataHash = none ∧ (pathOf key e).key = key) ∨
    (∃ d, (pathOf key e).leafDataHash = some d ∧ (pathOf key e).key ≠ key ∧ (pathOf key e).hash H ≠ 0) := by
  rcases h with rfl | ⟨k, d, rfl, h1, h2⟩
  · exact .inl ⟨rfl, rfl⟩
  · exact .inr ⟨d, rfl, h1, h2⟩

theorem good_absent {t : MPTProofType} {tr : SMTTrace} {po : List PathNode} {e : PathEnd} {ro : Fr}
    (hA : AccountPart H tr .same po po e e ro ro) (hu : tr.accountUpdate = (none, none))
    (he : AbsentEnd H (accountKey H tr.address) e) (hc : AbsentClaim H tr t) : ∃ p, GoodProof H t tr p := by
  have key : ∀ (kind : ClaimKind) (storage : StorageProof) (sr : Fr), claimKindFrom t tr = some kind →
      EmptyKind kind → kind.proofType = t → t ≠ .StorageChanged → storageProofFrom H tr = some storage →
      storage.oldRoot H = some sr → storage.newRoot H = some sr → HashedKey H storage →
      (∀ q ∈ storage.keyBitLookups H, KeyBit.Correct q) → (∃ l, storage.poseidonLookups H = some l) →
      ∃ p, GoodProof H t tr p := by
    intro kind storage sr h1 h2 h3 h3' h4 h5 h6 h7 h8 h9
    obtain ⟨p, hp⟩ := parse_account (t := t) (leafP := .Start) (a0 := none) (a1 := none) (.inr ⟨rfl, rfl⟩)
      (by decide) hA h1 h3 h4 h5 h6 (by rw [hu]; exact side_none) (by rw [hu]; exact side_none)
      (by rw [hu]; rfl) (by rw [hu]; rfl)
    have hcl := hp.claim
    refine ⟨p, good_of hA hp (.absent ⟨hp.acc, hp.oldAccount, hp.newAccount, ?_, ?_, ?_, ?_, ?_⟩) h7 h8 h9
      (not_update (by rw [hcl]; exact h3 ▸ h3')) (by rintro _ (h | h) <;> cases h)⟩
    · rw [hcl]; exact h2
    · exact same_rows hp.paths hA.paths.nodesOld hA.paths.nodesNew
    · rw [hcl]
    · rw [hp.old, hp.new]
    · rw [hp.old, hcl]; exact absentEnd_leaf he
  cases hc with
  | field _ ht hs r x hr hx =>
    have hst := storage_root (H := H) hr hx
    have hk := noUpdate_kind (t := t) hs
    simp only [List.mem_cons, List.not_mem_nil, or_false] at ht
    unfold accountKind at hk
    rw [hu] at hk
    rcases ht with rfl | rfl | rfl | rfl | rfl
    · exact key _ _ x hk .nonce rfl (by decide) hst rfl rfl trivial (by simp [StorageProof.keyBitLookups]) ⟨[], rfl⟩
    · exact key _ _ x hk .balance rfl (by decide) hst rfl rfl trivial (by simp [StorageProof.keyBitLookups]) ⟨[], rfl⟩
    · exact key _ _ x hk .codeHash rfl (by decide) hst rfl rfl trivial (by simp [StorageProof.keyBitLookups]) ⟨[], rfl⟩
    · exact key _ _ x hk .codeSize rfl (by decide) hst rfl rfl trivial (by simp [StorageProof.keyBitLookups]) ⟨[], rfl⟩
    · exact key _ _ x hk (.isEmpty none) rfl (by decide) hst rfl rfl trivial
        (by simp [StorageProof.keyBitLookups]) ⟨[], rfl⟩
  | slot k hs hk r x hr hx =>
    have hst := storage_root (H := H) hr hx
    have hk' := noUpdate_kind (t := .StorageDoesNotExist) hs
    unfold accountKind at hk'
    rw [hu, hk] at hk'
    exact key _ _ x hk' (.isEmpty _) rfl (by decide) hst rfl rfl trivial (by simp [StorageProof.keyBitLookups])
      ⟨[], rfl⟩
  | slotRoot o n hup hkey ho hn r x hr hx =>
    have hst := storage_root (H := H) hr hx
    have hk' : claimKindFrom .StorageDoesNotExist tr = some (.IsEmpty (some (u256FromHex o.key))) := by
      unfold claimKindFrom
      rw [hup, hu]
      show storageKind none none o n = _
      unfold storageKind
      rw [if_pos (.inl rfl), if_pos hkey]
      exact if_pos ⟨ho, hn⟩
    exact key _ _ x hk' (.isEmpty _) rfl (by decide) hst rfl rfl trivial (by simp [StorageProof.keyBitLookups])
      ⟨[], rfl⟩
  | slotTrie o n hup hkey hb ho hn hr k hk hkh zo zn hp hzo hzn =>
    have hk' : claimKindFrom .StorageDoesNotExist tr = some (.IsEmpty (some (u256FromHex o.key))) := by
      unfold claimKindFrom
      rw [hup, hu]
      show storageKind none none o n = _
      unfold storageKind
      rw [if_pos (.inl rfl), if_pos hkey]
      exact if_pos ⟨ho, hn⟩
    have hS : StoragePart H tr .same o n ⟨zo, none, []⟩ ⟨zn, none, []⟩ [] [] none none 0 0 :=
      ⟨hr, hup, hkey, hb, ⟨k, hk, hkh⟩, hp, .nil, .nil, trivial, trivial, hzo, hzn, by simp, by simp,
        ⟨rfl, rfl, trivial, trivial, by simp, by simp⟩, trivial, by simp, by simp [EndPlaced], by simp [EndPlaced]⟩
    obtain ⟨rows, hr, h1, h2, h3⟩ := parse_storage (leafP := .Start) (lo := .Empty _) (ln := .Empty _)
      (.inr ⟨rfl, rfl⟩) hS
      (newLeaf_zero (e := none) trivial (storageKeyHash_eq hb).symm ho)
      (newLeaf_zero (e := none) trivial (by rw [← hkey]; exact (storageKeyHash_eq hb).symm) hn) rfl rfl
    obtain ⟨l, hl⟩ := rowsHonest_lookups _ _ hr.honest
    refine key _ _ 0 hk' (.isEmpty _) rfl (by decide) h1 h2 h3 (storageKeyHash_eq hb).symm
      (bits_storage hr (fun i _ => rfl) (fun i _ => rfl)) ?_
    simp only [StorageProof.poseidonLookups, hl, Option.bind_eq_bind, Option.bind_some]
    exact ⟨_, rfl⟩

theorem good_new {t : MPTProofType} {tr : SMTTrace} {a : AccountData} {po pn : List PathNode} {e : PathEnd}
    {ro rn : Fr} {kind : ClaimKind} (hA : AccountPart H tr .insert po pn e (accountEnd H tr.address a 0) ro rn)
    (hu : tr.accountUpdate = (none, some a)) (he : AbsentEnd H (accountKey H tr.address) e)
    (hne : endHash H (accountEnd H tr.address a 0) ≠ 0) (ha : AccountOK a)
    (hk : claimKindFrom t tr = some kind) (ht : kind.proofType = t) (hts : t ≠ .StorageChanged)
    (hK : ∀ p : Proof, p.claim.kind = kind → NewKind p a)
    {r : List ℕ} (hr : tr.commonStateRoot = some r) (hx : fr r = some 0) : ∃ p, GoodProof H t tr p := by
  have hst := storage_root (H := H) hr hx
  obtain ⟨p, hp⟩ := parse_account (t := t) (leafP := .ExtensionNew) (a0 := none) (a1 := some (ethOf a 0))
    (sr0 := 0) (sr1 := 0) (.inl rfl)
    (by decide) hA hk ht hst rfl rfl (by rw [hu]; exact side_none) (by rw [hu]; exact side_some ha.codeHash _)
    (by rw [hu]; rfl) (by rw [hu]; exact sideAccount_some ha.codeHash 0)
  have hcl := hp.claim
  have htr : p.newTraces = accountHashTraces H p.claim.address a 0 := by
    rw [hp.newTraces, hu, hcl]; rfl
  refine ⟨p, good_of hA hp (.fresh a ⟨hp.acc, hp.oldAccount, ⟨_, hp.newAccount, rfl, rfl, rfl⟩, hp.storage,
    hK p (by rw [hcl]), htr, by rw [hp.new, hcl]; rfl, ?_, ?_, ?_, fun h => ?_⟩) trivial
    (by simp [StorageProof.keyBitLookups]) ⟨[], rfl⟩
    (not_update (by rw [hcl]; exact ht ▸ hts)) ?_⟩
  · rw [htr, accountTraces_data ha.codeHash, hp.new]; rfl
  · rw [hp.new, pathOf_hash]; exact hne
  · rw [hp.old, hcl]; exact absentEnd_leaf he
  · rw [hp.old, pathOf_hash]; exact (hp.paths.common h).1 rfl
  · rintro x (h | h)
    · cases h
    · cases h; exact eth_ranges ha 0

/-- Both sides exist. -/
theorem both_of {t : MPTProofType} {tr : SMTTrace} {o n : AccountData} {so sn : Fr} {po pn : List PathNode}
    {ro rn : Fr} {kind : ClaimKind} {storage : StorageProof}
    (hA : AccountPart H tr .same po pn (accountEnd H tr.address o so) (accountEnd H tr.address n sn) ro rn)
    (hu : tr.accountUpdate = (some o, some n)) (ho : AccountOK o) (hn : AccountOK n)
    (hoe : endHash H (accountEnd H tr.address o so) ≠ 0)
    (hne : endHash H (accountEnd H tr.address n sn) ≠ 0)
    (hk : claimKindFrom t tr = some kind) (ht : kind.proofType = t)
    (hs : storageProofFrom H tr = some storage) (h0 : storage.oldRoot H = some so)
    (h1 : storage.newRoot H = some sn) :
    ∃ p, ParsedAs H t tr .same .Common po pn (accountEnd H tr.address o so) (accountEnd H tr.address n sn) ro rn
      kind storage so sn (some (ethOf o so)) (some (ethOf n sn)) p ∧ BothReady H p o n so sn := by
  obtain ⟨p, hp⟩ := parse_account (t := t) (leafP := .Common) (a0 := some (ethOf o so))
    (a1 := some (ethOf n sn)) (.inl rfl) (by decide) hA hk ht hs h0 h1
    (by rw [hu]; exact side_some ho.codeHash _) (by rw [hu]; exact side_some hn.codeHash _)
    (by rw [hu]; exact sideAccount_some ho.codeHash _) (by rw [hu]; exact sideAccount_some hn.codeHash _)
  have hcl := hp.claim
  have t0 : p.oldTraces = accountHashTraces H p.claim.address o so := by rw [hp.oldTraces, hu, hcl]; rfl
  have t1 : p.newTraces = accountHashTraces H p.claim.address n sn := by rw [hp.newTraces, hu, hcl]; rfl
  refine ⟨p, hp, hp.acc, ⟨_, hp.oldAccount, rfl, rfl, rfl, rfl⟩, ⟨_, hp.newAccount, rfl, rfl, rfl, rfl⟩, t0, t1,
    by rw [hp.old, hcl]; rfl, by rw [hp.new, hcl]; rfl, ?_, ?_, ?_, ?_⟩
  · rw [t0, accountTraces_data ho.codeHash, hp.old]; rfl
  · rw [t1, accountTraces_data hn.codeHash, hp.new]; rfl
  · rw [hp.old, pathOf_hash]; exact hoe
  · rw [hp.new, pathOf_hash]; exact hne

theorem both_ranges {o n : AccountData} (ho : AccountOK o) (hn : AccountOK n) (so sn : Fr) (e : EthAccount)
    (h : some (ethOf o so) = some e ∨ some (ethOf n sn) = some e) :
    e.nonce < 2 ^ 64 ∧ e.codeSize < 2 ^ 64 ∧ e.balance.val < 256 ^ 31 := by
  rcases h with h | h
  · cases h; exact eth_ranges ho so
  · cases h; exact eth_ranges hn sn

theorem u256_some {x : ℕ} (h : x < 2 ^ 256) : u256FromBiguint x = some x := if_pos h

theorem balance_256 {x : ℕ} (h : x < 2 ^ 248) : x < 2 ^ 256 := lt_trans h (by norm_num)

theorem good_field {t : MPTProofType} {tr : SMTTrace} {o n : AccountData} {x : Fr} {po pn : List PathNode}
    {ro rn : Fr}
    (hA : AccountPart H tr .same po pn (accountEnd H tr.address o x) (accountEnd H tr.address n x) ro rn)
    (hu : tr.accountUpdate = (some o, some n)) (ho : AccountOK o) (hn : AccountOK n)
    (hoe : endHash H (accountEnd H tr.address o x) ≠ 0)
    (hne : endHash H (accountEnd H tr.address n x) ≠ 0)
    (hs : NoStateUpdate tr) {r : List ℕ} (hr : tr.commonStateRoot = some r) (hx : fr r = some x)
    (hc : FieldChange H o n t) : ∃ p, GoodProof H t tr p := by
  have hst := storage_root (H := H) hr hx
  have hk0 := noUpdate_kind (t := t) hs
  unfold accountKind at hk0
  rw [hu] at hk0
  have key : ∀ kind : ClaimKind, claimKindFrom t tr = some kind → kind.proofType = t → t ≠ .StorageChanged →
      (∀ p : Proof, p.claim.kind = kind → FieldKind H p o n x x) → ∃ p, GoodProof H t tr p := by
    intro kind h1 h2 h3 h4
    obtain ⟨p, hp, hb⟩ := both_of hA hu ho hn hoe hne h1 h2 hst rfl rfl
    exact ⟨p, good_of hA hp (.field o n x x x hb (h4 p (by rw [hp.claim])) hp.storage) trivial
      (by simp [StorageProof.keyBitLookups]) ⟨[], rfl⟩ (not_update (by rw [hp.claim]; exact h2 ▸ h3))
      (both_ranges ho hn x x)⟩
  cases hc with
  | nonce h1 h2 h3 h4 =>
    refine key (.Nonce (some o.nonce) (some n.nonce)) ?_ rfl (by decide) fun p hk => .nonce hk rfl h1 h2 h3 h4
    rw [hk0]; exact if_pos ⟨h2, h1, h3, h4⟩
  | codeSize h1 h2 h3 h4 =>
    refine key (.CodeSize (some o.codeSize) (some n.codeSize)) ?_ rfl (by decide)
      fun p hk => .codeSize hk rfl h1 h2 h3 h4
    rw [hk0]; exact if_pos ⟨h1, h2, h3, h4⟩
  | balance h1 h2 h3 h4 =>
    refine key (.Balance (some o.balance) (some n.balance)) ?_ rfl (by decide)
      fun p hk => .balance hk rfl h1 h2 h3 h4 ho.balance hn.balance
    rw [hk0]
    dsimp only
    rw [if_pos ⟨h1, h2, h3, h4⟩, u256_some (balance_256 ho.balance), u256_some (balance_256 hn.balance)]
    rfl
  | codeHash h1 h2 h3 h4 hd =>
    refine key (.CodeHash (some o.codeHash) (some n.codeHash)) ?_ rfl (by decide)
      fun p hk => .codeHash hk rfl h1 h2 h3 h4 ho.codeHash hn.codeHash fun y hy d hd' => ?_
    · rw [hk0]
      dsimp only
      rw [if_pos ⟨h1, h3, h2, h4⟩, u256_some ho.codeHash, u256_some hn.codeHash]
      rfl
    · have hy' : y < 2 ^ 256 := by
        simp only [List.mem_cons, List.not_mem_nil, or_false] at hy
        rcases hy with rfl | rfl
        · exact ho.codeHash
        · exact hn.codeHash
      rw [(c45_split y hy').2.2.1]
      exact hd y hy d hd'
  | poseidon h1 h2 h3 h4 =>
    refine key (.PoseidonCodeHash (some (frFromBiguint o.poseidonCodeHash))
      (some (frFromBiguint n.poseidonCodeHash))) ?_ rfl (by decide) fun p hk => .poseidon hk rfl h1 h2 h3 h4
    rw [hk0]; exact if_pos ⟨h1, h3, h2, h4⟩

theorem zeroPair_eq : zeroPairHash H = Account.wordHash H 0 := by
  unfold zeroPairHash Account.wordHash
  simp

theorem storage_lookups {sk : ℕ} {key : Fr} {rows : List TrieRow} {lo ln : StorageLeaf} {leafP : PathType}
    {top : Fr × Fr} (h : RowsHonest H leafP top rows) :
    ∃ l, (StorageProof.Update sk key rows lo ln).poseidonLookups H = some l := by
  obtain ⟨l, hl⟩ := rowsHonest_lookups _ _ h
  simp only [StorageProof.poseidonLookups, hl, Option.bind_eq_bind, Option.bind_some]
  exact ⟨_, rfl⟩

theorem good_slot {t : MPTProofType} {tr : SMTTrace} {a : AccountData} {o n : StateData} {c : Change}
    {old new : SMTPath} {so sn : Fr} {qo qn : List PathNode} {eo en : PathEnd} {po pn : List PathNode}
    {ro rn : Fr}
    (hA : AccountPart H tr .same po pn (accountEnd H tr.address a so) (accountEnd H tr.address a sn) ro rn)
    (hu : tr.accountUpdate = (some a, some a)) (ho : AccountOK a)
    (hoe : endHash H (accountEnd H tr.address a so) ≠ 0)
    (hne : endHash H (accountEnd H tr.address a sn) ≠ 0)
    (hS : StoragePart H tr c o n old new qo qn eo en so sn)
    (hc : SlotChange H (beVal o.key) c (beVal o.value) (beVal n.value) eo en)
    (ht : t = .StorageChanged) : ∃ p, GoodProof H t tr p := by
  subst ht
  have hb := hS.range
  have hkh := storageKeyHash_eq (H := H) hb
  have key : ∀ (x y : Option ℕ) (lo ln : StorageLeaf) (leafP : PathType), leafP = changePath c →
      claimKindFrom .StorageChanged tr = some (.Storage (beVal o.key) x y) →
      StorageLeaf.new H (Account.wordHash H (beVal o.key)) old.leaf o = some lo →
      StorageLeaf.new H (Account.wordHash H (beVal o.key)) new.leaf n = some ln →
      lo.hash H = endHash H eo → ln.hash H = endHash H en →
      (∀ i < qo.length, keyBit (lo.key H) i = keyBit (Account.wordHash H (beVal o.key)) i) →
      (∀ i < qn.length, keyBit (ln.key H) i = keyBit (Account.wordHash H (beVal o.key)) i) →
      (∀ p : Proof, p.claim.kind = .Storage (beVal o.key) x y →
        SlotKind H p (beVal o.key) (Account.wordHash H (beVal o.key)) leafP lo ln) →
      (leafP = .ExtensionNew → c = .insert) → (leafP = .ExtensionOld → c = .delete) →
      ∃ p, GoodProof H .StorageChanged tr p := by
    intro x y lo ln leafP hP hk l1 l2 e1 e2 b1 b2 hK c1 c2
    obtain ⟨rows, hr, s1, s2, s3⟩ := parse_storage (.inl hP) hS l1 l2 e1 e2
    obtain ⟨p, hp, hb⟩ := both_of hA hu ho ho hoe hne hk rfl s1 s2 s3
    have hR : SlotReady H leafP p a so sn (beVal o.key) (Account.wordHash H (beVal o.key)) rows lo ln :=
      ⟨hb, hp.storage, hS.range, hr.honest, by rw [e1, e2]; exact hr.last⟩
    refine ⟨p, good_of hA hp (.slot leafP a so sn _ _ rows lo ln hR (hK p (by rw [hp.claim])) hkh.symm ?_)
      hkh.symm (bits_storage hr (fun i hi => b1 i (by omega)) (fun i hi => b2 i (by omega)))
      (storage_lookups hr.honest) ?_ (both_ranges ho ho so sn)⟩
    · rintro rfl
      have h1 := hr.empty rfl
      have h2 := hr.common rfl
      exact ⟨fun h => h1.1.trans (h2.1 (c1 h)), fun h => h1.2.trans (h2.2 (c2 h))⟩
    · unfold proofU128s
      rw [hp.claim, hp.storage]
      exact ⟨_, rfl⟩
  have hk0 : beVal o.value ≠ 0 ∨ beVal n.value ≠ 0 → claimKindFrom .StorageChanged tr =
      some (.Storage (beVal o.key) (if beVal o.value = 0 then none else some (beVal o.value))
        (if beVal n.value = 0 then none else some (beVal n.value))) := by
    intro hne
    unfold claimKindFrom
    rw [hS.update, hu]
    show storageKind (some a) (some a) o n = _
    unfold storageKind
    rw [if_pos (.inl rfl), if_pos hS.slot]
    refine if_neg ?_
    rintro ⟨h1, h2⟩
    rcases hne with h | h
    · exact h h1
    · exact h h2
  have b0 : ∀ v i, keyBit ((StorageLeaf.Entry (beVal o.key) v).key H) i =
      keyBit (Account.wordHash H (beVal o.key)) i := by
    intro v i
    show keyBit (storageKeyHash H (beVal o.key)) i = _
    rw [hkh]
  generalize hx : beVal o.value = x at hc hk0
  generalize hy : beVal n.value = y at hc hk0
  cases hc with
  | change _ _ h1 h2 h3 h4 h5 h6 =>
    have k := hk0 (.inl h1)
    rw [if_neg h1, if_neg h2] at k
    have l1 := newLeaf_entry (H := H) (key := Account.wordHash H (beVal o.key)) hS.paths.leafOld
      (by rw [hx]; exact h1)
    have l2 := newLeaf_entry (H := H) (key := Account.wordHash H (beVal o.key)) hS.paths.leafNew
      (by rw [hy]; exact h2)
    rw [hx] at l1
    rw [← hS.slot, hy] at l2
    exact key _ _ _ _ .Common rfl k l1 l2 (entry_hash hb h3) (entry_hash hb h4) (fun i _ => b0 _ i)
      (fun i _ => b0 _ i) (fun p hk => .change x y hk h3 h4
        (by rw [entry_valueHash h3, zeroPair_eq]; simpa using h5)
        (by rw [entry_valueHash h4, zeroPair_eq]; simpa using h6)) (by simp) (by simp)
  | insert _ e h2 h4 h6 he hez =>
    have k := hk0 (.inr h2)
    rw [if_pos rfl, if_neg h2] at k
    have l1 := newLeaf_zero (H := H) (key := Account.wordHash H (beVal o.key)) hS.paths.leafOld hkh.symm hx
    have l2 := newLeaf_entry (H := H) (key := Account.wordHash H (beVal o.key)) hS.paths.leafNew
      (by rw [hy]; exact h2)
    rw [← hS.slot, hy] at l2
    exact key _ _ _ _ .ExtensionNew rfl k l1 l2 (leafOf_hash _ _) (entry_hash hb h4)
      (fun i hi => leafOf_bit hS.paths.placedOld hi)
      (fun i _ => b0 _ i) (fun p hk => .insert y _ hk
        (by rw [entry_valueHash h4, zeroPair_eq]; simpa using h6) (leafOf_absent he)
        (by rw [leafOf_hash, zeroPair_eq]; exact hez)) (by simp) (by simp)
  | delete _ e h1 h3 h5 he hez =>
    have k := hk0 (.inl h1)
    rw [if_pos rfl, if_neg h1] at k
    have l1 := newLeaf_entry (H := H) (key := Account.wordHash H (beVal o.key)) hS.paths.leafOld
      (by rw [hx]; exact h1)
    have l2 := newLeaf_zero (H := H) (key := Account.wordHash H (beVal o.key)) hS.paths.leafNew
      (by rw [← hS.slot]; exact hkh.symm) hy
    rw [hx] at l1
    exact key _ _ _ _ .ExtensionOld rfl k l1 l2 (entry_hash hb h3) (leafOf_hash _ _)
      (fun i _ => b0 _ i) (fun i hi => leafOf_bit hS.paths.placedNew hi)
      (fun p hk => .delete x _ hk
        (by rw [entry_valueHash h3, zeroPair_eq]; simpa using h5) (leafOf_absent he)
        (by rw [leafOf_hash, zeroPair_eq]; exact hez)) (by simp) (by simp)

theorem good_slotEmpty {t : MPTProofType} {tr : SMTTrace} {a : AccountData} {o n : StateData}
    {old new : SMTPath} {so : Fr} {qo : List PathNode} {e : PathEnd} {po : List PathNode} {ro : Fr}
    (hA : AccountPart H tr .same po po (accountEnd H tr.address a so) (accountEnd H tr.address a so) ro ro)
    (hu : tr.accountUpdate = (some a, some a)) (ho : AccountOK a)
    (hoe : endHash H (accountEnd H tr.address a so) ≠ 0)
    (hS : StoragePart H tr .same o n old new qo qo e e so so)
    (hv : beVal o.value = 0 ∧ beVal n.value = 0)
    (he : AbsentEnd H (Account.wordHash H (beVal o.key)) e)
    (ht : t = .StorageDoesNotExist) : ∃ p, GoodProof H t tr p := by
  subst ht
  have hb := hS.range
  have hkh := storageKeyHash_eq (H := H) hb
  have hk : claimKindFrom .StorageDoesNotExist tr = some (.IsEmpty (some (beVal o.key))) := by
    unfold claimKindFrom
    rw [hS.update, hu]
    show storageKind (some a) (some a) o n = _
    unfold storageKind
    rw [if_pos (.inl rfl), if_pos hS.slot]
    exact if_pos hv
  have l1 := newLeaf_zero (H := H) (key := Account.wordHash H (beVal o.key)) hS.paths.leafOld hkh.symm hv.1
  have l2 := newLeaf_zero (H := H) (key := Account.wordHash H (beVal o.key)) hS.paths.leafNew
      (by rw [← hS.slot]; exact hkh.symm) hv.2
  obtain ⟨rows, hr, s1, s2, s3⟩ := parse_storage (leafP := .Start) (.inr ⟨rfl, rfl⟩) hS l1 l2
    (leafOf_hash _ _) (leafOf_hash _ _)
  obtain ⟨p, hp, hbo⟩ := both_of hA hu ho ho hoe hoe hk rfl s1 s2 s3
  have hR : SlotReady H .Start p a so so (beVal o.key) (Account.wordHash H (beVal o.key)) rows
      (leafOf _ e) (leafOf _ e) :=
    ⟨hbo, hp.storage, hS.range, hr.honest, by rw [leafOf_hash]; exact hr.last⟩
  refine ⟨p, good_of hA hp (.slotEmpty a so _ _ rows _ hR (by rw [hp.claim]) (leafOf_absent he)
    (by rw [hp.claim]) (same_rows hp.paths hA.paths.nodesOld hA.paths.nodesNew)
    (same_rows hr hS.paths.nodesOld hS.paths.nodesNew)) hkh.symm
    (bits_storage hr (fun i hi => leafOf_bit hS.paths.placedOld (by omega))
      (fun i hi => leafOf_bit hS.paths.placedNew (by omega)))
    (storage_lookups hr.honest) (not_update (by rw [hp.claim]; simp [ClaimKind.proofType])) (both_ranges ho ho so so)⟩

/-- **Every honest trace is parsed into a proof that is ready.** -/
theorem honest_good {t : MPTProofType} {tr : SMTTrace} (h : HonestTrace H t tr) : ∃ p, GoodProof H t tr p := by
  cases h with
  | absent po e ro hA hu he hc => exact good_absent hA hu he hc
  | newNonce nonce hn hn' po pn e ro rn hA hu he hne hs r hr hx ht =>
    subst ht
    refine good_new (kind := .Nonce none (some nonce)) hA hu he hne ⟨hn', by simp, by simp, by simp⟩ ?_ rfl
      (by decide) (fun p hk => .nonce nonce hk) hr hx
    rw [noUpdate_kind hs]
    unfold accountKind
    rw [hu]
    dsimp only
    rw [if_pos (by omega), if_pos rfl]
  | newBalance b hb hb' po pn e ro rn hA hu he hne hs r hr hx ht =>
    subst ht
    refine good_new (kind := .Balance none (some b)) hA hu he hne ⟨by simp, by simp, hb', by simp⟩ ?_ rfl
      (by decide) (fun p hk => .balance b hb' hk) hr hx
    rw [noUpdate_kind hs]
    unfold accountKind
    rw [hu]
    dsimp only
    rw [if_neg (by simp), if_pos (by omega), if_pos rfl, u256_some (balance_256 hb')]
    rfl
  | field o n x po pn ro rn hA hu ho hn hoe hne hs r hr hx hc =>
    exact good_field hA hu ho hn hoe hne hs hr hx hc
  | slot a o n c old new so sn qo qn eo en po pn ro rn hA hu ho hoe hne hS hc ht =>
    exact good_slot hA hu ho hoe hne hS hc ht
  | slotEmpty a o n old new so qo e po ro hA hu ho hoe hS hv he ht =>
    exact good_slotEmpty hA hu ho hoe hS hv he ht

end Mpt
