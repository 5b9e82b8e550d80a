import Verif.Props.PatchedRows

set_option autoImplicit false

/-!
# Runs of honest proofs satisfy the missing constraints (for C65)
-/

namespace Mpt
open Spec MptUpdate Types Requests Props

variable {H : HashFn} {w : Witness Fr} {U : ℕ}

theorem zip_cases (key ok : Fr) (pt : PathType) (s : SegmentType) (ss : List SegmentType) (xs os ns : List Fr)
    (ds : List Bool) : leafRowsZip key ok pt (s :: ss) xs os ns ds = [] ∨
    ∃ x xs' o os' n ns' d ds', xs = x :: xs' ∧ os = o :: os' ∧ ns = n :: ns' ∧ ds = d :: ds' ∧
      leafRowsZip key ok pt (s :: ss) xs os ns ds = leafURow key ok pt s x o n d :: leafRowsZip key ok pt ss xs' os' ns' ds' := by
  cases xs with
  | nil => exact .inl rfl
  | cons x xs =>
  cases os with
  | nil => exact .inl rfl
  | cons o os =>
  cases ns with
  | nil => exact .inl rfl
  | cons n ns =>
  cases ds with
  | nil => exact .inl rfl
  | cons d ds => exact .inr ⟨_, _, _, _, _, _, _, _, rfl, rfl, rfl, rfl, rfl⟩

theorem sameView_row3 {ρ : Fr} {p : Proof} {u v : URow} (h : leafRow3 H ρ p u = some v) :
    v.seg = u.seg ∧ v.path = u.path ∧ v.newHash = u.newHash := by
  unfold leafRow3 at h
  split at h
  · cases h; exact ⟨rfl, rfl, rfl⟩
  · obtain ⟨k, -, h⟩ := Option.bind_eq_some_iff.1 h
    obtain ⟨o, -, h⟩ := Option.bind_eq_some_iff.1 h
    cases h
    exact ⟨rfl, rfl, rfl⟩

theorem sameView_codeHash (ρ : Fr) (k : ClaimKind) (u : URow) :
    (leafCodeHash ρ k u).seg = u.seg ∧ (leafCodeHash ρ k u).path = u.path ∧
    (leafCodeHash ρ k u).newHash = u.newHash := by
  unfold leafCodeHash
  split
  · split <;> split <;> exact ⟨rfl, rfl, rfl⟩
  · exact ⟨rfl, rfl, rfl⟩

/-- The account leaf rows. -/
theorem leaf_patched {ρ : Fr} {p : Proof} {t : MPTProofType} {ov nv key ok data : Fr} {pt : PathType}
    {sibs olds news : List Fr} {dirs : List Bool} {leaf : List URow} (e : URow)
    (h : decorateLeaf H ρ p key ok data (leafRowsZip key ok pt
      [.AccountLeaf0, .AccountLeaf1, .AccountLeaf2, .AccountLeaf3] sibs olds news dirs) = some leaf)
    (hs : sibs.head? = some key) (h0 : t = .StorageChanged → pt = .Common)
    (h3 : pt = .ExtensionNew → t = .NonceChanged ∨ t = .BalanceChanged → ∀ x, news[3]? = some x → x ≠ 0) :
    Pairs (RowPatched H w U t ov nv) e leaf ∧ ∃ a l, leaf = a :: l ∧ a.seg = .AccountLeaf0 ∧ a.path = pt := by
  rcases zip_cases key ok pt .AccountLeaf0 [.AccountLeaf1, .AccountLeaf2, .AccountLeaf3] sibs olds news dirs with
    hz | ⟨x, sibs, o, olds, n, news, d, dirs, rfl, rfl, rfl, rfl, hz⟩
  · rw [hz] at h; cases h
  rw [hz] at h
  have hx : x = key := by simpa using hs
  subst hx
  have ha : ∀ v, RowPatched H w U t ov nv (leafRow0 x ok data (leafURow x ok pt .AccountLeaf0 x o n d)) v := fun v =>
    rowPatched_leaf (.inl rfl) (fun _ => ⟨rfl, h0⟩) (fun h => by cases h)
  have hb : ∀ v s a b c d, s = .AccountLeaf1 ∨ s = .AccountLeaf2 →
      RowPatched H w U t ov nv (leafURow x ok pt s a b c d) v := by
    intro v s a b c d hs
    refine rowPatched_leaf ?_ ?_ ?_
    · rcases hs with rfl | rfl
      · exact .inr (.inl rfl)
      · exact .inr (.inr (.inl rfl))
    · rcases hs with rfl | rfl <;> intro h <;> cases h
    · rcases hs with rfl | rfl <;> intro h <;> cases h
  rcases zip_cases x ok pt .AccountLeaf1 [.AccountLeaf2, .AccountLeaf3] sibs olds news dirs with
    hz | ⟨x1, sibs, o1, olds, n1, news, d1, dirs, rfl, rfl, rfl, rfl, hz⟩
  · rw [hz] at h; cases h
  rw [hz] at h
  rcases zip_cases x ok pt .AccountLeaf2 [.AccountLeaf3] sibs olds news dirs with
    hz | ⟨x2, sibs, o2, olds, n2, news, d2, dirs, rfl, rfl, rfl, rfl, hz⟩
  · rw [hz] at h
    cases h
    exact ⟨⟨ha _, hb _ _ _ _ _ _ (.inl rfl), trivial⟩, _, _, rfl, rfl, rfl⟩
  rw [hz] at h
  rcases zip_cases x ok pt .AccountLeaf3 [] sibs olds news dirs with
    hz | ⟨x3, sibs, o3, olds, n3, news, d3, dirs, rfl, rfl, rfl, rfl, hz⟩
  · rw [hz] at h; cases h
  rw [hz] at h
  have hnil : leafRowsZip x ok pt [] sibs olds news dirs = [] := rfl
  rw [hnil] at h
  obtain ⟨u, hu, h⟩ := Option.bind_eq_some_iff.1 h
  cases h
  refine ⟨⟨ha _, hb _ _ _ _ _ _ (.inl rfl), hb _ _ _ _ _ _ (.inr rfl), ?_, trivial⟩, _, _, rfl, rfl, rfl⟩
  obtain ⟨s1, s2, s3⟩ := sameView_row3 hu
  obtain ⟨c1, c2, c3⟩ := sameView_codeHash ρ p.claim.kind u
  refine rowPatched_leaf ?_ ?_ ?_
  · rw [c1, s1]; exact .inr (.inr (.inr rfl))
  · rw [c1, s1]; intro h; cases h
  · rw [c1, s1, c2, s2, c3, s3]
    intro _ hp ht
    exact h3 hp ht n3 rfl

/-- The siblings of the leaf rows start with the key of the account. -/
theorem siblings_head {p : Proof} {sibs : List Fr} (h : p.accountLeafSiblings H = some sibs) (hne : sibs ≠ []) :
    sibs.head? = some (accountKey H p.claim.address) := by
  unfold Proof.accountLeafSiblings at h
  dsimp only at h
  split at h
  all_goals first
    | (obtain ⟨t, -, rfl⟩ := Option.map_eq_some_iff.1 h; rfl)
    | (cases h; exact absurd rfl hne)
    | (split at h
       · cases h; rfl
       · cases h)

theorem decorate_ne {ρ : Fr} {p : Proof} {key ok data k o : Fr} {pt : PathType} {ss : List SegmentType}
    {sibs olds news : List Fr} {dirs : List Bool} {leaf : List URow}
    (h : decorateLeaf H ρ p key ok data (leafRowsZip k o pt ss sibs olds news dirs) = some leaf) : sibs ≠ [] := by
  rintro rfl
  have : leafRowsZip k o pt ss [] olds news dirs = [] := by cases ss <;> rfl
  rw [this] at h
  cases h

/-- What honest proofs satisfy beyond what the circuit checks. -/
structure ProofStrict (H : HashFn) (p : Proof) : Prop where
  account : InsRows p.old.key 0 p.accountTrieRows ∧ p.accountTrieRows.length ≤ 256
  storage : ∀ sk key rows old new, p.storage = .Update sk key rows old new →
    InsRows (slotOther H key old new) 0 rows ∧ rows.length ≤ 256 ∧
    (storagePathType old new = some .ExtensionOld → RemRows rows)
  nonce : ∀ x, p.claim.kind = .Nonce none (some x) → ((x : ℕ) : Fr) ≠ 0
  balance : ∀ x, p.claim.kind = .Balance none (some x) → frFromBiguint x ≠ 0
  words : ∀ sk x y, p.claim.kind = .Storage sk x y → (∀ v ∈ x, v < 2 ^ 256) ∧ ∀ v ∈ y, v < 2 ^ 256

theorem sameView_inert {f : URow → URow} (hf : Inert f) (u : URow) : SameView u (f u) :=
  ⟨hf.seg u, hf.path u, hf.domain u, hf.sibling u, hf.oldHash u, hf.newHash u, hf.depth u, hf.key u, hf.otherKey u,
    hf.direction u⟩

theorem pairs_base {ρ : Fr} {p : Proof} {body : List URow}
    (h : Pairs (RowPatched H w U p.claim.kind.proofType (p.claim.oldValueAssignment ρ) (p.claim.newValueAssignment ρ))
      .blank body) :
    Pairs (fun u v => RowPatched H w U u.proof u.oldValue u.newValue u v) .blank (body.map (URow.withBase ρ p.claim)) := by
  have := pairs_congr rfl rfl (sameView_base ρ p.claim body) h
  clear h
  induction body with
  | nil => trivial
  | cons u l ih => exact ⟨this.1, ih this.2⟩

section
variable {ρ : Fr} {p : Proof}

theorem blank_start : (URow.blank).isStart := ⟨rfl, rfl⟩

theorem patched_absent (hR : AbsentReady H p) (hP : ProofStrict H p) {body : List URow}
    (hb : bodyURows H ρ p = some body) {t : MPTProofType} {ov nv : Fr} :
    Pairs (RowPatched H w U t ov nv) .blank body := by
  obtain ⟨other, h1, hb⟩ := Option.bind_eq_some_iff.1 hb
  obtain ⟨trie, h2, hb⟩ := Option.bind_eq_some_iff.1 hb
  obtain ⟨_, -, hb⟩ := Option.bind_eq_some_iff.1 hb
  rw [if_pos (by rw [hR.noOld, hR.noNew]; rfl)] at hb
  cases hb
  have hpath := rowsHonest_path _ _ hR.acc.rows
  have hno : ∀ r ∈ p.accountTrieRows, r.pathType ≠ .ExtensionNew := fun r hr h => by
    cases (hpath r hr).2.1 h
  refine pairs_congr rfl rfl (sameView_modifyLast (f := fun u => u.withAbsence
    (accountKey H p.claim.address - other.1) (finalHashes H p).1 other.2)
    (fun u => ⟨rfl, rfl, rfl, rfl, rfl, rfl, rfl, rfl, rfl, rfl⟩) _) ?_
  have hI := isTries_of _ _ _ h2
  refine ⟨rowPatched_start rfl ?_, tries_patched (.inl rfl) (by simp [URow.isTrie, URow.blank]) _ _ _ hI
    (insRows_common 0 _ hno) (by simpa using hP.account.2) (fun _ => .inl hno) (fun h => by cases h)⟩
  intro hs
  cases trie with
  | nil => cases hs
  | cons v us =>
    obtain ⟨_, -, hh, -⟩ := isTries_mem _ _ _ v hI (by simp)
    rw [List.headD_cons, hh] at hs
    cases hs

theorem patched_new {a : AccountData} (hR : NewReady H p a) (hP : ProofStrict H p) {body : List URow}
    (hb : bodyURows H ρ p = some body) :
    Pairs (RowPatched H w U p.claim.kind.proofType (p.claim.oldValueAssignment ρ) (p.claim.newValueAssignment ρ))
      .blank body := by
  obtain ⟨other, h1, hb⟩ := Option.bind_eq_some_iff.1 hb
  obtain ⟨trie, h2, hb⟩ := Option.bind_eq_some_iff.1 hb
  obtain ⟨fin, h3, hb⟩ := Option.bind_eq_some_iff.1 hb
  obtain ⟨e, he, -⟩ := hR.newAccount
  rw [if_neg (by rw [hR.noOld, he]; simp)] at hb
  obtain ⟨leaf, h4, hb⟩ := Option.bind_eq_some_iff.1 hb
  rw [hR.storage] at hb
  cases hb
  have hoth : other.1 = p.old.key := by
    unfold otherLeaf at h1
    dsimp only at h1
    rcases hR.oldLeaf with ⟨l1, l2⟩ | ⟨d, l1, l2, l3⟩
    · rw [if_neg (by simp [l2]), if_neg (by simp [hR.newKey])] at h1
      cases h1
      rfl
    · rw [if_pos l2, if_pos (.inl hR.newKey), l1] at h1
      cases h1
      rfl
  rw [hoth] at h2 h4
  unfold leafURows at h4
  rw [hR.acc.finalPathType, hR.acc.finalHashes] at h4
  dsimp only at h4
  obtain ⟨fp, e1, h4⟩ := Option.bind_eq_some_iff.1 h4
  cases e1
  obtain ⟨pt, e1, h4⟩ := Option.bind_eq_some_iff.1 h4
  obtain ⟨dirs, e2, h4⟩ := Option.bind_eq_some_iff.1 h4
  obtain ⟨sibs, e3, h4⟩ := Option.bind_eq_some_iff.1 h4
  have hpath := rowsHonest_path _ _ hR.acc.rows
  have hI := isTries_of _ _ _ h2
  obtain ⟨hl, u, l, rfl, hu1, hu2⟩ := leaf_patched (H := H) (w := w) (U := U)
    (ov := p.claim.oldValueAssignment ρ) (nv := p.claim.newValueAssignment ρ) (t := p.claim.kind.proofType) .blank h4
    (siblings_head e3 (decorate_ne h4)) (by
      intro ht
      rcases hR.kind with ⟨n, hk⟩ | ⟨b, hb, hk⟩ <;> rw [hk] at ht <;> cases ht) (by
      intro _ _ x hx
      have htr := hR.traces
      have hs1 := hP.nonce
      have hs2 := hP.balance
      rcases hR.kind with ⟨n, hk⟩ | ⟨b, hb, hk⟩
      · have en : p.newAccountLeafHashes = some [p.newTraces.t5.2.1, p.newTraces.t4.1, p.newTraces.t3.1,
            p.newTraces.t2.1] := by
          unfold Proof.newAccountLeafHashes
          rw [hk]; rfl
        rw [en] at hx
        have hx : p.newTraces.t2.1 = x := by simpa using hx
        rw [← hx, htr]
        have := hs1 n hk
        simpa [accountHashTraces] using this
      · have en : p.newAccountLeafHashes = some [p.newTraces.t5.2.1, p.newTraces.t4.1, p.newTraces.t3.1,
            p.newTraces.t2.2.1] := by
          unfold Proof.newAccountLeafHashes
          rw [hk]; rfl
        rw [en] at hx
        have hx : p.newTraces.t2.2.1 = x := by simpa using hx
        rw [← hx, htr]
        exact hs2 b hk)
  refine (pairs_append _ _ _ _).2 ⟨⟨rowPatched_start rfl ?_, tries_patched (.inl rfl) (by simp [URow.isTrie, hu1]) _ _ _ hI
    hP.account.1 (by simpa using hP.account.2) (fun _ => .inr (by simp [hu1])) (fun h => by cases h)⟩, hl⟩
  intro hs hp
  cases trie with
  | nil =>
    have hlen := isTries_length _ _ _ hI
    have hnil : p.accountTrieRows = [] := List.length_eq_zero_iff.1 (by simpa using hlen.symm)
    have := hR.final (by rw [hnil]; rfl)
    have hl := hR.acc.last
    rw [hnil] at hl
    have hl := congrArg Prod.fst hl
    show p.claim.oldRoot = 0
    rw [← this]
    exact hl
  | cons v us =>
    obtain ⟨_, -, hh, -⟩ := isTries_mem _ _ _ v hI (by simp)
    rw [List.headD_cons, hh] at hs
    cases hs

theorem patched_both {o n : AccountData} {so sn : Fr} (hR : BothReady H p o n so sn) (hP : ProofStrict H p)
    {body : List URow} (hb : bodyURows H ρ p = some body) {t : MPTProofType} {ov nv : Fr} :
    ∃ pre, pre ≠ [] ∧ storageURows H ρ p.storage pre = some body ∧ ∀ e, Pairs (RowPatched H w U t ov nv) e pre := by
  obtain ⟨trie, leaf, dirs, sibs, h2, e1, e2, h4, hb⟩ := body_both hR hb
  refine ⟨_, by simp, hb, fun e => ?_⟩
  have hpath := rowsHonest_path _ _ hR.acc.rows
  have hno : ∀ r ∈ p.accountTrieRows, r.pathType ≠ .ExtensionNew := fun r hr h => by
    cases (hpath r hr).2.1 h
  have hI := isTries_of _ _ _ h2
  obtain ⟨hl, u, l, rfl, hu1, hu2⟩ := leaf_patched (H := H) (w := w) (U := U)
    (ov := ov) (nv := nv) (t := t) e h4
    (siblings_head e2 (decorate_ne h4)) (fun _ => rfl) (fun h => by cases h)
  rw [List.cons_append]
  refine ⟨rowPatched_start rfl ?_, (pairs_append _ _ _ _).2 ⟨tries_patched (.inl rfl) (by simp [URow.isTrie, hu1]) _ _ _ hI
    (insRows_common 0 _ hno) (by simpa using hP.account.2) (fun _ => .inl hno) (fun h => by cases h), hl⟩⟩
  intro hs hp
  cases trie with
  | nil => rw [List.nil_append, List.headD_cons, hu2] at hp; cases hp
  | cons v us =>
    obtain ⟨_, -, hh, -⟩ := isTries_mem _ _ _ v hI (by simp)
    rw [List.cons_append, List.headD_cons, hh] at hs
    cases hs

/-- The cells of an extension storage leaf row that the missing constraints look at. -/
theorem storageExt_view {key hash : Fr} {self other : StorageLeaf} {u v : URow}
    (h : storageExt H key hash self other u = some v) : SameView u v := by
  unfold storageExt at h
  dsimp only at h
  split at h
  · obtain ⟨d, -, rfl⟩ := Option.map_eq_some_iff.1 h
    exact ⟨rfl, rfl, rfl, rfl, rfl, rfl, rfl, rfl, rfl, rfl⟩
  · split at h
    · obtain ⟨d, -, rfl⟩ := Option.map_eq_some_iff.1 h
      exact ⟨rfl, rfl, rfl, rfl, rfl, rfl, rfl, rfl, rfl, rfl⟩
    · cases h; exact ⟨rfl, rfl, rfl, rfl, rfl, rfl, rfl, rfl, rfl, rfl⟩

theorem storageURow_view (ρ key ok : Fr) (pt : PathType) (s a b : Fr) (old new : StorageLeaf) :
    (storageURow H ρ key ok pt s a b old new).seg = .StorageLeaf0 ∧
    (storageURow H ρ key ok pt s a b old new).path = pt ∧
    (storageURow H ρ key ok pt s a b old new).sibling = s ∧
    (storageURow H ρ key ok pt s a b old new).key = key ∧
    (storageURow H ρ key ok pt s a b old new).oldHash = a ∧
    (storageURow H ρ key ok pt s a b old new).newHash = b := by
  cases old <;> cases new <;> exact ⟨rfl, rfl, rfl, rfl, rfl, rfl⟩

theorem rowPatched_slot {t : MPTProofType} {ov nv : Fr} {u v : URow} (hs : u.seg = .StorageLeaf0)
    (hk : u.sibling = u.key)
    (hn : u.path = .ExtensionNew → ∃ x, IsWord (PR H w U) x u.newHash ∧ nv = Spec.rlc w.chal (beBytes 32 x))
    (ho : u.path = .ExtensionOld → ∃ x, IsWord (PR H w U) x u.oldHash ∧ ov = Spec.rlc w.chal (beBytes 32 x)) :
    RowPatched H w U t ov nv u v := by
  constructor
  · exact fun _ => hk
  · rw [hs]; intro h; cases h
  · unfold URow.isTrie; rw [hs]; intro h; simp at h
  · rw [hs]; intro h; cases h
  · exact fun _ => hn
  · exact fun _ => ho
  · rw [hs]; intro h; cases h
  · rw [hs]; intro h; cases h
  · rw [hs]; intro h; cases h

theorem posInputs_of {l rr d h : Fr} (h1 : P1 w U l rr d h) : PosInputs w U l rr d := by
  obtain ⟨r', hr', h1, h2, h3, h4, h5, h6, h7⟩ := h1
  simp only [mul_one] at h1 h2 h3 h4 h5 h6 h7
  exact ⟨r', hr', h1.symm, h5.symm, h7.symm, h3.symm, h4.symm, h6.symm⟩

/-- The word in a storage leaf is opened by the Poseidon table. -/
theorem isWord_entry {sk y : ℕ} (hy : y < 2 ^ 256)
    (hV : ∀ e ∈ (StorageLeaf.Entry sk y).poseidonLookups H, P1 w U e.1 e.2.1 e.2.2.1.toFr e.2.2.2) {h : Fr}
    (hh : (StorageLeaf.Entry sk y).valueHash H = some h) : IsWord (PR H w U) y h := by
  have hP := hV _ List.mem_cons_self
  cases hh
  change P1 w U (((u256HiLo y).1 : ℕ) : Fr) (((u256HiLo y).2 : ℕ) : Fr) HashDomain.Pair.toFr _ at hP
  rw [(c45_split y hy).1] at hP
  refine ⟨hy, ?_, posInputs_of hP⟩
  unfold domainHash StorageLeaf.valueHigh StorageLeaf.valueLow StorageLeaf.value
  rw [(c45_split y hy).1]

theorem patched_slot {leafP : PathType} {a : AccountData} {so sn : Fr} {sk : ℕ}
    {key : Fr} {rows : List TrieRow} {old new : StorageLeaf} (hS : Serves H w U ρ p)
    (hR : SlotReady H leafP p a so sn sk key rows old new)
    (hK : SlotKind H p sk key leafP old new) (hkey : key = storageKeyHash H sk) (hP : ProofStrict H p)
    {body : List URow} (hb : bodyURows H ρ p = some body) :
    Pairs (RowPatched H w U p.claim.kind.proofType (p.claim.oldValueAssignment ρ) (p.claim.newValueAssignment ρ))
      .blank body := by
  obtain ⟨pre, hne, hb, hpre⟩ := patched_both hR.both hP hb (H := H) (w := w) (U := U) (t := p.claim.kind.proofType)
    (ov := p.claim.oldValueAssignment ρ) (nv := p.claim.newValueAssignment ρ)
  obtain ⟨hP1, hP2, hP3⟩ := hP.storage _ _ _ _ _ hR.st
  rw [hR.st] at hb
  unfold storageURows at hb
  obtain ⟨ok, hok, hb⟩ := Option.bind_eq_some_iff.1 hb
  have hok' : ok = slotOther H key old new := by cases hok; rfl
  clear hok
  subst hok'
  obtain ⟨strie, hst, hb⟩ := Option.bind_eq_some_iff.1 hb
  have hpath := rowsHonest_path _ _ hR.honest
  have hV := storageServed_of hS hR.st (ok := slotOther H key old new) rfl
    (fun row hm => (hpath row hm).1)
  have hsp : storagePathType old new = some leafP := by
    cases hK with
    | change x y hk => rfl
    | insert y old hk hyz hold => rcases hold with rfl | ⟨k, v, rfl, -⟩ <;> rfl
    | delete x new hk hxz hnew => rcases hnew with rfl | ⟨k, v, rfl, -⟩ <;> rfl
  rw [hsp] at hb hP3
  obtain ⟨leaf, hl, hb⟩ := Option.bind_eq_some_iff.1 hb
  cases hb
  have hleaf : leaf.seg = .StorageLeaf0 ∧ leaf.path = leafP ∧ RowPatched H w U p.claim.kind.proofType
      (p.claim.oldValueAssignment ρ) (p.claim.newValueAssignment ρ) leaf .blank := by
    cases hK with
    | change x y hk =>
      cases hl
      refine ⟨rfl, rfl, rowPatched_slot rfl ?_ (fun h => by cases h) (fun h => by cases h)⟩
      exact hkey.symm
    | insert y old hk hyz hold =>
      unfold storageLeafURow at hl
      obtain ⟨nn, hnn, hl⟩ := Option.bind_eq_some_iff.1 hl
      have e := storageExt_view hl
      obtain ⟨v1, v2, v3, v4, v5, v6⟩ := storageURow_view (H := H) ρ key (slotOther H key old (.Entry sk y))
        .ExtensionNew ((StorageLeaf.Entry sk y).key H) (old.hash H) nn old (.Entry sk y)
      refine ⟨by rw [e.seg, v1], by rw [e.path, v2], rowPatched_slot (by rw [e.seg, v1]) ?_ (fun _ => ⟨y, ?_, ?_⟩) ?_⟩
      · rw [e.sibling, v3, e.key, v4]; exact hkey.symm
      · rw [e.newHash, v6]
        exact isWord_entry ((hP.words _ _ _ hk).2 y rfl) hV.new hnn
      · rw [hS.chal, ← c47_rlc_eq]
        unfold Claim.newValueAssignment
        rw [hk]; rfl
      · rw [e.path, v2]; intro h; cases h
    | delete x new hk hxz hnew =>
      unfold storageLeafURow at hl
      obtain ⟨nn, hnn, hl⟩ := Option.bind_eq_some_iff.1 hl
      have e := storageExt_view hl
      obtain ⟨v1, v2, v3, v4, v5, v6⟩ := storageURow_view (H := H) ρ key (slotOther H key (.Entry sk x) new)
        .ExtensionOld ((StorageLeaf.Entry sk x).key H) nn (new.hash H) (.Entry sk x) new
      refine ⟨by rw [e.seg, v1], by rw [e.path, v2], rowPatched_slot (by rw [e.seg, v1]) ?_ ?_ (fun _ => ⟨x, ?_, ?_⟩)⟩
      · rw [e.sibling, v3, e.key, v4]; exact hkey.symm
      · rw [e.path, v2]; intro h; cases h
      · rw [e.oldHash, v5]
        exact isWord_entry ((hP.words _ _ _ hk).1 x rfl) hV.old hnn
      · rw [hS.chal, ← c47_rlc_eq]
        unfold Claim.oldValueAssignment
        rw [hk]; rfl
  rw [List.append_assoc]
  refine (pairs_append _ _ _ _).2 ⟨hpre _, (pairs_append _ _ _ _).2 ⟨?_, hleaf.2.2, trivial⟩⟩
  refine tries_patched (.inr rfl) (by simp [URow.isTrie, hleaf.1]) _ _ _ (isTries_of _ _ _ hst) hP1
    (by simpa using hP2) (fun h => by cases h) (fun _ => ?_)
  rw [List.headD_cons, hleaf.2.1]
  by_cases hx : leafP = .ExtensionOld
  · exact .inl ⟨hP3 (by rw [hx]), fun _ => hleaf.1⟩
  · exact .inr ⟨hx, fun r hr h => hx ((hpath r hr).2.2 h)⟩

theorem patched_slotEmpty {a : AccountData} {so : Fr} {sk : ℕ}
    {key : Fr} {rows : List TrieRow} {l : StorageLeaf}
    (hR : SlotReady H .Start p a so so sk key rows l l) (hl : AbsentLeaf H key l) (hP : ProofStrict H p)
    {body : List URow} (hb : bodyURows H ρ p = some body) {t : MPTProofType} {ov nv : Fr} :
    Pairs (RowPatched H w U t ov nv) .blank body := by
  obtain ⟨pre, hne, hb, hpre⟩ := patched_both hR.both hP hb (H := H) (w := w) (U := U) (t := t)
    (ov := ov) (nv := nv)
  obtain ⟨hP1, hP2, hP3⟩ := hP.storage _ _ _ _ _ hR.st
  rw [hR.st] at hb
  unfold storageURows at hb
  obtain ⟨ok, hok, hb⟩ := Option.bind_eq_some_iff.1 hb
  have hok' : ok = slotOther H key l l := by cases hok; rfl
  have hoth : slotOther H key l l = l.key H := by unfold slotOther; split <;> rfl
  clear hok
  subst hok'
  obtain ⟨strie, hst, hb⟩ := Option.bind_eq_some_iff.1 hb
  have hpath := rowsHonest_path _ _ hR.honest
  have hsp : storagePathType l l = none := by
    rcases hl with rfl | ⟨k, v, rfl, -⟩ <;> rfl
  rw [hsp] at hb
  obtain ⟨f, hf, hb⟩ := Option.bind_eq_some_iff.1 hb
  cases hb
  rw [hoth] at hf
  have hf := endCells_of hl rfl hf
  refine pairs_congr rfl rfl (sameView_modifyLast (fun u => sameView_inert hf.inert u) _) ?_
  refine (pairs_append _ _ _ _).2 ⟨hpre _, ?_⟩
  exact tries_patched (.inr rfl) (by simp [URow.isTrie, URow.blank]) _ _ _ (isTries_of _ _ _ hst) hP1
    (by simpa using hP2) (fun h => by cases h)
    (fun _ => .inr ⟨by simp [URow.blank], fun r hr h => by cases (hpath r hr).2.2 h⟩)

/-- **The rows of an honest proof satisfy the missing constraints.** -/
theorem run_patched (hS : Serves H w U ρ p) (hR : ProofReady H p) (hP : ProofStrict H p) {run : List URow}
    (h : assignSingleProof H ρ p = some run) :
    Pairs (fun u v => RowPatched H w U u.proof u.oldValue u.newValue u v) .blank run := by
  have htr : p.addressHashTraces = (p.accountTrieRows.map toHashRow).reverse := by
    cases hR with
    | absent h => exact h.acc.traces
    | fresh a h => exact h.acc.traces
    | field o n so sn r0 h => exact h.acc.traces
    | slot leafP a so sn sk key rows old new h => exact h.both.acc.traces
    | slotEmpty a so sk key rows l h => exact h.both.acc.traces
  obtain ⟨body, hb, rfl⟩ := assignSingleProof_eq htr h
  apply pairs_base
  cases hR with
  | absent hR => exact patched_absent hR hP hb
  | fresh a hR => exact patched_new hR hP hb
  | field o n so sn r0 hR hK hst =>
    obtain ⟨pre, -, hb, hpre⟩ := patched_both hR hP hb (H := H) (w := w) (U := U) (t := p.claim.kind.proofType)
      (ov := p.claim.oldValueAssignment ρ) (nv := p.claim.newValueAssignment ρ)
    rw [hst] at hb
    cases hb
    exact hpre _
  | slot leafP a so sn sk key rows old new hR hK hkey hnil => exact patched_slot hS hR hK hkey hP hb
  | slotEmpty a so sk key rows l hR hK hl hroots hsame hsame' => exact patched_slotEmpty hR hl hP hb

end

/-- Witnesses made of such runs satisfy the missing constraints. -/
theorem Assembly.patched_of_runs {a : Assembly} {U : ℕ} (runs : List (List URow)) (m : ℕ) (hm : 0 < m)
    (hrows : a.rows = runs.flatten ++ List.replicate m (.padding a.H)) (hlen : a.rows.length = a.n - 1)
    (hstart : ∀ run ∈ runs, run ≠ [] ∧ (run.headD .blank).isStart)
    (hruns : ∀ run ∈ runs, Pairs (fun u v => RowPatched a.H a.witness U u.proof u.oldValue u.newValue u v) .blank run) :
    Patched a.H a.n U a.witness := by
  set Q := fun u v : URow => RowPatched a.H a.witness U u.proof u.oldValue u.newValue u v with hQ
  have hcong : ∀ (u v v' : URow), v.isStart → v'.isStart → Q u v → Q u v' := by
    intro u v v' h1 h2 h
    exact rowPatched_congr (.refl u) (h2.1.trans h1.1.symm) (h2.2.trans h1.2.symm) h
  have hpad : ∀ m, Pairs Q .blank (List.replicate m (.padding a.H)) := by
    intro m
    induction m with
    | zero => trivial
    | succ m ih =>
      refine ⟨rowPatched_start rfl ?_, ih⟩
      intro h
      cases m <;> cases h
  have hall : Pairs Q .blank a.rows := by
    rw [hrows]
    clear hrows hlen
    induction runs with
    | nil => exact hpad m
    | cons run runs ih =>
      rw [List.flatten_cons, List.append_assoc]
      refine (pairs_append _ _ _ _).2 ⟨?_, ih (fun r hr => hstart r (by simp [hr])) (fun r hr => hruns r (by simp [hr]))⟩
      refine pairs_head _ (fun u => hcong u _ _ blank_start ?_) (hruns run (by simp))
      cases runs with
      | nil => cases m with
        | zero => exact absurd hm (by simp)
        | succ m => exact ⟨rfl, rfl⟩
      | cons r runs =>
        obtain ⟨h1, h2⟩ := hstart r (by simp)
        cases r with
        | nil => exact absurd rfl h1
        | cons u l => exact h2
  have hget : ∀ r, Enabled a.n r → Q (rowAt a.rows r) (rowAt a.rows (r + 1)) := by
    rintro r ⟨h1, h2⟩
    obtain ⟨k, rfl⟩ : ∃ k : ℕ, r = (k : ℤ) + 1 := ⟨(r - 1).toNat, by omega⟩
    have := pairs_get Q .blank _ hall k (by omega)
    rw [rowAt_succ, show (k : ℤ) + 1 + 1 = ((k + 1 : ℕ) : ℤ) + 1 by push_cast; ring, rowAt_succ]
    exact this
  have hat := a.atRow
  have hseg : ∀ r, segAt a.witness r = (rowAt a.rows r).seg := fun r => OneHot.repr_unique _ _ _ _ (hat r).seg
  have hpath : ∀ r, pathAt a.witness r = (rowAt a.rows r).path := fun r => OneHot.repr_unique _ _ _ _ (hat r).path
  have hproof : ∀ r, proofAt a.witness r = (rowAt a.rows r).proof := fun r => OneHot.repr_unique _ _ _ _ (hat r).proof
  have htrie : ∀ r, IsTrieRow a.witness r ↔ (rowAt a.rows r).isTrie := fun r => by
    unfold IsTrieRow URow.isTrie; rw [hseg]
  constructor
  · intro r hr
    rw [hseg, (hat r).sibling, (hat r).key]; exact (hget r hr).leafKey
  · intro r hr _
    rw [hseg, hseg, hpath, (hat r).oldHash]; exact (hget r hr).emptyRoot
  · intro r hr
    rw [htrie, hpath, (hat r).depth, (hat r).direction, (hat r).otherKey, (hat r).domain]
    have := (hget r hr).levels
    intro h1 h2 i hi hd
    have := this h1 h2 i hi hd
    simp only [htrie]
    convert this
  · intro r hr
    rw [hseg, hproof, hpath]; exact (hget r hr).storageAccount
  · intro r hr
    rw [hseg, hpath, (hat r).newHash, (hat r).newValue]; exact (hget r hr).newWord
  · intro r hr
    rw [hseg, hpath, (hat r).oldHash, (hat r).oldValue]; exact (hget r hr).oldWord
  · intro r hr _
    rw [hseg, hpath, hseg]; exact (hget r hr).leafFollows
  · intro r hr
    rw [hseg, hpath, hproof, (hat r).newHash]; exact (hget r hr).newAccount
  · intro r hr
    rw [hseg, hpath, hpath, hseg, (hat r).domain, (hat r).sibling, (hat r).direction]
    have := (hget r hr).removal
    intro h1 h2 h3
    have := this h1 h2 h3
    convert this

end Mpt
