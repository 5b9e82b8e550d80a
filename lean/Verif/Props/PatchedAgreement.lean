import Verif.Props.PatchedHistory
import Verif.Props.Agreement

set_option autoImplicit false

/-!
# C71 with the gaps closed: no two claims contradict each other
-/

namespace Mpt.Props
open Mpt Spec Types MptUpdate Requests

variable {H : HashFn} {S S' : Fr → Fr → Fr → Prop} {key root : Fr}

theorem collisionFree_symm (C : CollisionFree H (Or3 S S')) : CollisionFree H (Or3 S' S) :=
  C.mono fun _ _ _ h => h.symm

/-- One key cannot lead to a leaf and to nothing. -/
theorem opens_zero (C : CollisionFree H (Or3 S S')) {i : ℕ} {p p' : List Step} {h top k d : Fr}
    (hp : ∀ s ∈ p, IsBranch s.domain) (hp' : ∀ s ∈ p', IsBranch s.domain)
    (ho : Opens (hashRel H S) key i p h top) (hl : Spec.IsLeaf (hashRel H S) k d h)
    (ho' : Opens (hashRel H S') key i p' 0 top) : False := by
  induction p generalizing p' i top with
  | nil =>
    cases p' with
    | nil =>
      have e : h = 0 := Eq.trans (Eq.symm ho) ho'
      exact C.ne_zero (.inl hl.2) (hl.1.symm.trans e)
    | cons s' p' =>
      obtain ⟨x, hx, -⟩ := ho'
      refine branch_ne_leaf (hp' s' (by simp)) ?_
      unfold Spec.Node at hx
      have e : h = top := Eq.symm ho
      split at hx
      · exact (cross_inj C hl hx e).2.2.symm
      · exact (cross_inj C hl hx e).2.2.symm
  | cons s p ih =>
    obtain ⟨y, hy, ho⟩ := ho
    cases p' with
    | nil =>
      have e : top = 0 := ho'
      unfold Spec.Node at hy
      split at hy
      · exact C.ne_zero (.inl hy.2) (hy.1.symm.trans e)
      · exact C.ne_zero (.inl hy.2) (hy.1.symm.trans e)
    | cons s' p' =>
      obtain ⟨y', hy', ho'⟩ := ho'
      have e : y = y' := by
        unfold Spec.Node at hy hy'
        split at hy
        · rename_i hb; rw [if_pos hb] at hy'; exact (cross_inj C hy hy' rfl).2.1
        · rename_i hb; rw [if_neg hb] at hy'; exact (cross_inj C hy hy' rfl).1
      subst e
      exact ih (fun x hx => hp x (by simp [hx])) (fun x hx => hp' x (by simp [hx])) ho ho'

theorem leafAt_not_empty (C : CollisionFree H (Or3 S S')) {d : Fr} (h : LeafAt (hashRel H S) key root key d)
    (he : EmptyPath (hashRel H S') key root) : False := by
  obtain ⟨p, x, h1, h2, h3⟩ := h
  obtain ⟨p', y, g1, g2, g3⟩ := he
  rcases g3 with rfl | ⟨k, d', hk, -, -, hl⟩
  · exact opens_zero C h1 g1.2 h2 h3 g2
  · exact hk (opens_unique C h1 g1.2 h2 g2 h3 hl).1.symm

theorem accountAt_not_empty (C : CollisionFree H (Or3 S S')) {l r p : Fr}
    (h : AccountAt (hashRel H S) key root key l r p) (he : EmptyPath (hashRel H S') key root) : False := by
  obtain ⟨d, f, h, -⟩ := h
  exact leafAt_not_empty C h he

/-- The account opened along `key` has the storage trie with the root `sr`. -/
def StorageAt (R : HashRel) (key root sr : Fr) : Prop :=
  ∃ l r p kh, AccountAt R key root key l r p ∧ IsRight R sr kh r

theorem storageAt_unique (C : CollisionFree H (Or3 S S')) {sr sr' : Fr}
    (h : StorageAt (hashRel H S) key root sr) (h' : StorageAt (hashRel H S') key root sr') : sr = sr' := by
  obtain ⟨l, r, p, kh, h1, h2⟩ := h
  obtain ⟨l', r', p', kh', h1', h2'⟩ := h'
  obtain ⟨-, -, e, -⟩ := accountAt_unique C h1 h1'
  exact (cross_inj C h2 h2' e).1

/-- What is known about a field of the account with this key. -/
inductive Says (R : HashRel) (key root : Fr) (t : MPTProofType) (slot : ℕ) : ℕ → Prop
  | field (x : ℕ) (ht : t ≠ .StorageChanged) (h : FieldAt R key root key t slot x) : Says R key root t slot x
  | slot (x : ℕ) (sr sk h : Fr) (ht : t = .StorageChanged) (hs : StorageAt R key root sr) (hk : IsWord R slot sk)
      (hl : LeafAt R sk sr sk h) (hw : IsWord R x h) : Says R key root t slot x
  | noAccount (h : EmptyPath R key root) : Says R key root t slot 0
  | noSlot (sr sk : Fr) (ht : t = .StorageChanged) (hs : StorageAt R key root sr) (hk : IsWord R slot sk)
      (he : EmptyPath R sk sr) : Says R key root t slot 0

theorem field_not_empty (C : CollisionFree H (Or3 S S')) {t : MPTProofType} {slot x : ℕ}
    (h : FieldAt (hashRel H S) key root key t slot x) (he : EmptyPath (hashRel H S') key root) : False := by
  cases t with
  | NonceChanged => obtain ⟨l, r, p, sz, b, h1, -⟩ := h; exact accountAt_not_empty C h1 he
  | CodeSizeExists => obtain ⟨l, r, p, sz, b, h1, -⟩ := h; exact accountAt_not_empty C h1 he
  | BalanceChanged => obtain ⟨l, r, p, nc, h1, -⟩ := h; exact accountAt_not_empty C h1 he
  | CodeHashExists => obtain ⟨l, r, p, sr, b, h1, -⟩ := h; exact accountAt_not_empty C h1 he
  | PoseidonCodeHashExists => obtain ⟨d, f, h1, -⟩ := h; exact leafAt_not_empty C h1 he
  | StorageChanged => obtain ⟨l, r, p, sr, kh, sk, k1, hh, h1, -⟩ := h; exact accountAt_not_empty C h1 he
  | AccountDoesNotExist => exact h.elim
  | StorageDoesNotExist => exact h.elim
  | AccountDestructed => exact h.elim

theorem storageAt_not_empty (C : CollisionFree H (Or3 S S')) {sr : Fr} (h : StorageAt (hashRel H S) key root sr)
    (he : EmptyPath (hashRel H S') key root) : False := by
  obtain ⟨l, r, p, kh, h1, -⟩ := h
  exact accountAt_not_empty C h1 he

/-- Two circuits cannot say different things about a root. -/
theorem says_unique (C : CollisionFree H (Or3 S S')) {t : MPTProofType} {slot x y : ℕ}
    (h : Says (hashRel H S) key root t slot x) (h' : Says (hashRel H S') key root t slot y) : SameValue t x y := by
  cases h with
  | field _ ht h =>
    cases h' with
    | field _ ht' h' => exact (fieldAt_unique C h h').2
    | slot _ _ _ _ ht' => exact absurd ht' ht
    | noAccount h' => exact (field_not_empty C h h').elim
    | noSlot _ _ ht' => exact absurd ht' ht
  | slot _ sr sk hh ht hs hk hl hw =>
    cases h' with
    | field _ ht' h' => exact absurd ht ht'
    | slot _ sr' sk' hh' ht' hs' hk' hl' hw' =>
      have e1 := storageAt_unique C hs hs'
      have e2 : sk = sk' := (isWord_hash hk).trans (isWord_hash hk').symm
      subst e1 e2
      exact .inl (isWord_unique C hw hw' (leafAt_unique C hl hl').2)
    | noAccount h' => exact (storageAt_not_empty C hs h').elim
    | noSlot sr' sk' ht' hs' hk' he' =>
      have e1 := storageAt_unique C hs hs'
      have e2 : sk = sk' := (isWord_hash hk).trans (isWord_hash hk').symm
      subst e1 e2
      exact (leafAt_not_empty C hl he').elim
  | noAccount h =>
    cases h' with
    | field _ ht' h' => exact (field_not_empty (collisionFree_symm C) h' h).elim
    | slot _ sr' sk' hh' ht' hs' hk' hl' hw' => exact (storageAt_not_empty (collisionFree_symm C) hs' h).elim
    | noAccount h' => exact .inl rfl
    | noSlot sr' sk' ht' hs' hk' he' => exact .inl rfl
  | noSlot sr sk ht hs hk he =>
    cases h' with
    | field _ ht' h' => exact absurd ht ht'
    | slot _ sr' sk' hh' ht' hs' hk' hl' hw' =>
      have e1 := storageAt_unique C hs hs'
      have e2 : sk = sk' := (isWord_hash hk).trans (isWord_hash hk').symm
      subst e1 e2
      exact (leafAt_not_empty (collisionFree_symm C) hl' he).elim
    | noAccount h' => exact .inl rfl
    | noSlot sr' sk' ht' hs' hk' he' => exact .inl rfl

/-! ## Reading claims -/

variable {n U : ℕ} {w : Witness Fr} {t : MPTProofType}
variable {address slotRlc oldRootRlc newRootRlc oldValue newValue : Fr}

/-- What a run says about one of its two roots. `v` is the value there. -/
structure ClaimReads (H : HashFn) (w : Witness Fr) (U : ℕ) (t : MPTProofType) (key root slotRlc v : Fr) : Prop where
  out : TableOutput H w U root
  content : (EmptyPath (PR H w U) key root ∧ v = 0) ∨
    (t ≠ .AccountDoesNotExist ∧ ∃ slot x, Says (PR H w U) key root (if t = .StorageDoesNotExist then .StorageChanged else t) slot x ∧
      v = valueCode w.chal t x ∧ ValueFits t x ∧
      (t = .BalanceChanged ∨ t = .CodeHashExists ∨ t = .StorageChanged → TableWord w U x) ∧
      (t = .StorageChanged ∨ t = .StorageDoesNotExist →
        slot < 2 ^ 256 ∧ TableWord w U slot ∧ slotRlc = rlc w.chal (beBytes 32 slot)))

theorem present_leafAt {R : HashRel} (h : Present R key root) : ∃ d, LeafAt R key root key d := by
  obtain ⟨path, d, leaf, h1, h2, h3⟩ := h
  exact ⟨d, path, leaf, h1.2, h2, h3⟩

theorem reads_empty {v : Fr} (h : EmptyPath (PR H w U) key root) (hv : v = 0) : ClaimReads H w U t key root slotRlc v :=
  ⟨out_of_empty h, .inl ⟨h, hv⟩⟩

theorem claimReads_of {v k : Fr} {slot x : ℕ} (h : ReadOff H w U t key root slotRlc v k slot x) (hk : k = key)
    (ht : t ≠ .StorageChanged) : ClaimReads H w U t key root slotRlc v := by
  subst hk
  have hf := h.field
  have h1 : t ≠ .AccountDoesNotExist := by rintro rfl; exact hf.elim
  have h2 : t ≠ .StorageDoesNotExist := by rintro rfl; exact hf.elim
  refine ⟨out_of_fieldAt hf, .inr ⟨h1, slot, x, ?_, h.value, h.fits, h.word, ?_⟩⟩
  · rw [if_neg h2]; exact .field _ ht hf
  · rintro (e | e)
    · exact absurd e ht
    · exact absurd e h2

theorem splitLevels_branch (key h : Fr) (i e : ℕ) : ∀ s ∈ splitLevels key h i e, IsBranch s.domain := by
  induction e generalizing i with
  | zero => intro s hs; simp only [splitLevels, List.mem_singleton] at hs; subst hs; exact .inl rfl
  | succ e ih =>
    intro s hs
    simp only [splitLevels, List.mem_cons] at hs
    rcases hs with rfl | hs
    · dsimp only
      split
      · exact .inr (.inl rfl)
      · exact .inr (.inr (.inl rfl))
    · exact ih _ s hs

variable {oldRoot newRoot : Fr}

theorem insertion_old {R : HashRel} {leaf : Fr} (h : ProperInsertion R key oldRoot newRoot leaf) :
    EmptyPath R key oldRoot := by
  obtain ⟨pre, ext, x, h1, h2, h3, -⟩ := h
  exact ⟨pre, x, h1, h2.opens_old, h3⟩

theorem insertion_new {R : HashRel} {leaf k d : Fr} (h : ProperInsertion R key oldRoot newRoot leaf)
    (hl : Spec.IsLeaf R k d leaf) : LeafAt R key newRoot k d := by
  obtain ⟨pre, ext, x, h1, h2, h3, h4⟩ := h
  have he : ∀ s ∈ ext, IsBranch s.domain := by
    rcases h4 with ⟨rfl, -⟩ | ⟨k', d', e, -, -, -, rfl⟩
    · simp
    · exact splitLevels_branch _ _ _ _
  obtain ⟨path, -, g1, g2⟩ := h2.opens_new h1.2 he
  exact ⟨path, leaf, g1, g2, hl⟩

theorem removal_new {R : HashRel} {leaf : Fr} (h : ProperRemoval R key oldRoot newRoot leaf) :
    EmptyPath R key newRoot := by
  obtain ⟨pre, ext, x, h1, h2, h3, h4, h5, -⟩ := h
  exact ⟨pre, x, h1, h3.opens_old, h5⟩

theorem removal_old {R : HashRel} {leaf k d : Fr} (h : ProperRemoval R key oldRoot newRoot leaf)
    (hl : Spec.IsLeaf R k d leaf) : LeafAt R key oldRoot k d := by
  obtain ⟨pre, ext, x, h1, h2, h3, h4, h5, -⟩ := h
  obtain ⟨path, -, g1, g2⟩ := h3.opens_new h1.2 h2.2
  exact ⟨path, leaf, g1, g2, hl⟩

theorem account_insertion {R : HashRel} {leaf k l r p : Fr} (h : ProperInsertion R key oldRoot newRoot leaf)
    (ha : IsAccount R k l r p leaf) : AccountAt R key newRoot k l r p := by
  obtain ⟨f, d, h1, h2, h3⟩ := ha
  exact ⟨d, f, insertion_new h h3, h1, h2⟩

/-- The key in the leaf that is opened, if the account is there. -/
theorem fieldAt_leaf {R : HashRel} {k : Fr} {slot x : ℕ} (h : FieldAt R key root k t slot x) :
    ∃ d, LeafAt R key root k d := by
  cases t with
  | NonceChanged => obtain ⟨l, r, p, sz, b, ⟨d, f, h1, -⟩, -⟩ := h; exact ⟨d, h1⟩
  | CodeSizeExists => obtain ⟨l, r, p, sz, b, ⟨d, f, h1, -⟩, -⟩ := h; exact ⟨d, h1⟩
  | BalanceChanged => obtain ⟨l, r, p, nc, ⟨d, f, h1, -⟩, -⟩ := h; exact ⟨d, h1⟩
  | CodeHashExists => obtain ⟨l, r, p, sr, b, ⟨d, f, h1, -⟩, -⟩ := h; exact ⟨d, h1⟩
  | PoseidonCodeHashExists => obtain ⟨d, f, h1, -⟩ := h; exact ⟨d, h1⟩
  | StorageChanged => obtain ⟨l, r, p, sr, kh, sk, k1, hh, ⟨d, f, h1, -⟩, -⟩ := h; exact ⟨d, h1⟩
  | AccountDoesNotExist => exact h.elim
  | StorageDoesNotExist => exact h.elim
  | AccountDestructed => exact h.elim

theorem collisionFree_self (C : CollisionFree H S) : CollisionFree H (Or3 S S) := C.mono fun _ _ _ h => h.elim id id

theorem reads_update (C : CollisionFree H (PosInputs w U)) (hp : Present (PR H w U) key oldRoot)
    (ht : t ≠ .StorageChanged)
    (h : ∃ k xo xn, ReadOff H w U t key oldRoot slotRlc oldValue k 0 xo ∧
      ReadOff H w U t key newRoot slotRlc newValue k 0 xn) :
    ClaimReads H w U t key oldRoot slotRlc oldValue ∧ ClaimReads H w U t key newRoot slotRlc newValue := by
  obtain ⟨k, xo, xn, h1, h2⟩ := h
  obtain ⟨d, hd⟩ := present_leafAt hp
  obtain ⟨d', hd'⟩ := fieldAt_leaf h1.field
  have hk : k = key := (leafAt_unique (collisionFree_self C) hd' hd).1
  exact ⟨claimReads_of h1 hk ht, claimReads_of h2 hk ht⟩

theorem present_not_empty (C : CollisionFree H (PosInputs w U)) (hp : Present (PR H w U) key root)
    (he : EmptyPath (PR H w U) key root) : False := by
  obtain ⟨d, hd⟩ := present_leafAt hp
  exact leafAt_not_empty (collisionFree_self C) hd he

theorem reads_storage (C : CollisionFree H (PosInputs w U)) (hp : Present (PR H w U) key oldRoot) {sk so sn : Fr}
    (hs : IsSlot (PR H w U) w.chal sk slotRlc) (hu : StorageRootUpdate (PR H w U) key oldRoot newRoot so sn)
    (hw : SlotWrite (PR H w U) w.chal sk so sn oldValue newValue) :
    ClaimReads H w U .StorageChanged key oldRoot slotRlc oldValue ∧
      ClaimReads H w U .StorageChanged key newRoot slotRlc newValue := by
  obtain ⟨slot, hsl, hr⟩ := hs
  obtain ⟨k, l, p, kh, ro, rn, lfo, lfn, r1, r2, a1, a2, path, hg, o1, o2⟩ := hu
  have b1 := accountAt_of hg o1 a1
  have b2 := accountAt_of hg o2 a2
  obtain ⟨d, hd⟩ := present_leafAt hp
  have hk : k = key := by
    obtain ⟨d', f, hd', -⟩ := b1
    exact (leafAt_unique (collisionFree_self C) hd' hd).1
  subst hk
  have s1 : StorageAt (PR H w U) k oldRoot so := ⟨l, ro, p, kh, b1, r1⟩
  have s2 : StorageAt (PR H w U) k newRoot sn := ⟨l, rn, p, kh, b2, r2⟩
  have q1 := out_of_accountAt b1
  have q2 := out_of_accountAt b2
  have full : ∀ {root v sr h : Fr} {x : ℕ}, TableOutput H w U root → StorageAt (PR H w U) k root sr →
      LeafAt (PR H w U) sk sr sk h → IsWord (PR H w U) x h → v = rlc w.chal (beBytes 32 x) →
      ClaimReads H w U .StorageChanged k root slotRlc v := by
    intro root v sr h x q s hl hx hv
    exact ⟨q, .inr ⟨by simp, slot, x, .slot x sr sk h (by simp) s hsl hl hx, hv, hx.1, fun _ => tableWord_word hx,
      fun _ => ⟨hsl.1, tableWord_word hsl, hr⟩⟩⟩
  have none : ∀ {root v sr : Fr}, TableOutput H w U root → StorageAt (PR H w U) k root sr →
      EmptyPath (PR H w U) sk sr → v = 0 → ClaimReads H w U .StorageChanged k root slotRlc v := by
    intro root v sr q s he hv
    exact ⟨q, .inr ⟨by simp, slot, 0, .noSlot sr sk (by simp) s hsl he, by rw [hv, valueCode_zero],
      by norm_num [ValueFits], fun _ => .inl rfl, fun _ => ⟨hsl.1, tableWord_word hsl, hr⟩⟩⟩
  cases hw with
  | update xo xn ho hn lo ln v1 v2 _ _ w1 w2 l1 l2 hp' =>
    obtain ⟨path', hg', o1', o2'⟩ := hp'
    exact ⟨full q1 s1 ⟨path', lo, hg'.2, o1', l1⟩ w1 v1, full q2 s2 ⟨path', ln, hg'.2, o2', l2⟩ w2 v2⟩
  | insert xn hn leaf v1 v2 _ w2 l2 hi => exact ⟨none q1 s1 (insertion_old hi) v1, full q2 s2 (insertion_new hi l2) w2 v2⟩
  | delete xo ho leaf v2 v1 _ w1 l1 hi => exact ⟨full q1 s1 (removal_old hi l1) w1 v1, none q2 s2 (removal_new hi) v2⟩

/-- What a run says about its two roots, if the gaps are closed. -/
theorem reads_run {s e : ℤ} (R : Run H n U w s e) (T : TablesOK w U) (P : Patched H n U w)
    (C : CollisionFree H (PosInputs w U)) :
    ClaimReads H w U (proofAt w s) (w.adv .key s) (w.adv .oldHash s) (w.adv .storageKeyRlc s) (w.adv .oldValue s) ∧
    ClaimReads H w U (proofAt w s) (w.adv .key s) (w.adv .newHash s) (w.adv .storageKeyRlc s) (w.adv .newValue s) := by
  rcases R.absent_strict T P with hp | ⟨-, h2, h3, h4, h5⟩ | ⟨h1, h2⟩
  · have none : EmptyPath (PR H w U) (w.adv .key s) (w.adv .oldHash s) → False := present_not_empty C hp
    have insOld : ∀ {leaf : Fr}, InsertedLeaf (PR H w U) (w.adv .key s) (w.adv .oldHash s) (w.adv .newHash s) leaf →
        False := by
      rintro leaf ⟨pre, ext, x, g1, -, -, g2, -, g3⟩
      exact none ⟨pre, x, g1, g2.opens_old, g3⟩
    have push : PushedDown (PR H w U) (w.adv .key s) (w.adv .oldHash s) (w.adv .newHash s) → False := by
      rintro ⟨pre, ext, x, -, g1, -, -, g2, -, g3⟩
      exact none ⟨pre, x, g1, g2.opens_old, g3⟩
    cases ht : proofAt w s with
    | NonceChanged =>
      rcases R.nonce_sound T ht with h | h | h | h
      · exact (none h.empty).elim
      · exact reads_update C hp (by simp) (off_nonce h)
      · obtain ⟨k, x, l, lf, -, -, -, -, -, hi⟩ := h
        exact (insOld hi).elim
      · exact (push h.2.2).elim
    | BalanceChanged =>
      rcases R.balance_sound T ht with h | h | h | h
      · exact (none h.empty).elim
      · exact reads_update C hp (by simp) (off_balance h)
      · obtain ⟨k, x, l, lf, -, -, -, -, -, hi⟩ := h
        exact (insOld hi).elim
      · exact (push h.2.2).elim
    | CodeSizeExists =>
      rcases R.codeSize_sound T ht with h | h
      · exact (none h.empty).elim
      · exact reads_update C hp (by simp) (off_codeSize h)
    | CodeHashExists =>
      rcases R.codeHash_sound T ht with h | h
      · exact (none h.empty).elim
      · exact reads_update C hp (by simp) (off_codeHash h)
    | PoseidonCodeHashExists => exact reads_update C hp (by simp) (off_poseidon (R.poseidonCodeHash_sound T ht))
    | StorageChanged =>
      obtain ⟨slot, so, sn, g1, -, g3, g4⟩ := R.storage_strict T P ht
      exact reads_storage C hp g1 g3 g4
    | AccountDoesNotExist =>
      obtain ⟨-, -, -, h4⟩ := R.emptyAccount_sound T ht
      exact (none h4).elim
    | StorageDoesNotExist =>
      obtain ⟨g1, g2, g3, g4⟩ := R.emptyStorage_sound T ht
      rcases g4 with g4 | ⟨sk, ⟨slot, hsl, hr⟩, g4⟩
      · exact (none g4).elim
      obtain ⟨k, l, r, p, kh, sr, leaf, path, k1, k2, k3, k4, k5⟩ := g4
      have b1 := accountAt_of k1 k2 k3
      have hk : k = w.adv .key s := by
        obtain ⟨d, hd⟩ := present_leafAt hp
        obtain ⟨d', f, hd', -⟩ := b1
        exact (leafAt_unique (collisionFree_self C) hd' hd).1
      rw [hk] at b1
      have main : ∀ {v : Fr}, v = 0 → ClaimReads H w U .StorageDoesNotExist (w.adv .key s) (w.adv .oldHash s)
          (w.adv .storageKeyRlc s) v := fun hv =>
        ⟨out_of_accountAt b1, .inr ⟨by simp, slot, 0, .noSlot sr sk (by simp) ⟨l, r, p, kh, b1, k4⟩ hsl k5,
          by rw [hv, valueCode_zero], rfl, by simp, fun _ => ⟨hsl.1, tableWord_word hsl, hr⟩⟩⟩
      exact ⟨main g1, g3 ▸ main g2⟩
    | AccountDestructed => exact (R.not_destructed ht).elim
  · exact ⟨reads_empty h5 h3, h2 ▸ reads_empty h5 h4⟩
  · cases h2 with
    | nonce x left leaf ht hx0 hx hnv l1 a1 hi =>
      refine ⟨reads_empty (insertion_old hi) h1, ?_⟩
      rw [ht]
      exact claimReads_of (slot := 0) (x := x) ⟨⟨left, _, _, 0, 0, account_insertion hi a1, hx, by norm_num, l1⟩, hnv, hx,
        by simp, by simp⟩ rfl (by simp)
    | balance x left leaf ht hx0 hx hnv l1 a1 hi =>
      refine ⟨reads_empty (insertion_old hi) h1, ?_⟩
      rw [ht]
      exact claimReads_of (slot := 0) (x := x) ⟨⟨left, _, _, 0, account_insertion hi a1, hx, l1⟩,
        hnv.trans (rlc_31 hx _).symm, lt_trans hx (by norm_num), fun _ => tableWord_right hx l1, by simp⟩ rfl (by simp)

/-- What an exposed claim says about its two roots, if the gaps are closed. -/
theorem reads_claim (h : Accepted H n U w) (T : TablesOK w U) (P : Patched H n U w)
    (C : CollisionFree H (PosInputs w U))
    (hx : Exposes w U t address slotRlc oldRootRlc newRootRlc oldValue newValue) (s : Side) :
    ∃ (a : ℕ) (root : Fr), a < 2 ^ 160 ∧ address = (a : Fr) ∧ s.pick oldRootRlc newRootRlc = rootRlc w.chal root ∧
      ClaimReads H w U t (addressKey H a) root slotRlc (s.pick oldValue newValue) := by
  rcases hx.run h T with ⟨h1, h2, -, h4, h5, h6, h7⟩ | ⟨r, e, a, R, h1, h2, h3, h4, h5, h6, h7, h8⟩
  · refine ⟨0, 0, by norm_num, by simpa using h2, ?_, ?_⟩
    · rw [rootRlc_zero, h4, h5]; cases s <;> rfl
    · refine ⟨.inl rfl, .inl ⟨⟨[], 0, ⟨by simp, by simp⟩, rfl, .inl rfl⟩, ?_⟩⟩
      rw [h6, h7]; cases s <;> rfl
  · obtain ⟨g1, g2⟩ := reads_run R T P C
    have hk : addressKey H a = w.adv .key r := h3.2.1.symm
    rw [h1, ← hk, ← h4] at g1 g2
    rw [← h7] at g1
    rw [← h8] at g2
    cases s with
    | old => exact ⟨a, _, h3.1, h2, h5, g1⟩
    | new => exact ⟨a, _, h3.1, h2, h6, g2⟩

/-- The types of claims that are about a field. -/
def IsField (t : MPTProofType) : Prop :=
  t ≠ .AccountDoesNotExist ∧ t ≠ .StorageDoesNotExist ∧ t ≠ .AccountDestructed

theorem says_slot {R : HashRel} {slot slot' x : ℕ} (ht : t ≠ .StorageChanged) (h : Says R key root t slot x) :
    Says R key root t slot' x := by
  cases h with
  | field _ _ h =>
    refine .field _ ht ?_
    revert h; unfold FieldAt; split <;> first | exact id | contradiction
  | slot _ _ _ _ ht' => exact absurd ht' ht
  | noAccount h => exact .noAccount h
  | noSlot _ _ ht' => exact absurd ht' ht

/-- A claim in exact terms, read off a patched circuit with a challenge that separates what is compared. -/
theorem says_of_claim (h : Accepted H n U w) (T : TablesOK w U) (P : Patched H n U w)
    (C : CollisionFree H (PosInputs w U)) {B : Finset (List ℕ)}
    (hsep : Separates w.chal B) (hcom : committed H w U ⊆ B) {c : StateClaim} (hc : c.Fits)
    (hB : ∀ b ∈ claimStrings [c], b ∈ B) (hx : ClaimExposed c w U) {s : Side} {t : MPTProofType} {slot v : ℕ}
    (ha : c.Ascribes s t slot v) (ht : IsField t) :
    ∃ x, Says (PR H w U) (accountKey H c.address) (c.root s) t slot x ∧ SameValue t v x := by
  have hB' : beBytes 32 c.slot ∈ B ∧ frBytes c.oldRoot ∈ B ∧ frBytes c.newRoot ∈ B ∧ beBytes 32 c.oldValue ∈ B ∧
      beBytes 32 c.newValue ∈ B := by
    simp only [claimStrings, List.flatMap_cons, List.flatMap_nil, List.append_nil, List.mem_cons,
      List.not_mem_nil, or_false, forall_eq_or_imp, forall_eq] at hB
    exact hB
  obtain ⟨b1, b2, b3, b4, b5⟩ := hB'
  have hx' : Exposes w U c.type (beVal c.address : Fr) (rlc w.chal (beBytes 32 c.slot)) (rootRlc w.chal c.oldRoot)
    (rootRlc w.chal c.newRoot) (valueCode w.chal c.type c.oldValue) (valueCode w.chal c.type c.newValue) := hx
  have b0 : beBytes 32 0 ∈ B := hcom (committed_word (.inl rfl))
  have fs : ValueFits c.type (c.value s) := by cases s; exacts [hc.oldValue, hc.newValue]
  have bs : beBytes 32 (c.value s) ∈ B := by cases s; exacts [b4, b5]
  have br : frBytes (c.root s) ∈ B := by cases s; exacts [b2, b3]
  have ev : s.pick (valueCode w.chal c.type c.oldValue) (valueCode w.chal c.type c.newValue) =
      valueCode w.chal c.type (c.value s) := by cases s <;> rfl
  have er : s.pick (rootRlc w.chal c.oldRoot) (rootRlc w.chal c.newRoot) = rootRlc w.chal (c.root s) := by
    cases s <;> rfl
  obtain ⟨a, root, h1, h2, h3, hr⟩ := reads_claim h T P C hx' s
  rw [er] at h3
  rw [ev] at hr
  have hk : accountKey H c.address = addressKey H a := accountKey_eq_addressKey hc.address h1 h2
  have hroot : c.root s = root := root_inj hsep br (hcom (committed_output hr.out)) h3
  rw [hk, hroot]
  rcases hr.content with ⟨he, h0⟩ | ⟨hne, slot', x, hs, hv, hf, hw, hsl⟩
  · refine ⟨0, .noAccount he, ?_⟩
    rcases ha with ⟨e, -, rfl⟩ | ⟨-, rfl⟩ | ⟨-, -, -, rfl⟩
    · rw [← e]
      refine value_inj hsep fs ?_ (fun _ => ⟨bs, b0⟩) (h0.trans valueCode_zero.symm)
      unfold ValueFits; split <;> simp
    · exact .inl rfl
    · exact .inl rfl
  · have hslot : c.type = .StorageChanged ∨ c.type = .StorageDoesNotExist → slot' = c.slot := by
      intro e
      obtain ⟨g1, g2, g3⟩ := hsl e
      exact (word_inj hsep b1 (hcom (committed_word g2)) hc.slot g1 g3).symm
    rcases ha with ⟨e, e', rfl⟩ | ⟨e, -⟩ | ⟨e, rfl, e', rfl⟩
    · rw [if_neg (by rw [e]; exact ht.2.1)] at hs
      refine ⟨x, ?_, ?_⟩
      · rw [e] at hs
        by_cases hst : t = .StorageChanged
        · rw [← e' hst, ← hslot (.inl (e.trans hst))]; exact hs
        · exact says_slot hst hs
      · rw [← e]
        exact value_inj hsep fs hf (fun ht => ⟨bs, hcom (committed_word (hw ht))⟩) hv
    · exact absurd e hne
    · rw [if_pos e] at hs
      rw [e] at hf
      have hx0 : x = 0 := hf
      rw [hslot (.inr e), e', hx0] at hs
      exact ⟨0, hs, .inl rfl⟩

/-- Claims read off two patched circuits do not contradict each other. -/
theorem patched_agree {n' U' : ℕ} {w' : Witness Fr} (h : Accepted H n U w) (T : TablesOK w U) (P : Patched H n U w)
    (h' : Accepted H n' U' w') (T' : TablesOK w' U') (P' : Patched H n' U' w') {B B' : Finset (List ℕ)}
    (hsep : Separates w.chal B) (hsep' : Separates w'.chal B') (hcom : committed H w U ⊆ B)
    (hcom' : committed H w' U' ⊆ B') {c d : StateClaim} (hc : c.Fits) (hd : d.Fits)
    (hB : ∀ b ∈ claimStrings [c], b ∈ B) (hB' : ∀ b ∈ claimStrings [d], b ∈ B')
    (hx : ClaimExposed c w U) (hx' : ClaimExposed d w' U')
    (C : CollisionFree H (Or3 (PosInputs w U) (PosInputs w' U'))) (s s' : Side) : ¬ c.Contradicts s d s' := by
  rintro ⟨e1, e2, t, slot, v, v', a1, a2, hv⟩
  by_cases ht : IsField t
  · obtain ⟨x, g1, g2⟩ := says_of_claim h T P (C.mono fun _ _ _ h => .inl h) hsep hcom hc hB hx a1 ht
    obtain ⟨y, k1, k2⟩ := says_of_claim h' T' P' (C.mono fun _ _ _ h => .inr h) hsep' hcom' hd hB' hx' a2 ht
    rw [← e1, ← e2] at k1
    exact hv (sameValue_trans g2 (sameValue_trans (says_unique C g1 k1) (sameValue_symm k2)))
  · have zero : ∀ {c : StateClaim} {s : Side} {v : ℕ}, c.Fits → c.Ascribes s t slot v → v = 0 := by
      intro c s v hc ha
      have fs : ValueFits c.type (c.value s) := by cases s; exacts [hc.oldValue, hc.newValue]
      rcases ha with ⟨e, -, rfl⟩ | ⟨-, rfl⟩ | ⟨-, -, -, rfl⟩
      · rw [e] at fs
        cases t <;> first | exact fs | exact absurd ⟨by simp, by simp, by simp⟩ ht
      · rfl
      · rfl
    rw [zero hc a1, zero hd a2] at hv
    exact hv (.inl rfl)

/-- **C71 with the gaps closed.** If the circuit also enforces the missing constraints (C63), no two claims of any
types contradict each other: for all but `31 * (3 U + 11 choose 2)` challenges, two claims that ascribe to one root
different values of a field or slot of an account, or of which one denies the account or the slot, cannot both be
looked up in an accepted completion. No state needs to be known. -/
theorem c71_patched {w₀ : Witness Fr} (hE : EdgesOK n w₀) {c d : StateClaim}
    (hc : c.Fits) (hd : d.Fits) {s s' : Side} (C : CollisionFree H (PosInputs w₀ U)) (hcd : c.Contradicts s d s') :
    (PatchedChallenges H n U w₀ [c, d]).ncard ≤ 31 * (3 * U + 11).choose 2 := by
  have : Fintype Fr := inferInstance
  have hsub : PatchedChallenges H n U w₀ [c, d] ⊆ {ρ | ¬ Separates ρ (compared H w₀ U [c, d])} := by
    rintro ρ ⟨w, rfl, hf, hacc, P, hx⟩ hsep
    have T := hacc.tablesOK (hE.same hf)
    have hcom : committed H w U ⊆ compared H w₀ U [c, d] := by
      rw [← committed_same hf]; exact Finset.subset_union_left
    have hB : ∀ e, e = c ∨ e = d → ∀ b ∈ claimStrings [e], b ∈ compared H w₀ U [c, d] := by
      intro e he b hb
      refine Finset.mem_union_right _ ?_
      simp only [claimStrings, List.mem_toFinset, List.mem_flatMap, List.mem_singleton] at hb ⊢
      obtain ⟨_, rfl, hb⟩ := hb
      exact ⟨_, by simpa using he, hb⟩
    exact patched_agree hacc T P hacc T P hsep hsep hcom hcom hc hd (hB c (.inl rfl)) (hB d (.inr rfl))
      (hx c (by simp)) (hx d (by simp)) (C.mono fun _ _ _ h => (posInputs_same hf).2 (h.elim id id)) s s' hcd
  refine le_trans (Set.ncard_le_ncard hsub (Set.toFinite _)) ?_
  refine le_trans (separates_all_but _ fun b hb => compared_bytes hb) ?_
  exact Nat.mul_le_mul_left _ (Nat.choose_le_choose 2 (compared_card H w₀ U [c, d]))

/-- The same for claims that are looked up in two circuits, with their own commitments and challenges. -/
theorem c71_patched_two_circuits {n' U' : ℕ} {w₀ w₁ : Witness Fr} (hE : EdgesOK n w₀) (hE' : EdgesOK n' w₁)
    {c d : StateClaim}
    (hc : c.Fits) (hd : d.Fits) {s s' : Side}
    (C : CollisionFree H (Or3 (PosInputs w₀ U) (PosInputs w₁ U'))) (hcd : c.Contradicts s d s') :
    (PatchedChallenges H n U w₀ [c] ×ˢ PatchedChallenges H n' U' w₁ [d]).ncard ≤
      frModulus * (31 * (3 * U + 6).choose 2 + 31 * (3 * U' + 6).choose 2) := by
  have : Fintype Fr := inferInstance
  have hsub : PatchedChallenges H n U w₀ [c] ×ˢ PatchedChallenges H n' U' w₁ [d] ⊆
      ({ρ | ¬ Separates ρ (compared H w₀ U [c])} ×ˢ Set.univ) ∪
        (Set.univ ×ˢ {ρ | ¬ Separates ρ (compared H w₁ U' [d])}) := by
    rintro ⟨ρ, ρ'⟩ ⟨⟨w, e, hf, hacc, P, hx⟩, ⟨w', e', hf', hacc', P', hx'⟩⟩
    dsimp only at e e'
    subst e e'
    by_contra hno
    simp only [Set.mem_union, Set.mem_prod, Set.mem_ofPred_eq, Set.mem_univ, and_true, true_and, not_or,
      not_not] at hno
    refine patched_agree hacc (hacc.tablesOK (hE.same hf)) P hacc'
      (hacc'.tablesOK (hE'.same hf')) P' hno.1 hno.2 ?_ ?_ hc hd
      (fun b hb => Finset.mem_union_right _ (by simpa using hb))
      (fun b hb => Finset.mem_union_right _ (by simpa using hb)) (hx c (by simp)) (hx' d (by simp))
      (C.mono fun _ _ _ h => h.imp (posInputs_same hf).2 (posInputs_same hf').2) s s' hcd
    · rw [← committed_same hf]; exact Finset.subset_union_left
    · rw [← committed_same hf']; exact Finset.subset_union_left
  exact pair_bound H w₀ w₁ U U' c d hsub

end Mpt.Props
