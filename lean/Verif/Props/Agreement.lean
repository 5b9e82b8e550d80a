import Verif.Props.Challenge
import Verif.Spec.Agreement

set_option autoImplicit false

/-!
# C71: claims do not contradict each other

No state is known here: the verifier only knows roots. Two openings of one root along one key lead to the same
leaf, whatever the key in the leaf is, so the gap B3 does not matter.
-/

namespace Mpt.Props
open Mpt Spec Types MptUpdate Requests

variable {H : HashFn} {S S' : Fr → Fr → Fr → Prop} {key root : Fr}

/-- Following the bits of `key` from `root` leads to a leaf with the key `k` and the data `d`. -/
def LeafAt (R : HashRel) (key root k d : Fr) : Prop :=
  ∃ path leaf, (∀ s ∈ path, IsBranch s.domain) ∧ Opens R key 0 path leaf root ∧ Spec.IsLeaf R k d leaf

theorem branch_ne_leaf {d : Fr} (h : IsBranch d) : d ≠ HashDomain.Leaf.toFr := by
  rintro rfl
  rcases h with h | h | h | h <;> exact absurd (toFr_inj h) (by decide)

/-- Two sets of inputs without collisions among them: equal outputs have equal inputs. -/
theorem cross_inj (C : CollisionFree H (Or3 S S')) {l r d l' r' d' h h' : Fr} (a : hashRel H S l r d h)
    (b : hashRel H S' l' r' d' h') (e : h = h') : l = l' ∧ r = r' ∧ d = d' :=
  C.inj (.inl a.2) (.inr b.2) (by rw [← a.1, ← b.1, e])

/-- Two openings of one root along one key that end with leaves end with the same leaf. -/
theorem opens_unique (C : CollisionFree H (Or3 S S')) {i : ℕ} {p p' : List Step} {h h' top k d k' d' : Fr}
    (hp : ∀ s ∈ p, IsBranch s.domain) (hp' : ∀ s ∈ p', IsBranch s.domain)
    (ho : Opens (hashRel H S) key i p h top) (ho' : Opens (hashRel H S') key i p' h' top)
    (hl : Spec.IsLeaf (hashRel H S) k d h) (hl' : Spec.IsLeaf (hashRel H S') k' d' h') : k = k' ∧ d = d' := by
  induction p generalizing p' i top with
  | nil =>
    cases p' with
    | nil =>
      have := cross_inj C hl hl' (Eq.trans (Eq.symm ho) ho')
      exact ⟨this.1, this.2.1⟩
    | cons s' p' =>
      obtain ⟨x, hx, -⟩ := ho'
      exfalso
      refine branch_ne_leaf (hp' s' (by simp)) ?_
      unfold Spec.Node at hx
      have e : h = top := Eq.symm ho
      split at hx
      · exact (cross_inj C hl hx e).2.2.symm
      · exact (cross_inj C hl hx e).2.2.symm
  | cons s p ih =>
    obtain ⟨y, hy, ho⟩ := ho
    cases p' with
    | nil =>
      exfalso
      refine branch_ne_leaf (hp s (by simp)) ?_
      unfold Spec.Node at hy
      have e : top = h' := ho'
      split at hy
      · exact (cross_inj C hy hl' e).2.2
      · exact (cross_inj C hy hl' e).2.2
    | cons s' p' =>
      obtain ⟨y', hy', ho'⟩ := ho'
      have e : y = y' := by
        unfold Spec.Node at hy hy'
        split at hy
        · rename_i hb; rw [if_pos hb] at hy'; exact (cross_inj C hy hy' rfl).2.1
        · rename_i hb; rw [if_neg hb] at hy'; exact (cross_inj C hy hy' rfl).1
      subst e
      exact ih (fun x hx => hp x (by simp [hx])) (fun x hx => hp' x (by simp [hx])) ho ho'

theorem leafAt_unique (C : CollisionFree H (Or3 S S')) {k d k' d' : Fr}
    (h : LeafAt (hashRel H S) key root k d) (h' : LeafAt (hashRel H S') key root k' d') : k = k' ∧ d = d' := by
  obtain ⟨p, x, h1, h2, h3⟩ := h
  obtain ⟨p', x', h1', h2', h3'⟩ := h'
  exact opens_unique C h1 h1' h2 h2' h3 h3'

/-- Following the bits of `key` from `root` leads to an account leaf with the key `k`, the field hashes `l`, `r`
and the Poseidon code hash `p`. -/
def AccountAt (R : HashRel) (key root k l r p : Fr) : Prop :=
  ∃ d f, LeafAt R key root k d ∧ R l r HashDomain.AccountFields.toFr f ∧ R f p HashDomain.AccountFields.toFr d

theorem accountAt_unique (C : CollisionFree H (Or3 S S')) {k l r p k' l' r' p' : Fr}
    (h : AccountAt (hashRel H S) key root k l r p) (h' : AccountAt (hashRel H S') key root k' l' r' p') :
    k = k' ∧ l = l' ∧ r = r' ∧ p = p' := by
  obtain ⟨d, f, h1, h2, h3⟩ := h
  obtain ⟨d', f', h1', h2', h3'⟩ := h'
  obtain ⟨e1, e2⟩ := leafAt_unique C h1 h1'
  obtain ⟨e3, e4, -⟩ := cross_inj C h3 h3' e2
  obtain ⟨e5, e6, -⟩ := cross_inj C h2 h2' e3
  exact ⟨e1, e5, e6, e4⟩

theorem accountAt_of {R : HashRel} {k l r p leaf : Fr} {path : List Step} (hp : GoodPath path)
    (ho : Opens R key 0 path leaf root) (ha : IsAccount R k l r p leaf) : AccountAt R key root k l r p := by
  obtain ⟨f, d, h1, h2, h3⟩ := ha
  exact ⟨d, f, ⟨path, leaf, hp.2, ho, h3⟩, h1, h2⟩

/-- Opened along `key`, the root has the value `x` in the field that claims of the type `t` are about; `k` is the
key in the account leaf. -/
def FieldAt (R : HashRel) (key root k : Fr) (t : MPTProofType) (slot x : ℕ) : Prop :=
  match t with
  | .NonceChanged => ∃ l r p size balance, AccountAt R key root k l r p ∧ x < 2 ^ 64 ∧ size < 2 ^ 64 ∧
      IsLeft R (nonceCode x size) balance l
  | .CodeSizeExists => ∃ l r p nonce balance, AccountAt R key root k l r p ∧ x < 2 ^ 64 ∧ nonce < 2 ^ 64 ∧
      IsLeft R (nonceCode nonce x) balance l
  | .BalanceChanged => ∃ l r p nc, AccountAt R key root k l r p ∧ x < 2 ^ 248 ∧ IsLeft R nc (x : Fr) l
  | .CodeHashExists => ∃ l r p sr h, AccountAt R key root k l r p ∧ IsRight R sr h r ∧ IsWord R x h
  | .PoseidonCodeHashExists => ∃ d f, LeafAt R key root k d ∧ R f (x : Fr) HashDomain.AccountFields.toFr d
  | .StorageChanged => ∃ l r p sr kh sk k' h, AccountAt R key root k l r p ∧ IsRight R sr kh r ∧ IsWord R slot sk ∧
      LeafAt R sk sr k' h ∧ IsWord R x h
  | _ => False

theorem isWord_unique (C : CollisionFree H (Or3 S S')) {x y : ℕ} {h h' : Fr} (a : IsWord (hashRel H S) x h)
    (b : IsWord (hashRel H S') y h') (e : h = h') : x = y := by
  obtain ⟨e1, e2, -⟩ := cross_inj C a.2 b.2 e
  exact div_mod_inj (natCast_inj_of_lt (hi_lt a.1) (hi_lt b.1) e1) (natCast_inj_of_lt (lo_lt _) (lo_lt _) e2)

/-- A root has one value in a field. -/
theorem fieldAt_unique (C : CollisionFree H (Or3 S S')) {k k' : Fr} {t : MPTProofType} {slot x y : ℕ}
    (h : FieldAt (hashRel H S) key root k t slot x) (h' : FieldAt (hashRel H S') key root k' t slot y) :
    k = k' ∧ SameValue t x y := by
  cases t with
  | NonceChanged =>
    obtain ⟨l, r, p, sz, b, h1, h2, h3, h4⟩ := h
    obtain ⟨l', r', p', sz', b', h1', h2', h3', h4'⟩ := h'
    obtain ⟨e0, e1, e2, e3⟩ := accountAt_unique C h1 h1'
    obtain ⟨e4, -, -⟩ := cross_inj C h4 h4' e1
    exact ⟨e0, .inl (nonceCode_inj h2 h3 h2' h3' e4).1⟩
  | CodeSizeExists =>
    obtain ⟨l, r, p, sz, b, h1, h2, h3, h4⟩ := h
    obtain ⟨l', r', p', sz', b', h1', h2', h3', h4'⟩ := h'
    obtain ⟨e0, e1, e2, e3⟩ := accountAt_unique C h1 h1'
    obtain ⟨e4, -, -⟩ := cross_inj C h4 h4' e1
    exact ⟨e0, .inl (nonceCode_inj h3 h2 h3' h2' e4).2⟩
  | BalanceChanged =>
    obtain ⟨l, r, p, nc, h1, h2, h3⟩ := h
    obtain ⟨l', r', p', nc', h1', h2', h3'⟩ := h'
    obtain ⟨e0, e1, e2, e3⟩ := accountAt_unique C h1 h1'
    obtain ⟨-, e4, -⟩ := cross_inj C h3 h3' e1
    exact ⟨e0, .inl (balance_inj h2 h2' e4)⟩
  | CodeHashExists =>
    obtain ⟨l, r, p, sr, b, h1, h2, h3⟩ := h
    obtain ⟨l', r', p', sr', b', h1', h2', h3'⟩ := h'
    obtain ⟨e0, e1, e2, e3⟩ := accountAt_unique C h1 h1'
    obtain ⟨-, e4, -⟩ := cross_inj C h2 h2' e2
    exact ⟨e0, .inl (isWord_unique C h3 h3' e4)⟩
  | PoseidonCodeHashExists =>
    obtain ⟨d, f, h1, h2⟩ := h
    obtain ⟨d', f', h1', h2'⟩ := h'
    obtain ⟨e0, e1⟩ := leafAt_unique C h1 h1'
    obtain ⟨-, e4, -⟩ := cross_inj C h2 h2' e1
    exact ⟨e0, .inr ⟨rfl, e4⟩⟩
  | StorageChanged =>
    obtain ⟨l, r, p, sr, kh, sk, k1, hh, h1, h2, h3, h4, h5⟩ := h
    obtain ⟨l', r', p', sr', kh', sk', k1', hh', h1', h2', h3', h4', h5'⟩ := h'
    obtain ⟨e0, e1, e2, e3⟩ := accountAt_unique C h1 h1'
    obtain ⟨e4, -, -⟩ := cross_inj C h2 h2' e2
    have e5 : sk = sk' := (isWord_hash h3).trans (isWord_hash h3').symm
    subst e4 e5
    exact ⟨e0, .inl (isWord_unique C h5 h5' (leafAt_unique C h4 h4').2)⟩
  | AccountDoesNotExist => exact h.elim
  | StorageDoesNotExist => exact h.elim
  | AccountDestructed => exact h.elim

/-! ## Reading claims -/

variable {n U : ℕ} {w : Witness Fr} {t : MPTProofType}
variable {address slotRlc oldRootRlc newRootRlc oldValue newValue : Fr}

theorem out_of_leafAt {k d : Fr} (h : LeafAt (PR H w U) key root k d) : TableOutput H w U root := by
  obtain ⟨p, x, -, ho, hl⟩ := h
  exact out_of_opens ho (out_of_leaf hl)

theorem out_of_accountAt {k l r p : Fr} (h : AccountAt (PR H w U) key root k l r p) : TableOutput H w U root := by
  obtain ⟨d, f, h, -⟩ := h
  exact out_of_leafAt h

theorem out_of_fieldAt {k : Fr} {slot x : ℕ} (h : FieldAt (PR H w U) key root k t slot x) :
    TableOutput H w U root := by
  cases t with
  | NonceChanged => obtain ⟨l, r, p, sz, b, h1, -⟩ := h; exact out_of_accountAt h1
  | CodeSizeExists => obtain ⟨l, r, p, sz, b, h1, -⟩ := h; exact out_of_accountAt h1
  | BalanceChanged => obtain ⟨l, r, p, nc, h1, -⟩ := h; exact out_of_accountAt h1
  | CodeHashExists => obtain ⟨l, r, p, sr, b, h1, -⟩ := h; exact out_of_accountAt h1
  | PoseidonCodeHashExists => obtain ⟨d, f, h1, -⟩ := h; exact out_of_leafAt h1
  | StorageChanged => obtain ⟨l, r, p, sr, kh, sk, k1, hh, h1, -⟩ := h; exact out_of_accountAt h1
  | AccountDoesNotExist => exact h.elim
  | StorageDoesNotExist => exact h.elim
  | AccountDestructed => exact h.elim

/-- The value is that of a number that is in the field and, if it is a word, in the Poseidon table. -/
structure ReadOff (H : HashFn) (w : Witness Fr) (U : ℕ) (t : MPTProofType) (key root slotRlc value : Fr) (k : Fr)
    (slot x : ℕ) : Prop where
  field : FieldAt (PR H w U) key root k t slot x
  value : value = valueCode w.chal t x
  fits : ValueFits t x
  word : t = .BalanceChanged ∨ t = .CodeHashExists ∨ t = .StorageChanged → TableWord w U x
  slot : t = .StorageChanged → slot < 2 ^ 256 ∧ TableWord w U slot ∧ slotRlc = rlc w.chal (beBytes 32 slot)

theorem read_poseidon {k fields v d leaf : Fr} {path : List Step} (hp : GoodPath path)
    (ho : Opens (PR H w U) key 0 path leaf root) (hl : Spec.IsLeaf (PR H w U) k d leaf)
    (hf : PR H w U fields v HashDomain.AccountFields.toFr d) :
    ReadOff H w U .PoseidonCodeHashExists key root slotRlc v k 0 v.val :=
  ⟨⟨d, fields, ⟨path, leaf, hp.2, ho, hl⟩, by rw [ZMod.natCast_zmod_val]; exact hf⟩,
    by simp [valueCode], trivial, by simp, by simp⟩

variable {o nn : Fr}

theorem off_nonce (h : NonceUpdate (PR H w U) key o nn oldValue newValue) :
    ∃ k xo xn, ReadOff H w U .NonceChanged key o slotRlc oldValue k 0 xo ∧
      ReadOff H w U .NonceChanged key nn slotRlc newValue k 0 xn := by
  obtain ⟨k, r, p, b, no, nw, cs, lo, ln, lfo, lfn, r1, r2, r3, rfl, rfl, l1, l2, a1, a2, path, hp, o1, o2⟩ := h
  exact ⟨k, no, nw, ⟨⟨lo, r, p, cs, b, accountAt_of hp o1 a1, r1, r3, l1⟩, rfl, r1, by simp, by simp⟩,
    ⟨⟨ln, r, p, cs, b, accountAt_of hp o2 a2, r2, r3, l2⟩, rfl, r2, by simp, by simp⟩⟩

theorem off_balance (h : BalanceUpdate (PR H w U) w.chal key o nn oldValue newValue) :
    ∃ k xo xn, ReadOff H w U .BalanceChanged key o slotRlc oldValue k 0 xo ∧
      ReadOff H w U .BalanceChanged key nn slotRlc newValue k 0 xn := by
  have lt : ∀ {x : ℕ}, x < 2 ^ 248 → x < 2 ^ 256 := fun h => lt_trans h (by norm_num)
  obtain ⟨k, r, p, nc, bo, bn, lo, ln, lfo, lfn, r1, r2, rfl, rfl, l1, l2, a1, a2, path, hp, o1, o2⟩ := h
  exact ⟨k, bo, bn, ⟨⟨lo, r, p, nc, accountAt_of hp o1 a1, r1, l1⟩, (rlc_31 r1 _).symm, lt r1,
      fun _ => tableWord_right r1 l1, by simp⟩,
    ⟨⟨ln, r, p, nc, accountAt_of hp o2 a2, r2, l2⟩, (rlc_31 r2 _).symm, lt r2,
      fun _ => tableWord_right r2 l2, by simp⟩⟩

theorem off_codeSize (h : CodeSizeUpdate (PR H w U) key o nn oldValue newValue) :
    ∃ k xo xn, ReadOff H w U .CodeSizeExists key o slotRlc oldValue k 0 xo ∧
      ReadOff H w U .CodeSizeExists key nn slotRlc newValue k 0 xn := by
  obtain ⟨k, r, p, b, no, xo, xn, lo, ln, lfo, lfn, r1, r2, r3, rfl, rfl, l1, l2, a1, a2, path, hp, o1, o2⟩ := h
  exact ⟨k, xo, xn, ⟨⟨lo, r, p, no, b, accountAt_of hp o1 a1, r2, r1, l1⟩, rfl, r2, by simp, by simp⟩,
    ⟨⟨ln, r, p, no, b, accountAt_of hp o2 a2, r3, r1, l2⟩, rfl, r3, by simp, by simp⟩⟩

theorem off_codeHash (h : CodeHashUpdate (PR H w U) w.chal key o nn oldValue newValue) :
    ∃ k xo xn, ReadOff H w U .CodeHashExists key o slotRlc oldValue k 0 xo ∧
      ReadOff H w U .CodeHashExists key nn slotRlc newValue k 0 xn := by
  obtain ⟨k, l, p, sr, xo, xn, ho, hn, ro, rn, lfo, lfn, rfl, rfl, w1, w2, r1, r2, a1, a2, path, hp, o1, o2⟩ := h
  exact ⟨k, xo, xn,
    ⟨⟨l, ro, p, sr, ho, accountAt_of hp o1 a1, r1, w1⟩, rfl, w1.1, fun _ => tableWord_word w1, by simp⟩,
    ⟨⟨l, rn, p, sr, hn, accountAt_of hp o2 a2, r2, w2⟩, rfl, w2.1, fun _ => tableWord_word w2, by simp⟩⟩

theorem off_poseidon (h : PoseidonCodeHashUpdate (PR H w U) key o nn oldValue newValue) :
    ∃ k xo xn, ReadOff H w U .PoseidonCodeHashExists key o slotRlc oldValue k 0 xo ∧
      ReadOff H w U .PoseidonCodeHashExists key nn slotRlc newValue k 0 xn := by
  obtain ⟨k, f, d1, d2, lfo, lfn, f1, f2, l1, l2, path, hp, o1, o2⟩ := h
  exact ⟨k, _, _, read_poseidon hp o1 l1 f1, read_poseidon hp o2 l2 f2⟩

theorem pick_read {s : Side} {slot : ℕ} (h : ∃ k xo xn, ReadOff H w U t key o slotRlc oldValue k slot xo ∧
      ReadOff H w U t key nn slotRlc newValue k slot xn) :
    ∃ k x, ReadOff H w U t key (s.pick o nn) slotRlc (s.pick oldValue newValue) k slot x := by
  obtain ⟨k, xo, xn, h1, h2⟩ := h
  cases s
  exacts [⟨k, xo, h1⟩, ⟨k, xn, h2⟩]

/-- What an exposed claim says about the side `s`, if its value there is not 0. -/
theorem read_side (h : Accepted H n U w) (T : TablesOK w U)
    (hx : Exposes w U t address slotRlc oldRootRlc newRootRlc oldValue newValue) (s : Side)
    (hv : s.pick oldValue newValue ≠ 0)
    (hs : t = .StorageChanged → oldValue ≠ 0 ∧ newValue ≠ 0) :
    ∃ (a : ℕ) (root k : Fr) (slot x : ℕ), a < 2 ^ 160 ∧ address = (a : Fr) ∧
      s.pick oldRootRlc newRootRlc = rootRlc w.chal root ∧
      ReadOff H w U t (addressKey H a) root slotRlc (s.pick oldValue newValue) k slot x := by
  have key_eq : ∀ {a : ℕ} {key : Fr}, IsAddressKey (PR H w U) a key → addressKey H a = key :=
    fun h => h.2.1.symm
  have hne : oldValue ≠ 0 ∨ newValue ≠ 0 := by cases s; exacts [.inl hv, .inr hv]
  have wrap : ∀ {a : ℕ} {key o nn : Fr} {slot : ℕ}, address = (a : Fr) → IsAddressKey (PR H w U) a key →
      oldRootRlc = rootRlc w.chal o → newRootRlc = rootRlc w.chal nn →
      (∃ k x, ReadOff H w U t key (s.pick o nn) slotRlc (s.pick oldValue newValue) k slot x) →
      ∃ (a : ℕ) (root k : Fr) (slot x : ℕ), a < 2 ^ 160 ∧ address = (a : Fr) ∧
        s.pick oldRootRlc newRootRlc = rootRlc w.chal root ∧
        ReadOff H w U t (addressKey H a) root slotRlc (s.pick oldValue newValue) k slot x := by
    rintro a key o nn slot h1 h2 h3 h4 ⟨k, x, h5⟩
    exact ⟨a, s.pick o nn, k, slot, x, h2.1, h1, by cases s; exacts [h3, h4], by rw [key_eq h2]; exact h5⟩
  cases t with
  | NonceChanged =>
    rcases c20_nonce_changed h T hne hx with ⟨-, -, -, -, -, h6, h7⟩ | ⟨a, key, o, nn, h1, h2, h3, h4, h5⟩
    · simp [h6, h7] at hne
    refine wrap (slot := 0) h1 h2 h3 h4 ?_
    rcases h5 with h5 | h5
    · exact pick_read (off_nonce h5)
    · obtain ⟨k, x, l, lf, r1, rfl, rfl, l1, a1, hi⟩ := h5
      cases s with
      | old => exact absurd rfl hv
      | new =>
        obtain ⟨path, hp, ho⟩ := inserted_opens_new hi
        exact ⟨k, x, ⟨⟨l, _, _, 0, 0, accountAt_of hp ho a1, r1, by norm_num, l1⟩, rfl, r1, by simp, by simp⟩⟩
  | BalanceChanged =>
    rcases c21_balance_changed h T hne hx with ⟨-, -, -, -, -, h6, h7⟩ | ⟨a, key, o, nn, h1, h2, h3, h4, h5⟩
    · simp [h6, h7] at hne
    refine wrap (slot := 0) h1 h2 h3 h4 ?_
    rcases h5 with h5 | h5
    · exact pick_read (off_balance h5)
    · obtain ⟨k, x, l, lf, r1, rfl, rfl, l1, a1, hi⟩ := h5
      cases s with
      | old => exact absurd rfl hv
      | new =>
        obtain ⟨path, hp, ho⟩ := inserted_opens_new hi
        exact ⟨k, x, ⟨⟨l, _, _, 0, accountAt_of hp ho a1, r1, l1⟩, (rlc_31 r1 _).symm,
          lt_trans r1 (by norm_num), fun _ => tableWord_right r1 l1, by simp⟩⟩
  | CodeSizeExists =>
    rcases c22_code_size h T hx with ⟨h0, -⟩ | ⟨a, key, o, nn, h1, h2, h3, h4, h5⟩
    · simp at h0
    refine wrap (slot := 0) h1 h2 h3 h4 ?_
    rcases h5 with h5 | h5
    · have e1 := h5.old; have e2 := h5.new; tauto
    · exact pick_read (off_codeSize h5)
  | CodeHashExists =>
    rcases c23_code_hash h T hx with ⟨h0, -⟩ | ⟨a, key, o, nn, h1, h2, h3, h4, h5⟩
    · simp at h0
    refine wrap (slot := 0) h1 h2 h3 h4 ?_
    rcases h5 with h5 | h5
    · have e1 := h5.old; have e2 := h5.new; tauto
    · exact pick_read (off_codeHash h5)
  | PoseidonCodeHashExists =>
    rcases c24_poseidon_code_hash h T hx with ⟨h0, -⟩ | ⟨a, key, o, nn, h1, h2, h3, h4, h5⟩
    · simp at h0
    exact wrap (slot := 0) h1 h2 h3 h4 (pick_read (off_poseidon h5))
  | StorageChanged =>
    obtain ⟨v1, v2⟩ := hs rfl
    rcases c25_storage_update h T v1 v2 hx with ⟨h0, -⟩ | ⟨a, key, o, nn, h1, h2, h3, h4, h5⟩
    · simp at h0
    obtain ⟨sk, so, sn, ⟨slot, hsl, hr⟩, hu, hw⟩ := h5
    obtain ⟨k, l, p, kh, ro, rn, lfo, lfn, r1, r2, a1, a2, path, hp, o1, o2⟩ := hu
    obtain ⟨k', xo, xn, ho, hn, lo, ln, rfl, rfl, -, -, w1, w2, l1, l2, path', hp', o1', o2'⟩ := hw
    refine wrap (slot := slot) h1 h2 h3 h4 (pick_read ⟨k, xo, xn, ?_, ?_⟩)
    · exact ⟨⟨l, ro, p, so, kh, sk, k', ho, accountAt_of hp o1 a1, r1, hsl, ⟨path', lo, hp'.2, o1', l1⟩, w1⟩, rfl,
          w1.1, fun _ => tableWord_word w1, fun _ => ⟨hsl.1, tableWord_word hsl, hr⟩⟩
    · exact ⟨⟨l, rn, p, sn, kh, sk, k', hn, accountAt_of hp o2 a2, r2, hsl, ⟨path', ln, hp'.2, o2', l2⟩, w2⟩, rfl,
          w2.1, fun _ => tableWord_word w2, fun _ => ⟨hsl.1, tableWord_word hsl, hr⟩⟩
  | AccountDoesNotExist =>
    obtain ⟨e1, e2, -⟩ := c27_absent_from_trie h T hx
    rw [e1, e2] at hne; simp at hne
  | StorageDoesNotExist =>
    obtain ⟨e1, e2, -⟩ := c28_absent_from_trie h T hx
    rw [e1, e2] at hne; simp at hne
  | AccountDestructed => exact (c29_no_destructed h T hx).elim

/-- A claim in exact terms, read off a circuit with a challenge that separates what is compared. -/
theorem read_claim (h : Accepted H n U w) (T : TablesOK w U) {B : Finset (List ℕ)}
    (hsep : Separates w.chal B) (hcom : committed H w U ⊆ B) {c : StateClaim} (hc : c.Fits)
    (hB : ∀ b ∈ claimStrings [c], b ∈ B) (hx : ClaimExposed c w U) {s : Side} (hd : c.Definite s) :
    ∃ k slot x, FieldAt (PR H w U) (accountKey H c.address) (c.root s) k c.type slot x ∧
      SameValue c.type (c.value s) x ∧ (c.type = .StorageChanged → slot = c.slot) := by
  have hB' : beBytes 32 c.slot ∈ B ∧ frBytes c.oldRoot ∈ B ∧ frBytes c.newRoot ∈ B ∧ beBytes 32 c.oldValue ∈ B ∧
      beBytes 32 c.newValue ∈ B := by
    simp only [claimStrings, List.flatMap_cons, List.flatMap_nil, List.append_nil, List.mem_cons,
      List.not_mem_nil, or_false, forall_eq_or_imp, forall_eq] at hB
    exact hB
  obtain ⟨b1, b2, b3, b4, b5⟩ := hB'
  have hx' : Exposes w U c.type (beVal c.address : Fr) (rlc w.chal (beBytes 32 c.slot)) (rootRlc w.chal c.oldRoot)
    (rootRlc w.chal c.newRoot) (valueCode w.chal c.type c.oldValue) (valueCode w.chal c.type c.newValue) := hx
  have b0 : beBytes 32 0 ∈ B := hcom (committed_word (.inl rfl))
  have nz : ∀ y, ValueFits c.type y → beBytes 32 y ∈ B → ¬ SameValue c.type y 0 → valueCode w.chal c.type y ≠ 0 := by
    intro y fy hy hn he
    refine hn (value_inj hsep fy ?_ (fun _ => ⟨hy, b0⟩) (he.trans valueCode_zero.symm))
    unfold ValueFits; split <;> simp
  have fs : ValueFits c.type (c.value s) := by cases s; exacts [hc.oldValue, hc.newValue]
  have bs : beBytes 32 (c.value s) ∈ B := by cases s; exacts [b4, b5]
  have br : frBytes (c.root s) ∈ B := by cases s; exacts [b2, b3]
  have ev : s.pick (valueCode w.chal c.type c.oldValue) (valueCode w.chal c.type c.newValue) =
      valueCode w.chal c.type (c.value s) := by cases s <;> rfl
  have er : s.pick (rootRlc w.chal c.oldRoot) (rootRlc w.chal c.newRoot) = rootRlc w.chal (c.root s) := by
    cases s <;> rfl
  obtain ⟨a, root, k, slot, x, h1, h2, h3, hr⟩ := read_side h T hx' s (by rw [ev]; exact nz _ fs bs hd.value) (by
    intro ht
    obtain ⟨d1, d2⟩ := hd.slot ht
    have hss : ∀ y, y ≠ 0 → ¬ SameValue c.type y 0 := by
      rintro y hy (e | ⟨e, -⟩)
      · exact hy e
      · rw [ht] at e; cases e
    exact ⟨nz _ hc.oldValue b4 (hss _ d1), nz _ hc.newValue b5 (hss _ d2)⟩)
  rw [er] at h3
  rw [ev] at hr
  have hk : accountKey H c.address = addressKey H a := accountKey_eq_addressKey hc.address h1 h2
  have hroot : c.root s = root := root_inj hsep br (hcom (committed_output (out_of_fieldAt hr.field))) h3
  rw [hk, hroot]
  refine ⟨k, slot, x, hr.field, value_inj hsep fs hr.fits (fun ht => ⟨bs, hcom (committed_word (hr.word ht))⟩) hr.value, ?_⟩
  intro ht
  obtain ⟨g1, g2, g3⟩ := hr.slot ht
  exact (word_inj hsep b1 (hcom (committed_word g2)) hc.slot g1 g3).symm

theorem sameValue_symm {t : MPTProofType} {x y : ℕ} (h : SameValue t x y) : SameValue t y x :=
  h.imp Eq.symm fun h => ⟨h.1, h.2.symm⟩

theorem sameValue_trans {t : MPTProofType} {x y z : ℕ} (h : SameValue t x y) (h' : SameValue t y z) :
    SameValue t x z := by
  rcases h with rfl | ⟨ht, h⟩
  · exact h'
  · rcases h' with rfl | ⟨-, h'⟩
    · exact .inr ⟨ht, h⟩
    · exact .inr ⟨ht, h.trans h'⟩

/-- A claim with a value other than 0 is about its own field only. -/
theorem definite_ascribes {c : StateClaim} (hc : c.Fits) {s : Side} (hd : c.Definite s) {t : MPTProofType}
    {slot v : ℕ} (h : c.Ascribes s t slot v) :
    c.type = t ∧ (t = .StorageChanged → c.slot = slot) ∧ v = c.value s := by
  have fs : ValueFits c.type (c.value s) := by cases s; exacts [hc.oldValue, hc.newValue]
  rcases h with h | ⟨h, -⟩ | ⟨h, -⟩
  · exact h
  · rw [h] at fs; exact absurd (.inl fs) hd.value
  · rw [h] at fs; exact absurd (.inl fs) hd.value

/-- Claims that are read off two circuits do not contradict each other. -/
theorem agree_of_separates {n' U' : ℕ} {w' : Witness Fr} (h : Accepted H n U w) (T : TablesOK w U)
    (h' : Accepted H n' U' w') (T' : TablesOK w' U') {B B' : Finset (List ℕ)}
    (hsep : Separates w.chal B) (hsep' : Separates w'.chal B') (hcom : committed H w U ⊆ B)
    (hcom' : committed H w' U' ⊆ B') {c d : StateClaim} (hc : c.Fits) (hd : d.Fits)
    (hB : ∀ b ∈ claimStrings [c], b ∈ B) (hB' : ∀ b ∈ claimStrings [d], b ∈ B')
    (hx : ClaimExposed c w U) (hx' : ClaimExposed d w' U') {s s' : Side} (ds : c.Definite s) (ds' : d.Definite s')
    (C : CollisionFree H (Or3 (PosInputs w U) (PosInputs w' U'))) : ¬ c.Contradicts s d s' := by
  rintro ⟨t2, hr, t, slot₀, v, v', a1, a2, hv⟩
  obtain ⟨t1, t3, rfl⟩ := definite_ascribes hc ds a1
  obtain ⟨t1', t3', rfl⟩ := definite_ascribes hd ds' a2
  obtain ⟨k, slot, x, f1, v1, s1⟩ := read_claim h T hsep hcom hc hB hx ds
  obtain ⟨k', slot', x', f2, v2, s2⟩ := read_claim h' T' hsep' hcom' hd hB' hx' ds'
  rw [t1] at f1 v1 s1
  rw [t1', ← t2, ← hr] at f2
  rw [t1'] at v2 s2
  have f2' : FieldAt (PR H w' U') (accountKey H c.address) (c.root s) k' t slot x' := by
    by_cases ht : t = .StorageChanged
    · rw [s1 ht, t3 ht, ← t3' ht, ← s2 ht]; exact f2
    · revert f2; unfold FieldAt; split <;> first | exact id | contradiction
  exact hv (sameValue_trans v1 (sameValue_trans (fieldAt_unique C f1 f2').2 (sameValue_symm v2)))

/-- **C71, one circuit.** Fix what the prover commits to before the challenge is drawn. If two claims ascribe to
one root different values of the same field of an account, then for all but `31 * (3 U + 11 choose 2)` challenges
they cannot both be looked up in an accepted completion. No state with the root needs to be known. This holds for
chains as well: the second claim may start with the root the first one ends with.

Partial: only for values other than 0 and, for slots, for writes that neither create nor delete the slot. -/
theorem c71_agree_partial {w₀ : Witness Fr} (hE : EdgesOK n w₀) {c d : StateClaim}
    (hc : c.Fits) (hd : d.Fits) {s s' : Side} (ds : c.Definite s) (ds' : d.Definite s')
    (C : CollisionFree H (PosInputs w₀ U)) (hcd : c.Contradicts s d s') :
    (AcceptingChallenges H n U w₀ [c, d]).ncard ≤ 31 * (3 * U + 11).choose 2 := by
  have : Fintype Fr := inferInstance
  have hsub : AcceptingChallenges H n U w₀ [c, d] ⊆ {ρ | ¬ Separates ρ (compared H w₀ U [c, d])} := by
    rintro ρ ⟨w, rfl, hf, hacc, hx⟩ hsep
    have T := hacc.tablesOK (hE.same hf)
    have hcom : committed H w U ⊆ compared H w₀ U [c, d] := by
      rw [← committed_same hf]; exact Finset.subset_union_left
    have hB : ∀ e, e = c ∨ e = d → ∀ b ∈ claimStrings [e], b ∈ compared H w₀ U [c, d] := by
      intro e he b hb
      refine Finset.mem_union_right _ ?_
      simp only [claimStrings, List.mem_toFinset, List.mem_flatMap, List.mem_singleton] at hb ⊢
      obtain ⟨_, rfl, hb⟩ := hb
      exact ⟨_, by simpa using he, hb⟩
    exact agree_of_separates hacc T hacc T hsep hsep hcom hcom hc hd (hB c (.inl rfl)) (hB d (.inr rfl))
      (hx c (by simp)) (hx d (by simp)) ds ds'
      (C.mono fun _ _ _ h => (posInputs_same hf).2 (h.elim id id)) hcd
  refine le_trans (Set.ncard_le_ncard hsub (Set.toFinite _)) ?_
  refine le_trans (separates_all_but _ fun b hb => compared_bytes hb) ?_
  exact Nat.mul_le_mul_left _ (Nat.choose_le_choose 2 (compared_card H w₀ U [c, d]))

/-- The number of pairs of challenges of which one does not separate what is compared in its circuit. -/
theorem pair_bound (H : HashFn) (w₀ w₁ : Witness Fr) (U U' : ℕ) (c d : StateClaim) {A : Set (Fr × Fr)}
    (hsub : A ⊆ ({ρ | ¬ Separates ρ (compared H w₀ U [c])} ×ˢ Set.univ) ∪
        (Set.univ ×ˢ {ρ | ¬ Separates ρ (compared H w₁ U' [d])})) :
    A.ncard ≤ frModulus * (31 * (3 * U + 6).choose 2 + 31 * (3 * U' + 6).choose 2) := by
  have : Fintype Fr := inferInstance
  have card : (Set.univ : Set Fr).ncard = frModulus := by
    rw [Set.ncard_univ, Nat.card_eq_fintype_card, ZMod.card]
  have bound : ∀ (v : Witness Fr) (V : ℕ) (e : StateClaim),
      {ρ | ¬ Separates ρ (compared H v V [e])}.ncard ≤ 31 * (3 * V + 6).choose 2 := fun v V e =>
    le_trans (separates_all_but _ fun b hb => compared_bytes hb)
      (Nat.mul_le_mul_left _ (Nat.choose_le_choose 2 (compared_card H v V [e])))
  refine le_trans (Set.ncard_le_ncard hsub (Set.toFinite _)) ?_
  refine le_trans (Set.ncard_union_le _ _) ?_
  rw [Set.ncard_prod, Set.ncard_prod, card, mul_add]
  refine Nat.add_le_add ?_ (Nat.mul_le_mul_left _ (bound _ _ _))
  rw [mul_comm]
  exact Nat.mul_le_mul_left _ (bound _ _ _)

/-- **C71, two circuits** with challenges of their own: the pairs of challenges for which the first claim can be
looked up in the first circuit and the second one in the second circuit are a negligible part of all pairs. -/
theorem c71_two_circuits_partial {n' U' : ℕ} {w₀ w₁ : Witness Fr} (hE : EdgesOK n w₀) (hE' : EdgesOK n' w₁)
    {c d : StateClaim}
    (hc : c.Fits) (hd : d.Fits) {s s' : Side} (ds : c.Definite s) (ds' : d.Definite s')
    (C : CollisionFree H (Or3 (PosInputs w₀ U) (PosInputs w₁ U'))) (hcd : c.Contradicts s d s') :
    (AcceptingChallenges H n U w₀ [c] ×ˢ AcceptingChallenges H n' U' w₁ [d]).ncard ≤
      frModulus * (31 * (3 * U + 6).choose 2 + 31 * (3 * U' + 6).choose 2) := by
  have : Fintype Fr := inferInstance
  have hsub : AcceptingChallenges H n U w₀ [c] ×ˢ AcceptingChallenges H n' U' w₁ [d] ⊆
      ({ρ | ¬ Separates ρ (compared H w₀ U [c])} ×ˢ Set.univ) ∪
        (Set.univ ×ˢ {ρ | ¬ Separates ρ (compared H w₁ U' [d])}) := by
    rintro ⟨ρ, ρ'⟩ ⟨⟨w, e, hf, hacc, hx⟩, ⟨w', e', hf', hacc', hx'⟩⟩
    dsimp only at e e'
    subst e e'
    by_contra hno
    simp only [Set.mem_union, Set.mem_prod, Set.mem_ofPred_eq, Set.mem_univ, and_true, true_and, not_or,
      not_not] at hno
    refine agree_of_separates hacc (hacc.tablesOK (hE.same hf)) hacc'
      (hacc'.tablesOK (hE'.same hf')) hno.1 hno.2 ?_ ?_ hc hd
      (fun b hb => Finset.mem_union_right _ (by simpa using hb))
      (fun b hb => Finset.mem_union_right _ (by simpa using hb)) (hx c (by simp)) (hx' d (by simp)) ds ds'
      (C.mono fun _ _ _ h => h.imp (posInputs_same hf).2 (posInputs_same hf').2) hcd
    · rw [← committed_same hf]; exact Finset.subset_union_left
    · rw [← committed_same hf']; exact Finset.subset_union_left
  exact pair_bound H w₀ w₁ U U' c d hsub

end Mpt.Props
