import Verif.Props.Agreement
import Verif.Spec.Changes

set_option autoImplicit false

/-!
# C72: the effect of a change is determined

Two openings of one root along one key are the same path, so a change of a field leads to the same root.
-/

namespace Mpt.Props
open Mpt Spec Types MptUpdate Requests

variable {H : HashFn} {S S' : Fr → Fr → Fr → Prop} {key root : Fr}

/-- Nothing, or a leaf. -/
def Terminal (R : HashRel) (h : Fr) : Prop := h = 0 ∨ ∃ k d, Spec.IsLeaf R k d h

theorem node_not_terminal (C : CollisionFree H (Or3 S S')) {b : Bool} {s : Step} {y top : Fr}
    (hs : IsBranch s.domain) (hn : Spec.Node (hashRel H S) b s y top) (ht : Terminal (hashRel H S') top) : False := by
  unfold Spec.Node at hn
  rcases ht with rfl | ⟨k, d, hl⟩
  · split at hn
    · exact C.ne_zero (.inl hn.2) hn.1.symm
    · exact C.ne_zero (.inl hn.2) hn.1.symm
  · refine branch_ne_leaf hs ?_
    split at hn
    · exact (cross_inj C hn hl rfl).2.2
    · exact (cross_inj C hn hl rfl).2.2

theorem collisionFree_swap (C : CollisionFree H (Or3 S S')) : CollisionFree H (Or3 S' S) :=
  C.mono fun _ _ _ h => h.symm

/-- Two openings of one root along one key down to terminal nodes are the same. -/
theorem opens_same (C : CollisionFree H (Or3 S S')) {i : ℕ} {p p' : List Step} {h h' top : Fr}
    (hp : ∀ s ∈ p, IsBranch s.domain) (hp' : ∀ s ∈ p', IsBranch s.domain)
    (ho : Opens (hashRel H S) key i p h top) (ho' : Opens (hashRel H S') key i p' h' top)
    (hl : Terminal (hashRel H S) h) (hl' : Terminal (hashRel H S') h') : p = p' ∧ h = h' := by
  induction p generalizing p' i top with
  | nil =>
    cases p' with
    | nil => exact ⟨rfl, Eq.trans (Eq.symm ho) ho'⟩
    | cons s' p' =>
      obtain ⟨x, hx, -⟩ := ho'
      have e : top = h := ho
      subst e
      exact (node_not_terminal (collisionFree_swap C) (hp' s' (by simp)) hx hl).elim
  | cons s p ih =>
    obtain ⟨y, hy, ho⟩ := ho
    cases p' with
    | nil =>
      have e : top = h' := ho'
      subst e
      exact (node_not_terminal C (hp s (by simp)) hy hl').elim
    | cons s' p' =>
      obtain ⟨y', hy', ho'⟩ := ho'
      have e : y = y' ∧ s = s' := by
        obtain ⟨a, b⟩ := s
        obtain ⟨a', b'⟩ := s'
        unfold Spec.Node at hy hy'
        split at hy
        · rename_i hb; rw [if_pos hb] at hy'
          obtain ⟨e1, e2, e3⟩ := cross_inj C hy hy' rfl
          dsimp only at e1 e3
          exact ⟨e2, by rw [e1, e3]⟩
        · rename_i hb; rw [if_neg hb] at hy'
          obtain ⟨e1, e2, e3⟩ := cross_inj C hy hy' rfl
          dsimp only at e2 e3
          exact ⟨e1, by rw [e2, e3]⟩
      obtain ⟨rfl, rfl⟩ := e
      obtain ⟨rfl, rfl⟩ := ih (fun x hx => hp x (by simp [hx])) (fun x hx => hp' x (by simp [hx])) ho ho'
      exact ⟨rfl, rfl⟩

theorem rel_det {l r d h h' : Fr} (a : hashRel H S l r d h) (b : hashRel H S' l r d h') : h = h' := a.1.trans b.1.symm

theorem node_det {b : Bool} {s : Step} {h t t' : Fr} (a : Spec.Node (hashRel H S) b s h t)
    (c : Spec.Node (hashRel H S') b s h t') : t = t' := by
  unfold Spec.Node at a c
  split at a
  · rename_i hb; rw [if_pos hb] at c; exact rel_det a c
  · rename_i hb; rw [if_neg hb] at c; exact rel_det a c

theorem opens_det {i : ℕ} {p : List Step} {h t t' : Fr} (a : Opens (hashRel H S) key i p h t)
    (b : Opens (hashRel H S') key i p h t') : t = t' := by
  induction p generalizing i t t' with
  | nil => exact Eq.trans a (Eq.symm b)
  | cons s p ih =>
    obtain ⟨x, h1, h2⟩ := a
    obtain ⟨y, g1, g2⟩ := b
    obtain rfl := ih h2 g2
    exact node_det h1 g1

theorem account_det {k l r p h h' : Fr} (a : IsAccount (hashRel H S) k l r p h)
    (b : IsAccount (hashRel H S') k l r p h') : h = h' := by
  obtain ⟨f, d, h1, h2, h3⟩ := a
  obtain ⟨f', d', g1, g2, g3⟩ := b
  obtain rfl := rel_det h1 g1
  obtain rfl := rel_det h2 g2
  exact rel_det h3 g3

theorem samePath_det (C : CollisionFree H (Or3 S S')) {o nn nn' lo ln lo' ln' k d k' d' : Fr}
    (a : SamePath (hashRel H S) key o nn lo ln) (b : SamePath (hashRel H S') key o nn' lo' ln')
    (hl : Spec.IsLeaf (hashRel H S) k d lo) (hl' : Spec.IsLeaf (hashRel H S') k' d' lo') :
    lo = lo' ∧ k = k' ∧ d = d' ∧ (ln = ln' → nn = nn') := by
  obtain ⟨p, h1, h2, h3⟩ := a
  obtain ⟨p', g1, g2, g3⟩ := b
  obtain ⟨rfl, rfl⟩ := opens_same C h1.2 g1.2 h2 g2 (.inr ⟨_, _, hl⟩) (.inr ⟨_, _, hl'⟩)
  obtain ⟨e1, e2, -⟩ := cross_inj C hl hl' rfl
  refine ⟨rfl, e1, e2, ?_⟩
  rintro rfl
  exact opens_det h3 g3

theorem accountPath_det (C : CollisionFree H (Or3 S S')) {o nn nn' lo ln lo' ln' k l r p k' l' r' p' : Fr}
    (a : SamePath (hashRel H S) key o nn lo ln) (b : SamePath (hashRel H S') key o nn' lo' ln')
    (hl : IsAccount (hashRel H S) k l r p lo) (hl' : IsAccount (hashRel H S') k' l' r' p' lo') :
    k = k' ∧ l = l' ∧ r = r' ∧ p = p' ∧ (ln = ln' → nn = nn') := by
  obtain ⟨f, d, h1, h2, h3⟩ := hl
  obtain ⟨f', d', g1, g2, g3⟩ := hl'
  obtain ⟨-, e1, e2, e3⟩ := samePath_det C a b h3 g3
  obtain ⟨e4, e5, -⟩ := cross_inj C h2 g2 e2
  obtain ⟨e6, e7, -⟩ := cross_inj C h1 g1 e4
  exact ⟨e1, e6, e7, e5, e3⟩

/-- `nn` is `o` with the value `xo` of a field replaced by `xn`, in a leaf that is there. -/
def Change (R : HashRel) (key o nn : Fr) (t : MPTProofType) (slot xo xn : ℕ) : Prop :=
  match t with
  | .NonceChanged => ∃ k r p size b lo ln lfo lfn, xo < 2 ^ 64 ∧ xn < 2 ^ 64 ∧ size < 2 ^ 64 ∧
      IsLeft R (nonceCode xo size) b lo ∧ IsLeft R (nonceCode xn size) b ln ∧
      IsAccount R k lo r p lfo ∧ IsAccount R k ln r p lfn ∧ SamePath R key o nn lfo lfn
  | .CodeSizeExists => ∃ k r p nonce b lo ln lfo lfn, xo < 2 ^ 64 ∧ xn < 2 ^ 64 ∧ nonce < 2 ^ 64 ∧
      IsLeft R (nonceCode nonce xo) b lo ∧ IsLeft R (nonceCode nonce xn) b ln ∧
      IsAccount R k lo r p lfo ∧ IsAccount R k ln r p lfn ∧ SamePath R key o nn lfo lfn
  | .BalanceChanged => ∃ k r p nc lo ln lfo lfn, xo < 2 ^ 248 ∧ xn < 2 ^ 248 ∧
      IsLeft R nc (xo : Fr) lo ∧ IsLeft R nc (xn : Fr) ln ∧
      IsAccount R k lo r p lfo ∧ IsAccount R k ln r p lfn ∧ SamePath R key o nn lfo lfn
  | .CodeHashExists => ∃ k l p sr ho hn ro rn lfo lfn, IsWord R xo ho ∧ IsWord R xn hn ∧
      IsRight R sr ho ro ∧ IsRight R sr hn rn ∧
      IsAccount R k l ro p lfo ∧ IsAccount R k l rn p lfn ∧ SamePath R key o nn lfo lfn
  | .PoseidonCodeHashExists => ∃ k f d d' lfo lfn, R f (xo : Fr) HashDomain.AccountFields.toFr d ∧
      R f (xn : Fr) HashDomain.AccountFields.toFr d' ∧ Spec.IsLeaf R k d lfo ∧ Spec.IsLeaf R k d' lfn ∧
      SamePath R key o nn lfo lfn
  | .StorageChanged => ∃ sk so sn k ho hn lo ln, IsWord R slot sk ∧ StorageRootUpdate R key o nn so sn ∧
      IsWord R xo ho ∧ IsWord R xn hn ∧ Spec.IsLeaf R k ho lo ∧ Spec.IsLeaf R k hn ln ∧ SamePath R sk so sn lo ln
  | _ => False

theorem samePath_symm {R : HashRel} {o nn a b : Fr} (h : SamePath R key o nn a b) : SamePath R key nn o b a := by
  obtain ⟨p, h1, h2, h3⟩ := h
  exact ⟨p, h1, h3, h2⟩

theorem change_symm {R : HashRel} {o nn : Fr} {t : MPTProofType} {slot xo xn : ℕ} (h : Change R key o nn t slot xo xn) :
    Change R key nn o t slot xn xo := by
  cases t with
  | NonceChanged =>
    obtain ⟨k, r, p, sz, b, lo, ln, lfo, lfn, h1, h2, h3, h4, h5, h6, h7, h8⟩ := h
    exact ⟨k, r, p, sz, b, ln, lo, lfn, lfo, h2, h1, h3, h5, h4, h7, h6, samePath_symm h8⟩
  | CodeSizeExists =>
    obtain ⟨k, r, p, sz, b, lo, ln, lfo, lfn, h1, h2, h3, h4, h5, h6, h7, h8⟩ := h
    exact ⟨k, r, p, sz, b, ln, lo, lfn, lfo, h2, h1, h3, h5, h4, h7, h6, samePath_symm h8⟩
  | BalanceChanged =>
    obtain ⟨k, r, p, nc, lo, ln, lfo, lfn, h1, h2, h4, h5, h6, h7, h8⟩ := h
    exact ⟨k, r, p, nc, ln, lo, lfn, lfo, h2, h1, h5, h4, h7, h6, samePath_symm h8⟩
  | CodeHashExists =>
    obtain ⟨k, l, p, sr, ho, hn, ro, rn, lfo, lfn, h1, h2, h4, h5, h6, h7, h8⟩ := h
    exact ⟨k, l, p, sr, hn, ho, rn, ro, lfn, lfo, h2, h1, h5, h4, h7, h6, samePath_symm h8⟩
  | PoseidonCodeHashExists =>
    obtain ⟨k, f, d, d', lfo, lfn, h1, h2, h3, h4, h5⟩ := h
    exact ⟨k, f, d', d, lfn, lfo, h2, h1, h4, h3, samePath_symm h5⟩
  | StorageChanged =>
    obtain ⟨sk, so, sn, k, ho, hn, lo, ln, h1, h2, h3, h4, h5, h6, h7⟩ := h
    obtain ⟨k', l, p, kh, ro, rn, lfo, lfn, r1, r2, a1, a2, hp⟩ := h2
    exact ⟨sk, sn, so, k, hn, ho, ln, lo, h1, ⟨k', l, p, kh, rn, ro, lfn, lfo, r2, r1, a2, a1, samePath_symm hp⟩,
      h4, h3, h6, h5, samePath_symm h7⟩
  | _ => exact h.elim

theorem change_fieldAt {R : HashRel} {o nn : Fr} {t : MPTProofType} {slot xo xn : ℕ}
    (h : Change R key o nn t slot xo xn) : ∃ k, FieldAt R key o k t slot xo := by
  cases t with
  | NonceChanged =>
    obtain ⟨k, r, p, sz, b, lo, ln, lfo, lfn, h1, h2, h3, h4, h5, h6, h7, path, hp, o1, o2⟩ := h
    exact ⟨k, lo, r, p, sz, b, accountAt_of hp o1 h6, h1, h3, h4⟩
  | CodeSizeExists =>
    obtain ⟨k, r, p, sz, b, lo, ln, lfo, lfn, h1, h2, h3, h4, h5, h6, h7, path, hp, o1, o2⟩ := h
    exact ⟨k, lo, r, p, sz, b, accountAt_of hp o1 h6, h1, h3, h4⟩
  | BalanceChanged =>
    obtain ⟨k, r, p, nc, lo, ln, lfo, lfn, h1, h2, h4, h5, h6, h7, path, hp, o1, o2⟩ := h
    exact ⟨k, lo, r, p, nc, accountAt_of hp o1 h6, h1, h4⟩
  | CodeHashExists =>
    obtain ⟨k, l, p, sr, ho, hn, ro, rn, lfo, lfn, h1, h2, h4, h5, h6, h7, path, hp, o1, o2⟩ := h
    exact ⟨k, l, ro, p, sr, ho, accountAt_of hp o1 h6, h4, h1⟩
  | PoseidonCodeHashExists =>
    obtain ⟨k, f, d, d', lfo, lfn, h1, h2, h3, h4, path, hp, o1, o2⟩ := h
    exact ⟨k, d, f, ⟨path, lfo, hp.2, o1, h3⟩, h1⟩
  | StorageChanged =>
    obtain ⟨sk, so, sn, k, ho, hn, lo, ln, h1, h2, h3, h4, h5, h6, path', hp', o1', o2'⟩ := h
    obtain ⟨k', l, p, kh, ro, rn, lfo, lfn, r1, r2, a1, a2, path, hp, o1, o2⟩ := h2
    exact ⟨k', l, ro, p, so, kh, sk, k, ho, accountAt_of hp o1 a1, r1, h1, ⟨path', lo, hp'.2, o1', h5⟩, h3⟩
  | _ => exact h.elim

theorem sameValue_eq {t : MPTProofType} {x y : ℕ} (h : SameValue t x y) (ht : t ≠ .PoseidonCodeHashExists) : x = y :=
  h.resolve_right fun h => ht h.1

theorem storageRoot_det (C : CollisionFree H (Or3 S S')) {o nn nn' so so' sn sn' : Fr}
    (a : StorageRootUpdate (hashRel H S) key o nn so sn) (b : StorageRootUpdate (hashRel H S') key o nn' so' sn') :
    so = so' ∧ (sn = sn' → nn = nn') := by
  obtain ⟨k, l, p, kh, ro, rn, lfo, lfn, r1, r2, a1, a2, hp⟩ := a
  obtain ⟨k', l', p', kh', ro', rn', lfo', lfn', r1', r2', a1', a2', hp'⟩ := b
  obtain ⟨rfl, rfl, e, rfl, hd⟩ := accountPath_det C hp hp' a1 a1'
  obtain ⟨rfl, rfl, -⟩ := cross_inj C r1 r1' e
  refine ⟨rfl, ?_⟩
  rintro rfl
  obtain rfl := rel_det r2 r2'
  exact hd (account_det a2 a2')

/-- The root after a change is determined by the one before and the new value. -/
theorem change_det (C : CollisionFree H (Or3 S S')) {o nn nn' : Fr} {t : MPTProofType} {slot xo xn yo yn : ℕ}
    (a : Change (hashRel H S) key o nn t slot xo xn) (b : Change (hashRel H S') key o nn' t slot yo yn)
    (hv : SameValue t xn yn) : nn = nn' := by
  cases t with
  | NonceChanged =>
    obtain ⟨k, r, p, sz, bl, lo, ln, lfo, lfn, h1, h2, h3, h4, h5, h6, h7, h8⟩ := a
    obtain ⟨k', r', p', sz', bl', lo', ln', lfo', lfn', g1, g2, g3, g4, g5, g6, g7, g8⟩ := b
    obtain rfl := sameValue_eq hv (by simp)
    obtain ⟨rfl, e, rfl, rfl, hd⟩ := accountPath_det C h8 g8 h6 g6
    obtain ⟨e1, rfl, -⟩ := cross_inj C h4 g4 e
    obtain rfl := (nonceCode_inj h1 h3 g1 g3 e1).2
    obtain rfl := rel_det h5 g5
    exact hd (account_det h7 g7)
  | CodeSizeExists =>
    obtain ⟨k, r, p, sz, bl, lo, ln, lfo, lfn, h1, h2, h3, h4, h5, h6, h7, h8⟩ := a
    obtain ⟨k', r', p', sz', bl', lo', ln', lfo', lfn', g1, g2, g3, g4, g5, g6, g7, g8⟩ := b
    obtain rfl := sameValue_eq hv (by simp)
    obtain ⟨rfl, e, rfl, rfl, hd⟩ := accountPath_det C h8 g8 h6 g6
    obtain ⟨e1, rfl, -⟩ := cross_inj C h4 g4 e
    obtain rfl := (nonceCode_inj h3 h1 g3 g1 e1).1
    obtain rfl := rel_det h5 g5
    exact hd (account_det h7 g7)
  | BalanceChanged =>
    obtain ⟨k, r, p, nc, lo, ln, lfo, lfn, h1, h2, h4, h5, h6, h7, h8⟩ := a
    obtain ⟨k', r', p', nc', lo', ln', lfo', lfn', g1, g2, g4, g5, g6, g7, g8⟩ := b
    obtain rfl := sameValue_eq hv (by simp)
    obtain ⟨rfl, e, rfl, rfl, hd⟩ := accountPath_det C h8 g8 h6 g6
    obtain ⟨rfl, -, -⟩ := cross_inj C h4 g4 e
    obtain rfl := rel_det h5 g5
    exact hd (account_det h7 g7)
  | CodeHashExists =>
    obtain ⟨k, l, p, sr, ho, hn, ro, rn, lfo, lfn, h1, h2, h4, h5, h6, h7, h8⟩ := a
    obtain ⟨k', l', p', sr', ho', hn', ro', rn', lfo', lfn', g1, g2, g4, g5, g6, g7, g8⟩ := b
    obtain rfl := sameValue_eq hv (by simp)
    obtain ⟨rfl, rfl, e, rfl, hd⟩ := accountPath_det C h8 g8 h6 g6
    obtain ⟨rfl, -, -⟩ := cross_inj C h4 g4 e
    obtain rfl := rel_det h2.2 g2.2
    obtain rfl := rel_det h5 g5
    exact hd (account_det h7 g7)
  | PoseidonCodeHashExists =>
    obtain ⟨k, f, d, d2, lfo, lfn, h1, h2, h3, h4, h5⟩ := a
    obtain ⟨k', f', d', d2', lfo', lfn', g1, g2, g3, g4, g5⟩ := b
    obtain ⟨-, rfl, e, hd⟩ := samePath_det C h5 g5 h3 g3
    obtain ⟨rfl, -, -⟩ := cross_inj C h1 g1 e
    have : (xn : Fr) = yn := by
      rcases hv with rfl | ⟨-, h⟩
      exacts [rfl, h]
    rw [this] at h2
    obtain rfl := rel_det h2 g2
    exact hd (rel_det h4 g4)
  | StorageChanged =>
    obtain ⟨sk, so, sn, k, ho, hn, lo, ln, h1, h2, h3, h4, h5, h6, h7⟩ := a
    obtain ⟨sk', so', sn', k', ho', hn', lo', ln', g1, g2, g3, g4, g5, g6, g7⟩ := b
    obtain rfl := sameValue_eq hv (by simp)
    obtain rfl := rel_det h1.2 g1.2
    obtain ⟨rfl, hd⟩ := storageRoot_det C h2 g2
    obtain ⟨-, rfl, -, hd'⟩ := samePath_det C h7 g7 h5 g5
    obtain rfl := rel_det h4.2 g4.2
    exact hd (hd' (rel_det h6 g6))
  | _ => exact a.elim

variable {n U : ℕ} {w : Witness Fr} {t : MPTProofType}
variable {address slotRlc oldRootRlc newRootRlc oldValue newValue : Fr}

/-- The roots, values and slot of a claim are codes of these roots and numbers, which are in the tables. -/
structure Codes (H : HashFn) (w : Witness Fr) (U : ℕ) (t : MPTProofType) (slotRlc oldValue newValue o nn : Fr)
    (slot xo xn : ℕ) : Prop where
  outOld : TableOutput H w U o
  outNew : TableOutput H w U nn
  old : oldValue = valueCode w.chal t xo
  new : newValue = valueCode w.chal t xn
  fits : ValueFits t xo ∧ ValueFits t xn
  words : t = .BalanceChanged ∨ t = .CodeHashExists ∨ t = .StorageChanged → TableWord w U xo ∧ TableWord w U xn
  slot : t = .StorageChanged → slot < 2 ^ 256 ∧ TableWord w U slot ∧ slotRlc = rlc w.chal (beBytes 32 slot)

/-- What is known of a run, `E`, in terms of its own roots and numbers, is known of the claim it exposes. -/
theorem claim_exact {B : Finset (List ℕ)} (hsep : Separates w.chal B) (hcom : committed H w U ⊆ B) {c : StateClaim}
    (hc : c.Fits) (hB : ∀ b ∈ claimStrings [c], b ∈ B) {E : Fr → Fr → Fr → ℕ → ℕ → ℕ → Prop}
    (hx : ∃ (a : ℕ) (o nn : Fr) (slot xo xn : ℕ), a < 2 ^ 160 ∧ (beVal c.address : Fr) = (a : Fr) ∧
      rootRlc w.chal c.oldRoot = rootRlc w.chal o ∧ rootRlc w.chal c.newRoot = rootRlc w.chal nn ∧
      Codes H w U c.type (rlc w.chal (beBytes 32 c.slot)) (valueCode w.chal c.type c.oldValue)
        (valueCode w.chal c.type c.newValue) o nn slot xo xn ∧ E (addressKey H a) o nn slot xo xn) :
    ∃ slot xo xn, E (accountKey H c.address) c.oldRoot c.newRoot slot xo xn ∧ SameValue c.type c.oldValue xo ∧
      SameValue c.type c.newValue xn ∧ (c.type = .StorageChanged → slot = c.slot) := by
  have hB' : beBytes 32 c.slot ∈ B ∧ frBytes c.oldRoot ∈ B ∧ frBytes c.newRoot ∈ B ∧ beBytes 32 c.oldValue ∈ B ∧
      beBytes 32 c.newValue ∈ B := by
    simp only [claimStrings, List.flatMap_cons, List.flatMap_nil, List.append_nil, List.mem_cons,
      List.not_mem_nil, or_false, forall_eq_or_imp, forall_eq] at hB
    exact hB
  obtain ⟨b1, b2, b3, b4, b5⟩ := hB'
  obtain ⟨a, o, nn, slot, xo, xn, h1, h2, h3, h4, K, hE⟩ := hx
  have hk : accountKey H c.address = addressKey H a := accountKey_eq_addressKey hc.address h1 h2
  have ho : c.oldRoot = o := root_inj hsep b2 (hcom (committed_output K.outOld)) h3
  have hn : c.newRoot = nn := root_inj hsep b3 (hcom (committed_output K.outNew)) h4
  rw [hk, ho, hn]
  refine ⟨slot, xo, xn, hE, value_inj hsep hc.oldValue K.fits.1 (fun ht => ⟨b4, hcom (committed_word (K.words ht).1)⟩) K.old,
    value_inj hsep hc.newValue K.fits.2 (fun ht => ⟨b5, hcom (committed_word (K.words ht).2)⟩) K.new, fun ht => ?_⟩
  obtain ⟨g1, g2, g3⟩ := K.slot ht
  exact (word_inj hsep b1 (hcom (committed_word g2)) hc.slot g1 g3).symm

variable {o nn : Fr}

/-- A run that changes a field in exact terms. -/
abbrev CodedChange (H : HashFn) (w : Witness Fr) (U : ℕ) (t : MPTProofType) (key o nn slotRlc oldValue newValue : Fr) : Prop :=
  ∃ slot xo xn, Codes H w U t slotRlc oldValue newValue o nn slot xo xn ∧ Change (PR H w U) key o nn t slot xo xn

theorem coded {slot xo xn : ℕ} (h : Change (PR H w U) key o nn t slot xo xn)
    (old : oldValue = valueCode w.chal t xo) (new : newValue = valueCode w.chal t xn)
    (fits : ValueFits t xo ∧ ValueFits t xn)
    (words : t = .BalanceChanged ∨ t = .CodeHashExists ∨ t = .StorageChanged → TableWord w U xo ∧ TableWord w U xn)
    (hslot : t = .StorageChanged → slot < 2 ^ 256 ∧ TableWord w U slot ∧ slotRlc = rlc w.chal (beBytes 32 slot)) :
    CodedChange H w U t key o nn slotRlc oldValue newValue := by
  obtain ⟨k, h1⟩ := change_fieldAt h
  obtain ⟨k', h2⟩ := change_fieldAt (change_symm h)
  exact ⟨slot, xo, xn, ⟨out_of_fieldAt h1, out_of_fieldAt h2, old, new, fits, words, hslot⟩, h⟩

theorem change_nonce (h : NonceUpdate (PR H w U) key o nn oldValue newValue) :
    CodedChange H w U .NonceChanged key o nn slotRlc oldValue newValue := by
  obtain ⟨k, r, p, b, no, nw, cs, lo, ln, lfo, lfn, r1, r2, r3, rfl, rfl, l1, l2, a1, a2, hp⟩ := h
  exact coded (slot := 0) ⟨k, r, p, cs, b, lo, ln, lfo, lfn, r1, r2, r3, l1, l2, a1, a2, hp⟩ rfl rfl ⟨r1, r2⟩ (by simp) (by simp)

theorem change_balance (h : BalanceUpdate (PR H w U) w.chal key o nn oldValue newValue) :
    CodedChange H w U .BalanceChanged key o nn slotRlc oldValue newValue := by
  have lt : ∀ {x : ℕ}, x < 2 ^ 248 → x < 2 ^ 256 := fun h => lt_trans h (by norm_num)
  obtain ⟨k, r, p, nc, bo, bn, lo, ln, lfo, lfn, r1, r2, rfl, rfl, l1, l2, a1, a2, hp⟩ := h
  exact coded (slot := 0) ⟨k, r, p, nc, lo, ln, lfo, lfn, r1, r2, l1, l2, a1, a2, hp⟩ (rlc_31 r1 _).symm (rlc_31 r2 _).symm
    ⟨lt r1, lt r2⟩ (fun _ => ⟨tableWord_right r1 l1, tableWord_right r2 l2⟩) (by simp)

theorem change_codeSize (h : CodeSizeUpdate (PR H w U) key o nn oldValue newValue) :
    CodedChange H w U .CodeSizeExists key o nn slotRlc oldValue newValue := by
  obtain ⟨k, r, p, b, no, xo, xn, lo, ln, lfo, lfn, r1, r2, r3, rfl, rfl, l1, l2, a1, a2, hp⟩ := h
  exact coded (slot := 0) ⟨k, r, p, no, b, lo, ln, lfo, lfn, r2, r3, r1, l1, l2, a1, a2, hp⟩ rfl rfl ⟨r2, r3⟩ (by simp) (by simp)

theorem change_codeHash (h : CodeHashUpdate (PR H w U) w.chal key o nn oldValue newValue) :
    CodedChange H w U .CodeHashExists key o nn slotRlc oldValue newValue := by
  obtain ⟨k, l, p, sr, xo, xn, ho, hn, ro, rn, lfo, lfn, rfl, rfl, w1, w2, r1, r2, a1, a2, hp⟩ := h
  exact coded (slot := 0) ⟨k, l, p, sr, ho, hn, ro, rn, lfo, lfn, w1, w2, r1, r2, a1, a2, hp⟩ rfl rfl ⟨w1.1, w2.1⟩
    (fun _ => ⟨tableWord_word w1, tableWord_word w2⟩) (by simp)

theorem change_poseidon (h : PoseidonCodeHashUpdate (PR H w U) key o nn oldValue newValue) :
    CodedChange H w U .PoseidonCodeHashExists key o nn slotRlc oldValue newValue := by
  obtain ⟨k, f, d1, d2, lfo, lfn, f1, f2, l1, l2, hp⟩ := h
  exact coded (slot := 0) (xo := oldValue.val) (xn := newValue.val)
    ⟨k, f, d1, d2, lfo, lfn, by rw [ZMod.natCast_zmod_val]; exact f1, by rw [ZMod.natCast_zmod_val]; exact f2, l1, l2, hp⟩
    (by simp [valueCode]) (by simp [valueCode]) ⟨trivial, trivial⟩ (by simp) (by simp)

theorem change_slot {sk so sn : Fr} (hs : IsSlot (PR H w U) w.chal sk slotRlc)
    (hu : StorageRootUpdate (PR H w U) key o nn so sn)
    (hw : SlotUpdate (PR H w U) w.chal sk so sn oldValue newValue) :
    CodedChange H w U .StorageChanged key o nn slotRlc oldValue newValue := by
  obtain ⟨slot, hsl, hr⟩ := hs
  obtain ⟨k', xo, xn, ho, hn, lo, ln, rfl, rfl, -, -, w1, w2, l1, l2, hp⟩ := hw
  exact coded (slot := slot) ⟨sk, so, sn, k', ho, hn, lo, ln, hsl, hu, w1, w2, l1, l2, hp⟩ rfl rfl ⟨w1.1, w2.1⟩
    (fun _ => ⟨tableWord_word w1, tableWord_word w2⟩) (fun _ => ⟨hsl.1, tableWord_word hsl, hr⟩)

/-- What an exposed claim says if its old value is not 0. -/
theorem change_side (h : Accepted H n U w) (T : TablesOK w U)
    (hx : Exposes w U t address slotRlc oldRootRlc newRootRlc oldValue newValue)
    (hv : oldValue ≠ 0) (hs : t = .StorageChanged → newValue ≠ 0) :
    ∃ (a : ℕ) (o nn : Fr), a < 2 ^ 160 ∧ address = (a : Fr) ∧ oldRootRlc = rootRlc w.chal o ∧
      newRootRlc = rootRlc w.chal nn ∧ CodedChange H w U t (addressKey H a) o nn slotRlc oldValue newValue := by
  have wrap : ∀ {a : ℕ} {key o nn : Fr}, address = (a : Fr) → IsAddressKey (PR H w U) a key →
      oldRootRlc = rootRlc w.chal o → newRootRlc = rootRlc w.chal nn →
      CodedChange H w U t key o nn slotRlc oldValue newValue →
      ∃ (a : ℕ) (o nn : Fr), a < 2 ^ 160 ∧ address = (a : Fr) ∧ oldRootRlc = rootRlc w.chal o ∧
        newRootRlc = rootRlc w.chal nn ∧ CodedChange H w U t (addressKey H a) o nn slotRlc oldValue newValue := by
    rintro a key o nn h1 h2 h3 h4 h5
    have e : addressKey H a = key := h2.2.1.symm
    exact ⟨a, o, nn, h2.1, h1, h3, h4, by rw [e]; exact h5⟩
  cases t with
  | NonceChanged =>
    rcases c20_nonce_changed h T (.inl hv) hx with ⟨-, -, -, -, -, h6, h7⟩ | ⟨a, key, o, nn, h1, h2, h3, h4, h5⟩
    · exact absurd h6 hv
    refine wrap h1 h2 h3 h4 ?_
    rcases h5 with h5 | h5
    · exact change_nonce h5
    · obtain ⟨k, x, l, lf, r1, e, -⟩ := h5
      exact absurd e hv
  | BalanceChanged =>
    rcases c21_balance_changed h T (.inl hv) hx with ⟨-, -, -, -, -, h6, h7⟩ | ⟨a, key, o, nn, h1, h2, h3, h4, h5⟩
    · exact absurd h6 hv
    refine wrap h1 h2 h3 h4 ?_
    rcases h5 with h5 | h5
    · exact change_balance h5
    · obtain ⟨k, x, l, lf, r1, e, -⟩ := h5
      exact absurd e hv
  | CodeSizeExists =>
    rcases c22_code_size h T hx with ⟨h0, -⟩ | ⟨a, key, o, nn, h1, h2, h3, h4, h5⟩
    · simp at h0
    refine wrap h1 h2 h3 h4 ?_
    rcases h5 with h5 | h5
    · exact absurd h5.old hv
    · exact change_codeSize h5
  | CodeHashExists =>
    rcases c23_code_hash h T hx with ⟨h0, -⟩ | ⟨a, key, o, nn, h1, h2, h3, h4, h5⟩
    · simp at h0
    refine wrap h1 h2 h3 h4 ?_
    rcases h5 with h5 | h5
    · exact absurd h5.old hv
    · exact change_codeHash h5
  | PoseidonCodeHashExists =>
    rcases c24_poseidon_code_hash h T hx with ⟨h0, -⟩ | ⟨a, key, o, nn, h1, h2, h3, h4, h5⟩
    · simp at h0
    exact wrap h1 h2 h3 h4 (change_poseidon h5)
  | StorageChanged =>
    rcases c25_storage_update h T hv (hs rfl) hx with ⟨h0, -⟩ | ⟨a, key, o, nn, h1, h2, h3, h4, h5⟩
    · simp at h0
    obtain ⟨sk, so, sn, h6, h7, h8⟩ := h5
    exact wrap h1 h2 h3 h4 (change_slot h6 h7 h8)
  | AccountDoesNotExist =>
    obtain ⟨e1, e2, -⟩ := c27_absent_from_trie h T hx
    exact absurd e1 hv
  | StorageDoesNotExist =>
    obtain ⟨e1, e2, -⟩ := c28_absent_from_trie h T hx
    exact absurd e1 hv
  | AccountDestructed => exact (c29_no_destructed h T hx).elim

/-- A claim with an old value other than 0 in exact terms. -/
theorem change_claim (h : Accepted H n U w) (T : TablesOK w U) {B : Finset (List ℕ)}
    (hsep : Separates w.chal B) (hcom : committed H w U ⊆ B) {c : StateClaim} (hc : c.Fits)
    (hB : ∀ b ∈ claimStrings [c], b ∈ B) (hx : ClaimExposed c w U) (hd : c.Definite .old) :
    ∃ slot xo xn, Change (PR H w U) (accountKey H c.address) c.oldRoot c.newRoot c.type slot xo xn ∧
      SameValue c.type c.oldValue xo ∧ SameValue c.type c.newValue xn ∧ (c.type = .StorageChanged → slot = c.slot) := by
  refine claim_exact (E := fun key o nn slot xo xn => Change (PR H w U) key o nn c.type slot xo xn) hsep hcom hc hB ?_
  have b0 : beBytes 32 0 ∈ B := hcom (committed_word (.inl rfl))
  have hB' : beBytes 32 c.oldValue ∈ B ∧ beBytes 32 c.newValue ∈ B := by
    simp only [claimStrings, List.flatMap_cons, List.flatMap_nil, List.append_nil, List.mem_cons,
      List.not_mem_nil, or_false, forall_eq_or_imp, forall_eq] at hB
    exact hB.2.2.2
  have nz : ∀ y, ValueFits c.type y → beBytes 32 y ∈ B → ¬ SameValue c.type y 0 → valueCode w.chal c.type y ≠ 0 := by
    intro y fy hy hn he
    refine hn (value_inj hsep fy ?_ (fun _ => ⟨hy, b0⟩) (he.trans valueCode_zero.symm))
    unfold ValueFits; split <;> simp
  have hx' : Exposes w U c.type (beVal c.address : Fr) (rlc w.chal (beBytes 32 c.slot)) (rootRlc w.chal c.oldRoot)
    (rootRlc w.chal c.newRoot) (valueCode w.chal c.type c.oldValue) (valueCode w.chal c.type c.newValue) := hx
  obtain ⟨a, o, nn, h1, h2, h3, h4, slot, xo, xn, K, hE⟩ := change_side h T hx' (nz _ hc.oldValue hB'.1 hd.value) (by
    intro ht
    refine nz _ hc.newValue hB'.2 ?_
    rintro (e | ⟨e, -⟩)
    · exact (hd.slot ht).2 e
    · rw [ht] at e; cases e)
  exact ⟨a, o, nn, slot, xo, xn, h1, h2, h3, h4, K, hE⟩

theorem change_anySlot {R : HashRel} {slot slot' xo xn : ℕ} (ht : t ≠ .StorageChanged)
    (h : Change R key o nn t slot xo xn) : Change R key o nn t slot' xo xn := by
  revert h; unfold Change; split <;> first | exact id | contradiction

/-- Claims that are read off two circuits do not diverge. -/
theorem determined_of_separates {n' U' : ℕ} {w' : Witness Fr} (h : Accepted H n U w) (T : TablesOK w U)
    (h' : Accepted H n' U' w') (T' : TablesOK w' U') {B B' : Finset (List ℕ)}
    (hsep : Separates w.chal B) (hsep' : Separates w'.chal B') (hcom : committed H w U ⊆ B)
    (hcom' : committed H w' U' ⊆ B') {c d : StateClaim} (hc : c.Fits) (hd : d.Fits)
    (hB : ∀ b ∈ claimStrings [c], b ∈ B) (hB' : ∀ b ∈ claimStrings [d], b ∈ B')
    (hx : ClaimExposed c w U) (hx' : ClaimExposed d w' U') (dc : c.Definite .old) (dd : d.Definite .old)
    (C : CollisionFree H (Or3 (PosInputs w U) (PosInputs w' U'))) (s : Side) : ¬ c.Diverges s d := by
  rintro ⟨⟨e1, e2, e3, e4, e5⟩, hne⟩
  obtain ⟨slot, xo, xn, g1, g2, g3, g4⟩ := change_claim h T hsep hcom hc hB hx dc
  obtain ⟨slot', yo, yn, k1, k2, k3, k4⟩ := change_claim h' T' hsep' hcom' hd hB' hx' dd
  rw [← e1] at k2 k3 k4
  rw [← e1, ← e2] at k1
  have k1' : Change (PR H w' U') (accountKey H c.address) d.oldRoot d.newRoot c.type slot yo yn := by
    by_cases ht : c.type = .StorageChanged
    · rw [g4 ht, e3 (.inl ht), ← k4 ht]; exact k1
    · exact change_anySlot ht k1
  cases s with
  | old =>
    have e4 : c.oldRoot = d.oldRoot := e4
    rw [← e4] at k1'
    exact hne (change_det C g1 k1' (sameValue_trans (sameValue_symm g3) (sameValue_trans e5 k3)))
  | new =>
    have e4 : c.newRoot = d.newRoot := e4
    rw [← e4] at k1'
    exact hne (change_det C (change_symm g1) (change_symm k1')
      (sameValue_trans (sameValue_symm g2) (sameValue_trans e5 k2)))

/-- **C72, one circuit.** Fix what the prover commits to before the challenge is drawn. If two claims make the same
change to the same state and lead to different roots (or undo the same change of the same state and come from
different roots), then for all but `31 * (3 U + 11 choose 2)` challenges they cannot both be looked up in an
accepted completion. The field or slot must be there before the change.

Partial: for the creation of accounts and the insertion or deletion of slots the statement is false, see
`c72_false`; it holds for insertions when the gaps are closed, see `c72_patched`. -/
theorem c72_determined_partial {w₀ : Witness Fr} (hE : EdgesOK n w₀) {c d : StateClaim}
    (hc : c.Fits) (hd : d.Fits) (dc : c.Definite .old) (dd : d.Definite .old) {s : Side}
    (C : CollisionFree H (PosInputs w₀ U)) (hcd : c.Diverges s d) :
    (AcceptingChallenges H n U w₀ [c, d]).ncard ≤ 31 * (3 * U + 11).choose 2 := by
  have : Fintype Fr := inferInstance
  have hsub : AcceptingChallenges H n U w₀ [c, d] ⊆ {ρ | ¬ Separates ρ (compared H w₀ U [c, d])} := by
    rintro ρ ⟨w, rfl, hf, hacc, hx⟩ hsep
    have T := hacc.tablesOK (hE.same hf)
    have hcom : committed H w U ⊆ compared H w₀ U [c, d] := by
      rw [← committed_same hf]; exact Finset.subset_union_left
    have hB : ∀ e, e = c ∨ e = d → ∀ b ∈ claimStrings [e], b ∈ compared H w₀ U [c, d] := by
      intro e he b hb
      refine Finset.mem_union_right _ ?_
      simp only [claimStrings, List.mem_toFinset, List.mem_flatMap, List.mem_singleton] at hb ⊢
      obtain ⟨_, rfl, hb⟩ := hb
      exact ⟨_, by simpa using he, hb⟩
    exact determined_of_separates hacc T hacc T hsep hsep hcom hcom hc hd (hB c (.inl rfl)) (hB d (.inr rfl))
      (hx c (by simp)) (hx d (by simp)) dc dd
      (C.mono fun _ _ _ h => (posInputs_same hf).2 (h.elim id id)) s hcd
  refine le_trans (Set.ncard_le_ncard hsub (Set.toFinite _)) ?_
  refine le_trans (separates_all_but _ fun b hb => compared_bytes hb) ?_
  exact Nat.mul_le_mul_left _ (Nat.choose_le_choose 2 (compared_card H w₀ U [c, d]))

/-- **C72, two circuits**, with their own commitments and challenges. Partial as `c72_determined_partial`. -/
theorem c72_two_circuits_partial {n' U' : ℕ} {w₀ w₁ : Witness Fr} (hE : EdgesOK n w₀) (hE' : EdgesOK n' w₁)
    {c d : StateClaim}
    (hc : c.Fits) (hd : d.Fits) (dc : c.Definite .old) (dd : d.Definite .old) {s : Side}
    (C : CollisionFree H (Or3 (PosInputs w₀ U) (PosInputs w₁ U'))) (hcd : c.Diverges s d) :
    (AcceptingChallenges H n U w₀ [c] ×ˢ AcceptingChallenges H n' U' w₁ [d]).ncard ≤
      frModulus * (31 * (3 * U + 6).choose 2 + 31 * (3 * U' + 6).choose 2) := by
  refine pair_bound H w₀ w₁ U U' c d ?_
  rintro ⟨ρ, ρ'⟩ ⟨⟨w, e, hf, hacc, hx⟩, ⟨w', e', hf', hacc', hx'⟩⟩
  dsimp only at e e'
  subst e e'
  by_contra hno
  simp only [Set.mem_union, Set.mem_prod, Set.mem_ofPred_eq, Set.mem_univ, and_true, true_and, not_or,
    not_not] at hno
  refine determined_of_separates hacc (hacc.tablesOK (hE.same hf)) hacc'
    (hacc'.tablesOK (hE'.same hf')) hno.1 hno.2 ?_ ?_ hc hd
    (fun b hb => Finset.mem_union_right _ (by simpa using hb))
    (fun b hb => Finset.mem_union_right _ (by simpa using hb)) (hx c (by simp)) (hx' d (by simp)) dc dd
    (C.mono fun _ _ _ h => h.imp (posInputs_same hf).2 (posInputs_same hf').2) s hcd
  · rw [← committed_same hf]; exact Finset.subset_union_left
  · rw [← committed_same hf']; exact Finset.subset_union_left

end Mpt.Props
