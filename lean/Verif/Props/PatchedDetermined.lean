import Verif.Props.PatchedAgreement
import Verif.Props.Determined

set_option autoImplicit false

/-!
# C72 with the gaps closed: the effect of every claim but a deletion is determined
-/

namespace Mpt.Props
open Mpt Spec Types MptUpdate Requests

variable {H : HashFn} {S S' : Fr → Fr → Fr → Prop} {key root : Fr}

theorem nextDomain_det {d d' d'' : Fr} {b : Bool} (h : NextDomain d b d') (h' : NextDomain d b d'') : d' = d'' := by
  rcases h with ⟨rfl, rfl⟩ | ⟨h, rfl⟩ <;> rcases h' with ⟨e, rfl⟩ | ⟨e, rfl⟩
  · rfl
  · rcases e with e | e <;> exact absurd (toFr_inj e) (by decide)
  · rw [e] at h
    rcases h with h | h <;> exact absurd (toFr_inj h) (by decide)
  · rfl

theorem inserted_det {ext pre : List Step} {hOld leaf o nn nn' : Fr}
    (a : Inserted (hashRel H S) key ext hOld leaf pre o nn) (b : Inserted (hashRel H S') key ext hOld leaf pre o nn') :
    nn = nn' := by
  generalize hp : pre = pre₀ at b
  cases a with
  | root h =>
    cases b with
    | root h' => exact opens_det h h'
    | below => simp at hp
  | @below p last dom y xo xn _ _ o1 o2 n1 n2 o3 hd =>
    cases b with
    | root h' => simp at hp
    | @below p' last' dom' y' xo' xn' _ _ o1' o2' n1' n2' o3' hd' =>
      obtain ⟨rfl, e⟩ := List.append_inj' hp rfl
      obtain rfl : last = last' := by simpa using e
      obtain rfl := opens_det o3 o3'
      have hdom : dom = dom' := by
        split at hd
        · rename_i he; rw [if_pos he] at hd'; exact hd.1.trans hd'.1.symm
        · rename_i he; rw [if_neg he] at hd'; exact nextDomain_det hd hd'
      subst hdom
      obtain rfl := node_det n2 n2'
      exact opens_det o2 o2'

theorem properLevels_det (C : CollisionFree H (Or3 S S')) {i : ℕ} {h : Fr} {ext ext' : List Step}
    (a : ProperLevels (hashRel H S) key i h ext) (b : ProperLevels (hashRel H S') key i h ext') : ext = ext' := by
  rcases a with ⟨rfl, rfl⟩ | ⟨k, d, e, h1, h2, h3, rfl⟩
  · rcases b with ⟨rfl, -⟩ | ⟨k, d, e, h1, -⟩
    · rfl
    · exact (C.ne_zero (.inr h1.2) h1.1.symm).elim
  · rcases b with ⟨rfl, rfl⟩ | ⟨k', d', e', g1, g2, g3, rfl⟩
    · exact (C.ne_zero (.inl h1.2) h1.1.symm).elim
    · obtain ⟨rfl, -, -⟩ := cross_inj C h1 g1 rfl
      have : e = e' := by
        rcases Nat.lt_trichotomy e e' with hlt | rfl | hlt
        · exact absurd (g2 (i + e) (by omega)) h3
        · rfl
        · exact absurd (h2 (i + e') (by omega)) g3
      rw [this]

theorem absent_terminal {R : HashRel} {i : ℕ} {h : Fr} (a : Absent R key i h) : Terminal R h := by
  rcases a with h | ⟨k, d, -, -, -, hl⟩
  · exact .inl h
  · exact .inr ⟨k, d, hl⟩

/-- A proper insertion of a leaf leads to one root. -/
theorem insertion_det (C : CollisionFree H (Or3 S S')) {o nn nn' leaf : Fr}
    (a : ProperInsertion (hashRel H S) key o nn leaf) (b : ProperInsertion (hashRel H S') key o nn' leaf) : nn = nn' := by
  obtain ⟨pre, ext, x, h1, h2, h3, h4⟩ := a
  obtain ⟨pre', ext', x', g1, g2, g3, g4⟩ := b
  obtain ⟨rfl, rfl⟩ := opens_same C h1.2 g1.2 h2.opens_old g2.opens_old (absent_terminal h3) (absent_terminal g3)
  obtain rfl := properLevels_det C h4 g4
  exact inserted_det h2 g2

/-- What a run does to the state, if the gaps are closed. -/
inductive Effect (R : HashRel) (H : HashFn) (key o nn : Fr) (t : MPTProofType) (slot xo xn : ℕ) : Prop
  /-- a field of an account that is there -/
  | change : t ≠ .StorageChanged → Present R key o → Change R key o nn t slot xo xn → Effect R H key o nn t slot xo xn
  /-- nothing is there and stays there -/
  | nothing : t ≠ .StorageChanged →
      EmptyPath R key o ∨ t = .AccountDoesNotExist ∨ t = .StorageDoesNotExist → o = nn → xn = 0 →
      Effect R H key o nn t slot xo xn
  | nonce (left leaf : Fr) : t = .NonceChanged → 0 < xn → IsLeft R (nonceCode xn 0) 0 left →
      IsAccount R key left (H 0 (H 0 0 HashDomain.Pair.toFr) HashDomain.AccountFields.toFr) 0 leaf →
      ProperInsertion R key o nn leaf → Effect R H key o nn t slot xo xn
  | balance (left leaf : Fr) : t = .BalanceChanged → 0 < xn → IsLeft R 0 (xn : Fr) left →
      IsAccount R key left (H 0 (H 0 0 HashDomain.Pair.toFr) HashDomain.AccountFields.toFr) 0 leaf →
      ProperInsertion R key o nn leaf → Effect R H key o nn t slot xo xn
  /-- a slot that is there -/
  | write (sk so sn ho hn lo ln : Fr) : t = .StorageChanged → IsWord R slot sk → StorageRootUpdate R key o nn so sn →
      IsWord R xn hn → Spec.IsLeaf R sk ho lo → Spec.IsLeaf R sk hn ln → SamePath R sk so sn lo ln →
      Effect R H key o nn t slot xo xn
  | insert (sk so sn hn leaf : Fr) : t = .StorageChanged → IsWord R slot sk → StorageRootUpdate R key o nn so sn →
      IsWord R xn hn → Spec.IsLeaf R sk hn leaf → ProperInsertion R sk so sn leaf → Effect R H key o nn t slot xo xn
  | delete : t = .StorageChanged → xn = 0 → Effect R H key o nn t slot xo xn

theorem present_empty (C : CollisionFree H (Or3 S S')) (hp : Present (hashRel H S) key root)
    (he : EmptyPath (hashRel H S') key root) : False := by
  obtain ⟨d, hd⟩ := present_leafAt hp
  exact leafAt_not_empty C hd he

theorem leaf_not_inserted (C : CollisionFree H (Or3 S S')) {o nn nn' so so' sn sn' lo ln d leaf sk : Fr}
    (a : StorageRootUpdate (hashRel H S) key o nn so sn) (b : StorageRootUpdate (hashRel H S') key o nn' so' sn')
    (hl : Spec.IsLeaf (hashRel H S) sk d lo) (hp : SamePath (hashRel H S) sk so sn lo ln)
    (hi : ProperInsertion (hashRel H S') sk so' sn' leaf) : False := by
  obtain ⟨rfl, -⟩ := storageRoot_det C a b
  obtain ⟨p, h1, h2, -⟩ := hp
  exact leafAt_not_empty C ⟨p, lo, h1.2, h2, hl⟩ (insertion_old hi)

/-- The root after a change other than the deletion of a slot is determined. -/
theorem effect_det (C : CollisionFree H (Or3 S S')) {o nn nn' : Fr} {t : MPTProofType} {slot xo xn yo yn : ℕ}
    (a : Effect (hashRel H S) H key o nn t slot xo xn) (b : Effect (hashRel H S') H key o nn' t slot yo yn)
    (hv : SameValue t xn yn) (hx : t = .StorageChanged → xn ≠ 0) : nn = nn' := by
  have C' := collisionFree_swap C
  have none : ∀ {T T' : Fr → Fr → Fr → Prop} {m : Fr} {z z' : ℕ}, CollisionFree H (Or3 T T') →
      Present (hashRel H T) key o → Change (hashRel H T) key o m t slot z z' →
      (EmptyPath (hashRel H T') key o ∨ t = .AccountDoesNotExist ∨ t = .StorageDoesNotExist) → False := by
    intro T T' m z z' C hp hc he
    rcases he with he | rfl | rfl
    · exact present_empty C hp he
    · exact hc.elim
    · exact hc.elim
  cases a with
  | change ht hp hc =>
    cases b with
    | change ht' hp' hc' => exact change_det C hc hc' hv
    | nothing ht' he e => exact (none C hp hc he).elim
    | nonce l lf e _ _ _ hi => exact (present_empty C hp (insertion_old hi)).elim
    | balance l lf e _ _ _ hi => exact (present_empty C hp (insertion_old hi)).elim
    | write _ _ _ _ _ _ _ e => exact absurd e ht
    | insert _ _ _ _ _ e => exact absurd e ht
    | delete e => exact absurd e ht
  | nothing ht he e e0 =>
    cases b with
    | change ht' hp' hc' => exact (none C' hp' hc' he).elim
    | nothing ht' he' e' => exact e.symm.trans e'
    | nonce l lf e' h0 =>
      have := sameValue_eq hv (by rw [e']; simp)
      omega
    | balance l lf e' h0 =>
      have := sameValue_eq hv (by rw [e']; simp)
      omega
    | write _ _ _ _ _ _ _ e => exact absurd e ht
    | insert _ _ _ _ _ e => exact absurd e ht
    | delete e => exact absurd e ht
  | nonce l lf e h0 hl ha hi =>
    subst e
    cases b with
    | change ht' hp' hc' => exact (present_empty C' hp' (insertion_old hi)).elim
    | nothing ht' he' e' e0 =>
      have := sameValue_eq hv (by simp)
      omega
    | nonce l' lf' _ h0' hl' ha' hi' =>
      obtain rfl := sameValue_eq hv (by simp)
      obtain rfl := rel_det hl hl'
      obtain rfl := account_det ha ha'
      exact insertion_det C hi hi'
    | balance _ _ e => cases e
    | write _ _ _ _ _ _ _ e => cases e
    | insert _ _ _ _ _ e => cases e
    | delete e => cases e
  | balance l lf e h0 hl ha hi =>
    subst e
    cases b with
    | change ht' hp' hc' => exact (present_empty C' hp' (insertion_old hi)).elim
    | nothing ht' he' e' e0 =>
      have := sameValue_eq hv (by simp)
      omega
    | nonce _ _ e => cases e
    | balance l' lf' _ h0' hl' ha' hi' =>
      obtain rfl := sameValue_eq hv (by simp)
      obtain rfl := rel_det hl hl'
      obtain rfl := account_det ha ha'
      exact insertion_det C hi hi'
    | write _ _ _ _ _ _ _ e => cases e
    | insert _ _ _ _ _ e => cases e
    | delete e => cases e
  | write sk so sn ho hn lo ln e h1 h2 h3 h4 h5 h6 =>
    subst e
    obtain rfl := sameValue_eq hv (by simp)
    cases b with
    | change ht => exact absurd rfl ht
    | nothing ht => exact absurd rfl ht
    | nonce _ _ e => cases e
    | balance _ _ e => cases e
    | write sk' so' sn' ho' hn' lo' ln' _ g1 g2 g3 g4 g5 g6 =>
      obtain rfl := rel_det h1.2 g1.2
      obtain ⟨rfl, hd⟩ := storageRoot_det C h2 g2
      obtain ⟨-, -, -, hd'⟩ := samePath_det C h6 g6 h4 g4
      obtain rfl := rel_det h3.2 g3.2
      exact hd (hd' (rel_det h5 g5))
    | insert sk' so' sn' hn' lf _ g1 g2 g3 g4 g5 =>
      obtain rfl := rel_det h1.2 g1.2
      exact (leaf_not_inserted C h2 g2 h4 h6 g5).elim
    | delete _ e => exact absurd e (hx rfl)
  | insert sk so sn hn lf e h1 h2 h3 h4 h5 =>
    subst e
    obtain rfl := sameValue_eq hv (by simp)
    cases b with
    | change ht => exact absurd rfl ht
    | nothing ht => exact absurd rfl ht
    | nonce _ _ e => cases e
    | balance _ _ e => cases e
    | write sk' so' sn' ho' hn' lo' ln' _ g1 g2 g3 g4 g5 g6 =>
      obtain rfl := rel_det h1.2 g1.2
      exact (leaf_not_inserted C' g2 h2 g4 g6 h5).elim
    | insert sk' so' sn' hn' lf' _ g1 g2 g3 g4 g5 =>
      obtain rfl := rel_det h1.2 g1.2
      obtain ⟨rfl, hd⟩ := storageRoot_det C h2 g2
      obtain rfl := rel_det h3.2 g3.2
      obtain rfl := rel_det h4 g4
      exact hd (insertion_det C h5 g5)
    | delete _ e => exact absurd e (hx rfl)
  | delete e e0 => exact absurd e0 (hx e)

variable {n U : ℕ} {w : Witness Fr} {t : MPTProofType}
variable {address slotRlc oldRootRlc newRootRlc oldValue newValue o nn : Fr}

/-- What a run does, with the numbers its values are codes of. -/
abbrev CodedEffect (H : HashFn) (w : Witness Fr) (U : ℕ) (t : MPTProofType) (key o nn slotRlc oldValue newValue : Fr) : Prop :=
  ∃ slot xo xn, Codes H w U t slotRlc oldValue newValue o nn slot xo xn ∧ Effect (PR H w U) H key o nn t slot xo xn

theorem coded_change (hp : Present (PR H w U) key o) (ht : t ≠ .StorageChanged)
    (h : CodedChange H w U t key o nn slotRlc oldValue newValue) :
    CodedEffect H w U t key o nn slotRlc oldValue newValue := by
  obtain ⟨slot, xo, xn, K, hc⟩ := h
  exact ⟨slot, xo, xn, K, .change ht hp hc⟩

theorem fits_zero : ValueFits t 0 := by unfold ValueFits; split <;> simp

theorem coded_nothing (ht : t ≠ .StorageChanged) (ho : TableOutput H w U o)
    (he : EmptyPath (PR H w U) key o ∨ t = .AccountDoesNotExist ∨ t = .StorageDoesNotExist)
    (hr : o = nn) (h0 : oldValue = 0) (h1 : newValue = 0) : CodedEffect H w U t key o nn slotRlc oldValue newValue :=
  ⟨0, 0, 0, ⟨ho, hr ▸ ho, h0.trans valueCode_zero.symm, h1.trans valueCode_zero.symm, ⟨fits_zero, fits_zero⟩,
    fun _ => ⟨.inl rfl, .inl rfl⟩, fun h => absurd h ht⟩, .nothing ht he hr rfl⟩

theorem out_of_creation {leaf k l r p : Fr} (hi : ProperInsertion (PR H w U) key o nn leaf)
    (ha : IsAccount (PR H w U) k l r p leaf) : TableOutput H w U o ∧ TableOutput H w U nn :=
  ⟨out_of_empty (insertion_old hi), out_of_accountAt (account_insertion hi ha)⟩

theorem coded_slot {sk so sn : Fr} (hs : IsSlot (PR H w U) w.chal sk slotRlc)
    (hu : StorageRootUpdate (PR H w U) key o nn so sn)
    (hw : SlotWrite (PR H w U) w.chal sk so sn oldValue newValue) :
    CodedEffect H w U .StorageChanged key o nn slotRlc oldValue newValue := by
  obtain ⟨slot, hsl, hr⟩ := hs
  have hout : TableOutput H w U o ∧ TableOutput H w U nn := by
    obtain ⟨k, l, p, kh, ro, rn, lfo, lfn, r1, r2, a1, a2, path, hg, o1, o2⟩ := hu
    exact ⟨out_of_accountAt (accountAt_of hg o1 a1), out_of_accountAt (accountAt_of hg o2 a2)⟩
  have hz : ∀ {v : Fr}, v = 0 → v = valueCode w.chal .StorageChanged 0 := fun h => h.trans valueCode_zero.symm
  cases hw with
  | update xo xn ho hn lo ln v1 v2 _ _ w1 w2 l1 l2 hp =>
    exact ⟨slot, xo, xn, ⟨hout.1, hout.2, v1, v2, ⟨w1.1, w2.1⟩, fun _ => ⟨tableWord_word w1, tableWord_word w2⟩,
      fun _ => ⟨hsl.1, tableWord_word hsl, hr⟩⟩, .write sk so sn ho hn lo ln rfl hsl hu w2 l1 l2 hp⟩
  | insert xn hn leaf v1 v2 _ w2 l2 hi =>
    exact ⟨slot, 0, xn, ⟨hout.1, hout.2, hz v1, v2, ⟨fits_zero, w2.1⟩, fun _ => ⟨.inl rfl, tableWord_word w2⟩,
      fun _ => ⟨hsl.1, tableWord_word hsl, hr⟩⟩, .insert sk so sn hn leaf rfl hsl hu w2 l2 hi⟩
  | delete xo ho leaf v2 v1 _ w1 l1 hi =>
    exact ⟨slot, xo, 0, ⟨hout.1, hout.2, v1, hz v2, ⟨w1.1, fits_zero⟩, fun _ => ⟨tableWord_word w1, .inl rfl⟩,
      fun _ => ⟨hsl.1, tableWord_word hsl, hr⟩⟩, .delete rfl rfl⟩

/-- What a run does, if the gaps are closed. -/
theorem effect_run {s e : ℤ} (R : Run H n U w s e) (T : TablesOK w U) (P : Patched H n U w)
    (C : CollisionFree H (PosInputs w U)) :
    CodedEffect H w U (proofAt w s) (w.adv .key s) (w.adv .oldHash s) (w.adv .newHash s) (w.adv .storageKeyRlc s)
      (w.adv .oldValue s) (w.adv .newValue s) := by
  rcases R.absent_strict T P with hp | ⟨ht, h2, h3, h4, h5⟩ | ⟨h1, h2⟩
  · have none : EmptyPath (PR H w U) (w.adv .key s) (w.adv .oldHash s) → False := present_not_empty C hp
    have insOld : ∀ {leaf : Fr}, InsertedLeaf (PR H w U) (w.adv .key s) (w.adv .oldHash s) (w.adv .newHash s) leaf →
        False := by
      rintro leaf ⟨pre, ext, x, g1, -, -, g2, -, g3⟩
      exact none ⟨pre, x, g1, g2.opens_old, g3⟩
    have push : PushedDown (PR H w U) (w.adv .key s) (w.adv .oldHash s) (w.adv .newHash s) → False := by
      rintro ⟨pre, ext, x, -, g1, -, -, g2, -, g3⟩
      exact none ⟨pre, x, g1, g2.opens_old, g3⟩
    cases ht : proofAt w s with
    | NonceChanged =>
      rcases R.nonce_sound T ht with h | h | h | h
      · exact (none h.empty).elim
      · exact coded_change hp (by simp) (change_nonce h)
      · obtain ⟨k, x, l, lf, -, -, -, -, -, hi⟩ := h
        exact (insOld hi).elim
      · exact (push h.2.2).elim
    | BalanceChanged =>
      rcases R.balance_sound T ht with h | h | h | h
      · exact (none h.empty).elim
      · exact coded_change hp (by simp) (change_balance h)
      · obtain ⟨k, x, l, lf, -, -, -, -, -, hi⟩ := h
        exact (insOld hi).elim
      · exact (push h.2.2).elim
    | CodeSizeExists =>
      rcases R.codeSize_sound T ht with h | h
      · exact (none h.empty).elim
      · exact coded_change hp (by simp) (change_codeSize h)
    | CodeHashExists =>
      rcases R.codeHash_sound T ht with h | h
      · exact (none h.empty).elim
      · exact coded_change hp (by simp) (change_codeHash h)
    | PoseidonCodeHashExists => exact coded_change hp (by simp) (change_poseidon (R.poseidonCodeHash_sound T ht))
    | StorageChanged =>
      obtain ⟨slot, so, sn, g1, -, g3, g4⟩ := R.storage_strict T P ht
      exact coded_slot g1 g3 g4
    | AccountDoesNotExist =>
      obtain ⟨-, -, -, h4⟩ := R.emptyAccount_sound T ht
      exact (none h4).elim
    | StorageDoesNotExist =>
      obtain ⟨g1, g2, g3, g4⟩ := R.emptyStorage_sound T ht
      rcases g4 with g4 | ⟨sk, hsl, g4⟩
      · exact (none g4).elim
      obtain ⟨k, l, r, p, kh, sr, leaf, path, k1, k2, k3, k4, k5⟩ := g4
      exact coded_nothing (by simp) (out_of_accountAt (accountAt_of k1 k2 k3)) (.inr (.inr rfl)) g3 g1 g2
    | AccountDestructed => exact (R.not_destructed ht).elim
  · refine coded_nothing ?_ (out_of_empty h5) (.inl h5) h2 h3 h4
    rintro e
    rw [e] at ht
    rcases ht with ht | ht <;> simp [Op.absentTypes] at ht
  · cases h2 with
    | nonce x left leaf ht hx0 hx hnv l1 a1 hi =>
      obtain ⟨q1, q2⟩ := out_of_creation hi a1
      rw [ht]
      exact ⟨0, 0, x, ⟨q1, q2, h1.trans valueCode_zero.symm, hnv, ⟨fits_zero, hx⟩, by simp, by simp⟩,
        .nonce left leaf rfl hx0 l1 a1 hi⟩
    | balance x left leaf ht hx0 hx hnv l1 a1 hi =>
      obtain ⟨q1, q2⟩ := out_of_creation hi a1
      rw [ht]
      exact ⟨0, 0, x, ⟨q1, q2, h1.trans valueCode_zero.symm, hnv.trans (rlc_31 hx _).symm,
        ⟨fits_zero, lt_trans hx (by norm_num)⟩, fun _ => ⟨.inl rfl, tableWord_right hx l1⟩, by simp⟩,
        .balance left leaf rfl hx0 l1 a1 hi⟩

/-- A claim in exact terms, if the gaps are closed. -/
theorem effect_claim (h : Accepted H n U w) (T : TablesOK w U) (P : Patched H n U w)
    (C : CollisionFree H (PosInputs w U)) {B : Finset (List ℕ)}
    (hsep : Separates w.chal B) (hcom : committed H w U ⊆ B) {c : StateClaim} (hc : c.Fits)
    (hB : ∀ b ∈ claimStrings [c], b ∈ B) (hx : ClaimExposed c w U) :
    ∃ slot xo xn, Effect (PR H w U) H (accountKey H c.address) c.oldRoot c.newRoot c.type slot xo xn ∧
      SameValue c.type c.oldValue xo ∧ SameValue c.type c.newValue xn ∧ (c.type = .StorageChanged → slot = c.slot) := by
  refine claim_exact (E := fun key o nn slot xo xn => Effect (PR H w U) H key o nn c.type slot xo xn) hsep hcom hc hB ?_
  have hx' : Exposes w U c.type (beVal c.address : Fr) (rlc w.chal (beBytes 32 c.slot)) (rootRlc w.chal c.oldRoot)
    (rootRlc w.chal c.newRoot) (valueCode w.chal c.type c.oldValue) (valueCode w.chal c.type c.newValue) := hx
  rcases hx'.run h T with ⟨h1, h2, -, h4, h5, h6, h7⟩ | ⟨r, e, a, R, h1, h2, h3, h4, h5, h6, h7, h8⟩
  · obtain ⟨slot, xo, xn, K, hE⟩ := coded_nothing (H := H) (w := w) (U := U) (t := c.type) (key := addressKey H 0) (o := 0) (nn := 0)
      (slotRlc := rlc w.chal (beBytes 32 c.slot)) (by rcases h1 with h1 | h1 <;> rw [h1] <;> simp) (.inl rfl)
      (.inl ⟨[], 0, ⟨by simp, by simp⟩, rfl, .inl rfl⟩) rfl h6 h7
    exact ⟨0, 0, 0, slot, xo, xn, by norm_num, by simpa using h2, by rw [rootRlc_zero, h4], by rw [rootRlc_zero, h5], K, hE⟩
  · obtain ⟨slot, xo, xn, K, hE⟩ := effect_run R T P C
    have hk : addressKey H a = w.adv .key r := h3.2.1.symm
    rw [h1, ← h4, ← h7, ← h8] at K
    rw [h1, ← hk] at hE
    exact ⟨a, _, _, slot, xo, xn, h3.1, h2, h5, h6, K, hE⟩

theorem effect_anySlot {R : HashRel} {slot slot' xo xn : ℕ} (ht : t ≠ .StorageChanged)
    (h : Effect R H key o nn t slot xo xn) : Effect R H key o nn t slot' xo xn := by
  cases h with
  | change h1 h2 h3 => exact .change h1 h2 (change_anySlot ht h3)
  | nothing h1 h2 h3 h4 => exact .nothing h1 h2 h3 h4
  | nonce l f h1 h2 h3 h4 h5 => exact .nonce l f h1 h2 h3 h4 h5
  | balance l f h1 h2 h3 h4 h5 => exact .balance l f h1 h2 h3 h4 h5
  | write _ _ _ _ _ _ _ e => exact absurd e ht
  | insert _ _ _ _ _ e => exact absurd e ht
  | delete e => exact absurd e ht

/-- Claims read off two patched circuits do not diverge. -/
theorem patched_determined {n' U' : ℕ} {w' : Witness Fr} (h : Accepted H n U w) (T : TablesOK w U) (P : Patched H n U w)
    (h' : Accepted H n' U' w') (T' : TablesOK w' U') (P' : Patched H n' U' w') {B B' : Finset (List ℕ)}
    (hsep : Separates w.chal B) (hsep' : Separates w'.chal B') (hcom : committed H w U ⊆ B)
    (hcom' : committed H w' U' ⊆ B') {c d : StateClaim} (hc : c.Fits) (hd : d.Fits)
    (hB : ∀ b ∈ claimStrings [c], b ∈ B) (hB' : ∀ b ∈ claimStrings [d], b ∈ B')
    (hx : ClaimExposed c w U) (hx' : ClaimExposed d w' U') (hdel : c.type = .StorageChanged → c.newValue ≠ 0)
    (C : CollisionFree H (Or3 (PosInputs w U) (PosInputs w' U'))) : ¬ c.Diverges .old d := by
  rintro ⟨⟨e1, e2, e3, e4, e5⟩, hne⟩
  obtain ⟨slot, xo, xn, g1, g2, g3, g4⟩ := effect_claim h T P (C.mono fun _ _ _ h => .inl h) hsep hcom hc hB hx
  obtain ⟨slot', yo, yn, k1, k2, k3, k4⟩ := effect_claim h' T' P' (C.mono fun _ _ _ h => .inr h) hsep' hcom' hd hB' hx'
  have e4 : c.oldRoot = d.oldRoot := e4
  rw [← e1] at k2 k3 k4
  rw [← e1, ← e2, ← e4] at k1
  have k1' : Effect (PR H w' U') H (accountKey H c.address) c.oldRoot d.newRoot c.type slot yo yn := by
    by_cases ht : c.type = .StorageChanged
    · rw [g4 ht, e3 (.inl ht), ← k4 ht]; exact k1
    · exact effect_anySlot ht k1
  refine hne (effect_det C g1 k1' (sameValue_trans (sameValue_symm g3) (sameValue_trans e5 k3)) fun ht => ?_)
  rw [← sameValue_eq g3 (by rw [ht]; simp)]
  exact hdel ht

/-- **C72 with the gaps closed.** If the circuit also enforces the missing constraints (C63), then also for the
creation of accounts and the insertion of slots: two claims that make the same change to the same root lead to the
same root, for all but `31 * (3 U + 11 choose 2)` challenges. Only the deletion of a slot is excluded: where the
levels above the deleted leaf end depends on the domains of the nodes, which are right only if the old root is that
of a well-formed trie (then C63 applies). -/
theorem c72_patched {w₀ : Witness Fr} (hE : EdgesOK n w₀) {c d : StateClaim}
    (hc : c.Fits) (hd : d.Fits) (hdel : c.type = .StorageChanged → c.newValue ≠ 0)
    (C : CollisionFree H (PosInputs w₀ U)) (hcd : c.Diverges .old d) :
    (PatchedChallenges H n U w₀ [c, d]).ncard ≤ 31 * (3 * U + 11).choose 2 := by
  have : Fintype Fr := inferInstance
  have hsub : PatchedChallenges H n U w₀ [c, d] ⊆ {ρ | ¬ Separates ρ (compared H w₀ U [c, d])} := by
    rintro ρ ⟨w, rfl, hf, hacc, P, hx⟩ hsep
    have T := hacc.tablesOK (hE.same hf)
    have hcom : committed H w U ⊆ compared H w₀ U [c, d] := by
      rw [← committed_same hf]; exact Finset.subset_union_left
    have hB : ∀ e, e = c ∨ e = d → ∀ b ∈ claimStrings [e], b ∈ compared H w₀ U [c, d] := by
      intro e he b hb
      refine Finset.mem_union_right _ ?_
      simp only [claimStrings, List.mem_toFinset, List.mem_flatMap, List.mem_singleton] at hb ⊢
      obtain ⟨_, rfl, hb⟩ := hb
      exact ⟨_, by simpa using he, hb⟩
    exact patched_determined hacc T P hacc T P hsep hsep hcom hcom hc hd (hB c (.inl rfl)) (hB d (.inr rfl))
      (hx c (by simp)) (hx d (by simp)) hdel (C.mono fun _ _ _ h => (posInputs_same hf).2 (h.elim id id)) hcd
  refine le_trans (Set.ncard_le_ncard hsub (Set.toFinite _)) ?_
  refine le_trans (separates_all_but _ fun b hb => compared_bytes hb) ?_
  exact Nat.mul_le_mul_left _ (Nat.choose_le_choose 2 (compared_card H w₀ U [c, d]))

/-- The same for claims that are looked up in two circuits, with their own commitments and challenges. -/
theorem c72_patched_two_circuits {n' U' : ℕ} {w₀ w₁ : Witness Fr} (hE : EdgesOK n w₀) (hE' : EdgesOK n' w₁)
    {c d : StateClaim}
    (hc : c.Fits) (hd : d.Fits) (hdel : c.type = .StorageChanged → c.newValue ≠ 0)
    (C : CollisionFree H (Or3 (PosInputs w₀ U) (PosInputs w₁ U'))) (hcd : c.Diverges .old d) :
    (PatchedChallenges H n U w₀ [c] ×ˢ PatchedChallenges H n' U' w₁ [d]).ncard ≤
      frModulus * (31 * (3 * U + 6).choose 2 + 31 * (3 * U' + 6).choose 2) := by
  refine pair_bound H w₀ w₁ U U' c d ?_
  rintro ⟨ρ, ρ'⟩ ⟨⟨w, e, hf, hacc, P, hx⟩, ⟨w', e', hf', hacc', P', hx'⟩⟩
  dsimp only at e e'
  subst e e'
  by_contra hno
  simp only [Set.mem_union, Set.mem_prod, Set.mem_ofPred_eq, Set.mem_univ, and_true, true_and, not_or,
    not_not] at hno
  refine patched_determined hacc (hacc.tablesOK (hE.same hf)) P hacc'
    (hacc'.tablesOK (hE'.same hf')) P' hno.1 hno.2 ?_ ?_ hc hd
    (fun b hb => Finset.mem_union_right _ (by simpa using hb))
    (fun b hb => Finset.mem_union_right _ (by simpa using hb)) (hx c (by simp)) (hx' d (by simp)) hdel
    (C.mono fun _ _ _ h => h.imp (posInputs_same hf).2 (posInputs_same hf').2) hcd
  · rw [← committed_same hf]; exact Finset.subset_union_left
  · rw [← committed_same hf']; exact Finset.subset_union_left

end Mpt.Props
