import Verif.Props.TrieOps
import Verif.Props.Challenge

set_option autoImplicit false

/-!
# The circuit with the missing constraints added (C63)

The findings B3 to B6, B8, B9 and B13 to B15 are constraints that the circuit lacks. `Patched` states them, row
by row, as they could be added to /repo/src/gadgets/mpt_update.rs. The theorems below say that nothing else is
missing: in an accepted witness that also satisfies `Patched`, every claim describes an operation on the state
its old root commits to.
-/

namespace Mpt
open Spec MptUpdate

/-- Trie rows. -/
def IsTrieRow (w : Witness Fr) (r : ℤ) : Prop := segAt w r = .AccountTrie ∨ segAt w r = .StorageTrie

noncomputable instance (w : Witness Fr) (r : ℤ) : Decidable (IsTrieRow w r) := inferInstanceAs (Decidable (_ ∨ _))

/-- Constraints that /repo/src/gadgets/mpt_update.rs lacks. Not part of the circuit. -/
structure Patched (H : HashFn) (n U : ℕ) (w : Witness Fr) : Prop where
  /-- B3: the key hashed into a leaf is the key of the path (mpt_update.rs: configure_nonce and the others do
  not constrain the sibling of the AccountLeaf0 and StorageLeaf0 rows). -/
  leafKey : ∀ r, Enabled n r → segAt w r = .AccountLeaf0 ∨ segAt w r = .StorageLeaf0 →
    w.adv .sibling r = w.adv .key r
  /-- B4: a leaf that becomes the root takes the place of the empty trie. -/
  emptyRoot : ∀ r, Enabled n r → Enabled n (r + 1) → segAt w r = .Start → segAt w (r + 1) = .AccountLeaf0 →
    pathAt w (r + 1) = .ExtensionNew → w.adv .oldHash r = 0
  /-- B5: the levels added by an insertion end where the two keys differ. B15: their domains. -/
  levels : ∀ r, Enabled n r → IsTrieRow w r → pathAt w r = .ExtensionNew →
    ∀ i : ℕ, i < 256 → w.adv .depth r = ((i + 1 : ℕ) : Fr) →
      if IsTrieRow w (r + 1) then
        w.adv .direction r = bitFr (keyBit (w.adv .otherKey r) i) ∧
        w.adv .domain r = if w.adv .direction r = 1 then HashDomain.Branch1.toFr else HashDomain.Branch2.toFr
      else
        w.adv .direction r ≠ bitFr (keyBit (w.adv .otherKey r) i) ∧ w.adv .domain r = HashDomain.Branch0.toFr
  /-- B6: a storage write does not create the account. -/
  storageAccount : ∀ r, Enabled n r → segAt w r = .AccountLeaf0 → proofAt w r = .StorageChanged →
    pathAt w r = .Common
  /-- B8: the value written to a new slot, and that of a deleted slot, is the one in the leaf. -/
  newWord : ∀ r, Enabled n r → segAt w r = .StorageLeaf0 → pathAt w r = .ExtensionNew →
    ∃ x, IsWord (PR H w U) x (w.adv .newHash r) ∧ w.adv .newValue r = Spec.rlc w.chal (beBytes 32 x)
  oldWord : ∀ r, Enabled n r → segAt w r = .StorageLeaf0 → pathAt w r = .ExtensionOld →
    ∃ x, IsWord (PR H w U) x (w.adv .oldHash r) ∧ w.adv .oldValue r = Spec.rlc w.chal (beBytes 32 x)
  /-- B9: an insertion ends with a leaf, which is not empty. -/
  leafFollows : ∀ r, Enabled n r → Enabled n (r + 1) → segAt w r = .AccountTrie → pathAt w r = .ExtensionNew →
    segAt w (r + 1) ≠ .Start
  newAccount : ∀ r, Enabled n r → segAt w r = .AccountLeaf3 → pathAt w r = .ExtensionNew →
    proofAt w r = .NonceChanged ∨ proofAt w r = .BalanceChanged → w.adv .newHash r ≠ 0
  /-- B13: after a removal no node is left with a single leaf below it. B14: the domain of the last node that
  is kept. -/
  removal : ∀ r, Enabled n r → segAt w r = .StorageTrie → pathAt w r = .Common →
    pathAt w (r + 1) = .ExtensionOld →
      if segAt w (r + 1) = .StorageLeaf0 then w.adv .domain r ≠ HashDomain.Branch0.toFr
      else w.adv .sibling r ≠ 0 ∧ (w.adv .domain r = HashDomain.Branch1.toFr → w.adv .direction r = 0) ∧
        (w.adv .domain r = HashDomain.Branch2.toFr → w.adv .direction r = 1)

variable {H : HashFn} {n U : ℕ} {w : Witness Fr} {s e r a : ℤ}

theorem stepsFrom_cons (w : Witness Fr) (b : ℤ) (j : ℕ) :
    stepsFrom w b (j + 1) = stepAt w (b + 1) :: stepsFrom w (b + 1) j := by
  simp only [stepsFrom, List.range_succ_eq_map, List.map_cons, List.map_map, Nat.cast_zero, add_zero]
  congr 1
  apply List.map_congr_left
  intro k _
  simp only [Function.comp, Nat.cast_succ]
  congr 1
  ring

theorem steps_split {b : ℤ} {key h : Fr} {c e : ℕ}
    (h1 : ∀ j < e, stepAt w (b + ((c + j : ℕ) : ℤ) + 1) =
      ⟨0, if keyBit key (c + j) then HashDomain.Branch1.toFr else HashDomain.Branch2.toFr⟩)
    (h2 : stepAt w (b + ((c + e : ℕ) : ℤ) + 1) = ⟨h, HashDomain.Branch0.toFr⟩) :
    stepsFrom w (b + (c : ℕ)) (e + 1) = splitLevels key h c e := by
  induction e generalizing c with
  | zero => rw [stepsFrom_cons]; simpa [stepsFrom, splitLevels] using h2
  | succ e ih =>
    rw [stepsFrom_cons, splitLevels]
    have h0 := h1 0 (by omega)
    simp only [add_zero] at h0
    rw [h0]
    congr 1
    rw [show b + (c : ℤ) + 1 = b + ((c + 1 : ℕ) : ℤ) by push_cast; ring]
    apply ih
    · intro j hj
      have := h1 (j + 1) (by omega)
      rwa [show c + (j + 1) = c + 1 + j by omega] at this
    · rwa [show c + 1 + e = c + (e + 1) by omega]

/-- A write of a storage slot, opened in the storage tries before and after. -/
inductive SlotWrite (R : HashRel) (ρ slot storageOld storageNew oldValue newValue : Fr) : Prop
  | update (xo xn : ℕ) (ho hn lo ln : Fr) : oldValue = Spec.rlc ρ (beBytes 32 xo) →
      newValue = Spec.rlc ρ (beBytes 32 xn) → xo ≠ 0 → xn ≠ 0 → IsWord R xo ho → IsWord R xn hn →
      Spec.IsLeaf R slot ho lo → Spec.IsLeaf R slot hn ln → SamePath R slot storageOld storageNew lo ln →
      SlotWrite R ρ slot storageOld storageNew oldValue newValue
  | insert (xn : ℕ) (hn leaf : Fr) : oldValue = 0 → newValue = Spec.rlc ρ (beBytes 32 xn) → xn ≠ 0 →
      IsWord R xn hn → Spec.IsLeaf R slot hn leaf → ProperInsertion R slot storageOld storageNew leaf →
      SlotWrite R ρ slot storageOld storageNew oldValue newValue
  | delete (xo : ℕ) (ho leaf : Fr) : newValue = 0 → oldValue = Spec.rlc ρ (beBytes 32 xo) → xo ≠ 0 →
      IsWord R xo ho → Spec.IsLeaf R slot ho leaf → ProperRemoval R slot storageOld storageNew leaf →
      SlotWrite R ρ slot storageOld storageNew oldValue newValue

namespace Run

theorem enabled (R : Run H n U w s e) (h1 : s ≤ r) (h2 : r ≤ e) : Enabled n r :=
  ⟨by have := R.pos; omega, by have := R.le; omega⟩

/-- The levels added by an insertion are the needed ones. -/
theorem proper_levels (R : Run H n U w s e) (T : TablesOK w U) (P : Patched H n U w) (b : ℤ) (m : ℕ)
    (h1 : s ≤ b) (h2 : b + m + 1 < e)
    (hseg : (∀ j < m, segAt w (b + (j : ℕ) + 1) = .AccountTrie) ∨
      ∀ j < m, segAt w (b + (j : ℕ) + 1) = .StorageTrie)
    (hb : segAt w b ≠ .AccountTrie ∧ segAt w b ≠ .StorageTrie)
    (hlast : segAt w (b + m + 1) = .AccountLeaf0 ∨ segAt w (b + m + 1) = .StorageLeaf0)
    (hp : pathAt w (b + m + 1) = .ExtensionNew)
    (hroot : m = 0 → w.adv .oldHash b = 0) {leaf : Fr} (hleaf : w.adv .newHash (b + m) = leaf)
    (hN : SegExt H w U b m .oldHash .newHash .ExtensionNew) :
    ProperInsertion (PR H w U) (w.adv .key b) (w.adv .oldHash b) (w.adv .newHash b) leaf := by
  subst hleaf
  have hS := R.trieSeg T b m h1 (by omega) hseg hb
  have hm : m < 2 ^ 64 := by have := R.size; omega
  obtain ⟨-, pre, ext, e1, e2, e3, -, e5, e6, e7, c, hc, hpre, hext, -, hq⟩ := hN
  obtain ⟨-, -, t3, -, -, -, t7⟩ := R.extNew_rel (r := b + m + 1) (by omega) h2 hp
  have hno := t7 (by rcases hlast with h | h <;> rw [h] <;> decide)
  have hkey := (R.row (r := b + m + 1) (by omega) h2).common.keepKey
    (by rcases hlast with h | h <;> rw [h] <;> decide) (by rcases hlast with h | h <;> rw [h] <;> decide)
  have hkb := hS.key_eq m le_rfl
  rw [add_sub_cancel_right] at t3 hkey
  rw [hkb.1, hkb.2] at hkey
  have hab := absent_of_nonexist R.acc.pos hno pre.length (by rw [hkey.1, hkey.2]; exact e7)
  rw [hkey.1, t3] at hab
  refine ⟨pre, ext, _, e2, e5, hab, ?_⟩
  have hpl : pre.length = c := by rw [hpre]; simp
  rcases Nat.eq_or_lt_of_le hc with hcm | hcm
  · left
    have hx : ext = [] := by rw [hext, hcm, Nat.sub_self]; rfl
    refine ⟨hx, ?_⟩
    subst hx
    rcases Nat.eq_zero_or_pos m with h0 | h0
    · subst h0; simpa using hroot rfl
    · revert e5
      generalize w.adv .oldHash (b + m) = A
      generalize w.adv .newHash (b + m) = B
      intro e5
      cases e5 with
      | root h => simp at e1; omega
      | below _ _ _ _ _ h => rw [if_pos rfl] at h; exact h.2
  · right
    obtain ⟨d, hd⟩ : ∃ d, m = c + d + 1 := ⟨m - c - 1, by omega⟩
    -- what the patched constraints say about each row
    have hrow : ∀ j, c ≤ j → j < m →
        w.adv .sibling (b + (j : ℕ) + 1) = (if j + 1 < m then 0 else w.adv .oldHash (b + m)) ∧
        (if j + 1 < m then keyBit (w.adv .otherKey b) j = keyBit (w.adv .key b) j ∧
          w.adv .domain (b + (j : ℕ) + 1) =
            (if keyBit (w.adv .key b) j then HashDomain.Branch1.toFr else HashDomain.Branch2.toFr)
        else keyBit (w.adv .otherKey b) j ≠ keyBit (w.adv .key b) j ∧
          w.adv .domain (b + (j : ℕ) + 1) = HashDomain.Branch0.toFr) := by
      intro j hj1 hj2
      obtain ⟨b1, b2, -⟩ := hS.bit hj2 hm
      have hk := (hS.key_eq (j + 1) (by omega)).2
      have hdep := hS.depth_eq (j + 1) (by omega)
      have ej : b + ((j + 1 : ℕ) : ℤ) = b + j + 1 := by push_cast; ring
      rw [ej] at hk hdep
      have hpj := hq j hj1 hj2
      have htr : IsTrieRow w (b + (j : ℕ) + 1) := hS.trie j hj2
      have L := P.levels _ (R.enabled (by omega) (by omega)) htr hpj j b2 hdep
      have hnext : IsTrieRow w (b + (j : ℕ) + 1 + 1) ↔ j + 1 < m := by
        constructor
        · intro h
          by_contra hge
          rw [show b + (j : ℤ) + 1 + 1 = b + m + 1 by omega] at h
          rcases h with h | h <;> rcases hlast with h' | h' <;> rw [h] at h' <;> cases h'
        · intro h
          have := hS.trie (j + 1) h
          rwa [ej] at this
      obtain ⟨-, -, -, -, -, x6, -⟩ := R.extNew_rel (r := b + (j : ℕ) + 1) (by omega) (by omega) hpj
      have x6 := x6 (by rcases htr with h | h <;> rw [h] <;> decide)
      have hmem : segAt w (b + (j : ℕ) + 1 + 1) ∈ [SegmentType.AccountTrie, .StorageTrie] ↔ j + 1 < m := by
        rw [← hnext]; simp [IsTrieRow]
      simp only [hmem] at x6
      simp only [hnext, hk, b1] at L
      constructor
      · rw [x6]
        split
        · rfl
        · rw [show b + (j : ℤ) + 1 = b + m by omega]
      · split
        · rename_i hlt
          rw [if_pos hlt] at L
          refine ⟨(TrieSeg.bitFr_inj L.1).symm, L.2.trans ?_⟩
          cases keyBit (w.adv .key b) j <;> simp [bitFr]
        · rename_i hlt
          rw [if_neg hlt] at L
          exact ⟨fun h => L.1 (by rw [h]), L.2⟩
    have hfin := hrow (c + d) (by omega) (by omega)
    rw [if_neg (by omega), if_neg (by omega)] at hfin
    have hne : w.adv .key b ≠ w.adv .otherKey b := fun h => hfin.2.1 (by rw [h])
    obtain ⟨-, -, -, h4⟩ := hno
    rcases h4 with ⟨g1, g2, g3⟩ | ⟨g1, -⟩
    · have hl := posRow_sound R.acc.pos g3
      rw [hkey.2, t3] at hl
      refine ⟨_, _, d, hl, ?_, ?_, ?_⟩
      · intro i hi
        rw [hpl] at hi
        by_cases hic : i < c
        · exact e7 i (by omega)
        · have := (hrow i (by omega) (by omega)).2
          rw [if_pos (by omega)] at this
          exact this.1
      · rw [hpl]; exact hfin.2.1
      · rw [hpl, hext, show m - c = d + 1 by omega]
        apply steps_split
        · intro j hj
          have := hrow (c + j) (by omega) (by omega)
          rw [if_pos (by omega), if_pos (by omega)] at this
          simp only [stepAt, this.1, this.2.2]
        · simp only [stepAt, hfin.1, hfin.2.2]
    · rw [hkey.1, hkey.2] at g1
      exact absurd g1 hne

/-- A removal on the old side is proper. -/
theorem proper_removal (R : Run H n U w s e) (T : TablesOK w U) (P : Patched H n U w) (b : ℤ) (m : ℕ)
    (h1 : s ≤ b) (h2 : b + m + 1 < e) (hseg : ∀ j < m, segAt w (b + (j : ℕ) + 1) = .StorageTrie)
    (hb : segAt w b ≠ .AccountTrie ∧ segAt w b ≠ .StorageTrie)
    (hlast : segAt w (b + m + 1) = .StorageLeaf0)
    (hp : pathAt w (b + m + 1) = .ExtensionOld)
    (hroot : m = 0 → w.adv .newHash b = 0) {leaf : Fr} (hleaf : w.adv .oldHash (b + m) = leaf)
    (hN : SegExt H w U b m .newHash .oldHash .ExtensionOld) :
    ProperRemoval (PR H w U) (w.adv .key b) (w.adv .oldHash b) (w.adv .newHash b) leaf := by
  subst hleaf
  have hS := R.trieSeg T b m h1 (by omega) (.inr hseg) hb
  have hm : m < 2 ^ 64 := by have := R.size; omega
  obtain ⟨-, pre, ext, e1, e2, e3, -, e5, e6, e7, c, hc, hpre, hext, hcom, hq⟩ := hN
  obtain ⟨-, -, -, t3, -, -, t7⟩ := R.extOld_rel (r := b + m + 1) (by omega) h2 hp
  have hno := t7 hlast
  have hkey := (R.row (r := b + m + 1) (by omega) h2).common.keepKey (by rw [hlast]; decide) (by rw [hlast]; decide)
  have hkb := hS.key_eq m le_rfl
  rw [add_sub_cancel_right] at t3 hkey
  rw [hkb.1, hkb.2] at hkey
  have hab := absent_of_nonexist R.acc.pos hno pre.length (by rw [hkey.1, hkey.2]; exact e7)
  rw [hkey.1, t3] at hab
  have hpl : pre.length = c := by rw [hpre]; simp
  have hxl : ext.length = m - c := by rw [hext]; simp
  refine ⟨pre, ext, _, e2, e3, e5, e6, hab, ?_, ?_⟩
  · intro hx
    subst hx
    rcases Nat.eq_zero_or_pos m with h0 | h0
    · subst h0; simpa using hroot rfl
    · revert e5
      generalize w.adv .newHash (b + m) = A
      generalize w.adv .oldHash (b + m) = B
      intro e5
      cases e5 with
      | root h => simp at e1; omega
      | below _ _ _ _ _ h => rw [if_pos rfl] at h; exact h.2
  · intro pre' last hpl'
    obtain ⟨c', rfl⟩ : ∃ c', c = c' + 1 := ⟨c - 1, by rw [← hpl, hpl']; simp⟩
    rw [hpre, stepsFrom_succ] at hpl'
    obtain ⟨rfl, hl⟩ := List.append_inj' hpl' rfl
    simp only [List.cons.injEq, and_true] at hl
    subst hl
    rw [stepsFrom_length]
    have hpc := hcom c' (by omega)
    obtain ⟨b1, -, -⟩ := hS.bit (j := c') (by omega) hm
    have ec : b + (c' : ℤ) + 1 + 1 = b + ((c' + 1 : ℕ) : ℤ) + 1 := by push_cast; ring
    have hpn : pathAt w (b + (c' : ℕ) + 1 + 1) = .ExtensionOld := by
      rw [ec]
      rcases Nat.eq_or_lt_of_le hc with h | h
      · rw [h]; exact hp
      · exact hq _ le_rfl h
    have L := P.removal _ (R.enabled (by omega) (by omega)) (hseg c' (by omega)) hpc hpn
    rw [ec] at L
    constructor
    · intro hx
      have hcm : c' + 1 = m := by
        have := congrArg List.length hx
        rw [hxl, List.length_nil] at this
        omega
      rw [hcm, if_pos hlast] at L
      exact L
    · intro hx
      have hcm : c' + 1 < m := by
        rcases Nat.eq_or_lt_of_le hc with h | h
        · exact absurd (List.eq_nil_of_length_eq_zero (by rw [hxl]; omega)) hx
        · exact h
      rw [if_neg (by rw [hseg _ hcm]; decide), b1] at L
      refine ⟨L.1, fun h => ?_, fun h => ?_⟩
      · have := L.2.1 h
        revert this
        cases keyBit (w.adv .key b) c' <;> simp [bitFr]
      · have := L.2.2 h
        revert this
        cases keyBit (w.adv .key b) c' <;> simp [bitFr]

/-- The direction of AccountLeaf0 rows. -/
theorem al0_dir (R : Run H n U w s e) (h1 : s ≤ r) (h2 : r < e) (h : segAt w r = .AccountLeaf0)
    (ht : proofAt w s ≠ .AccountDoesNotExist) : w.adv .direction r = 1 := by
  have := R.proof_rel h1 h2
  rw [h] at this
  revert this ht
  generalize proofAt w s = t
  cases t <;> intro ht this
  case NonceChanged => exact this.2
  case BalanceChanged => exact this.2
  case CodeSizeExists => exact this
  case CodeHashExists => exact this
  case PoseidonCodeHashExists => exact this
  case StorageChanged => exact this
  case StorageDoesNotExist => exact this.2.2.2.2.2
  case AccountDoesNotExist => exact absurd rfl ht
  case AccountDestructed => exact this.elim

/-- A Common account leaf: the account is there. -/
theorem leaf_present (R : Run H n U w s e) (T : TablesOK w U) (P : Patched H n U w) (m : ℕ) (h2 : s + m + 1 < e)
    (hseg : ∀ j < m, segAt w (s + (j : ℕ) + 1) = .AccountTrie)
    (hl : segAt w (s + m + 1) = .AccountLeaf0) (hp : pathAt w (s + m + 1) = .Common)
    (ht : proofAt w s ≠ .AccountDoesNotExist) : Present (PR H w U) (w.adv .key s) (w.adv .oldHash s) := by
  obtain ⟨k1, k2⟩ := R.al0_next (a := s + m + 1) (by omega) h2 hl
  have p1 := R.common_next (r := s + m + 1) (by omega) k1 hp (.inl hl)
  have q0 := (R.common_nodes (r := s + m + 1) (by omega) h2 hp (.inl p1)).1
  rw [(R.domain_eq (r := s + m + 1) (by omega) h2).1 (.inl hl)] at q0
  have n0 := node1 R.acc.pos (R.al0_dir (by omega) h2 hl ht) q0
  rw [add_sub_cancel_right, P.leafKey _ (R.enabled (by omega) (by omega)) (.inl hl)] at n0
  obtain ⟨k3, -⟩ := R.key_trie T m (by omega) hseg
  have hk := (R.row (r := s + m + 1) (by omega) h2).common.keepKey (by rw [hl]; decide) (by rw [hl]; decide)
  rw [add_sub_cancel_right, k3] at hk
  rw [hk.1] at n0
  rcases R.acct_leaf_cases T m h2 hseg hl with ⟨-, hs⟩ | ⟨hp', -⟩
  · obtain ⟨path, g1, g2, -⟩ := hs _ _ rfl rfl
    exact ⟨path, _, _, g1, g2, n0⟩
  · rw [hp] at hp'; cases hp'

/-- An account leaf that is not Common is a proper insertion. -/
theorem leaf_proper (R : Run H n U w s e) (T : TablesOK w U) (P : Patched H n U w) (m : ℕ) (h2 : s + m + 1 < e)
    (hseg : ∀ j < m, segAt w (s + (j : ℕ) + 1) = .AccountTrie)
    (hl : segAt w (s + m + 1) = .AccountLeaf0) (hp : pathAt w (s + m + 1) = .ExtensionNew) :
    ProperInsertion (PR H w U) (w.adv .key s) (w.adv .oldHash s) (w.adv .newHash s) (w.adv .newHash (s + m)) := by
  have hcases := R.seg_cases T s m le_rfl (by omega) (.inl hseg) (by rw [R.start]; decide)
    (.inr (.inl hl))
  refine R.proper_levels T P s m le_rfl h2 (.inl hseg) (by rw [R.start]; decide) (.inl hl) hp ?_ rfl ?_
  · rintro rfl
    simp only [Nat.cast_zero, add_zero] at hl hp
    exact P.emptyRoot s (R.enabled le_rfl R.lt.le) (R.enabled (by omega) (by omega)) R.start hl hp
  · rcases hcases with hC | hN | hO
    · obtain ⟨h, -⟩ := hC
      rw [hp] at h; simp at h
    · exact hN
    · obtain ⟨⟨h, _⟩, _⟩ := hO
      rw [hp] at h; simp at h

/-- A run of trie rows only is Common. -/
theorem end_common (R : Run H n U w s e) (T : TablesOK w U) (P : Patched H n U w) (m : ℕ) (h2 : s + m + 1 = e)
    (hseg : ∀ j < m, segAt w (s + (j : ℕ) + 1) = .AccountTrie) : SegCommon H w U s m := by
  rcases R.acct_end_cases T m h2 hseg with hC | ⟨-, hm, hp, -⟩
  · exact hC
  · exfalso
    have hsg : segAt w (s + m) = .AccountTrie := by
      have := hseg (m - 1) (by omega)
      rwa [show s + ((m - 1 : ℕ) : ℤ) + 1 = s + m by omega] at this
    exact P.leafFollows _ (R.enabled (by omega) (by omega)) (R.enabled (by omega) (by omega)) hsg hp
      (by rw [h2]; exact R.stop)

/-- What a StorageChanged run says. -/
theorem storage_strict (R : Run H n U w s e) (T : TablesOK w U) (P : Patched H n U w)
    (ht : proofAt w s = .StorageChanged) :
    ∃ slot so sn, IsSlot (PR H w U) w.chal slot (w.adv .storageKeyRlc s) ∧
      Present (PR H w U) (w.adv .key s) (w.adv .oldHash s) ∧
      StorageRootUpdate (PR H w U) (w.adv .key s) (w.adv .oldHash s) (w.adv .newHash s) so sn ∧
      SlotWrite (PR H w U) w.chal slot so sn (w.adv .oldValue s) (w.adv .newValue s) := by
  obtain ⟨m, h1, h2, h3⟩ := R.acct
  have pr : ∀ r, s ≤ r → r < e → StorageRel H w U r (segAt w r) (pathAt w r) := by
    intro r h1 h2
    have := R.proof_rel h1 h2
    rwa [ht] at this
  rcases h3 with ⟨h3, hst⟩ | ⟨h3, hl⟩
  · exfalso
    obtain ⟨l, hl, hmem⟩ := R.next (r := s + m) (by omega) h1
    rw [ht] at hl
    rw [hst] at hmem
    rcases R.seg_end m h1 h2 with h | h <;> rw [h] at hl <;> cases hl <;> simp at hmem
  · have hpr := R.keep' (r := s + m + 1) (by omega) h3
    have hp := P.storageAccount _ (R.enabled (by omega) (by omega)) hl (hpr.1.trans ht)
    have hpres := R.leaf_present T P m h3 h2 hl hp (by rw [ht]; decide)
    have L := R.leaf4 (a := s + m + 1) (by omega) h3 hl (by rw [ht]; decide)
    have hlt := L.lt
    have ha1 : s + m + 1 - 1 = s + m := by omega
    generalize hadef : s + m + 1 = a at *
    have q0 := pr a (by omega) (by omega)
    have q1 := pr (a + 1) (by omega) (by omega)
    have q2 := pr (a + 2) (by omega) (by omega)
    have q3 := pr (a + 3) (by omega) (by omega)
    rw [L.l0] at q0; rw [L.l1] at q1; rw [L.l2] at q2; rw [L.l3] at q3
    obtain ⟨d3, hkw⟩ := q3
    obtain ⟨x, hx, hxr⟩ := T.word R.acc.pos hkw
    have kp3 := R.keep' (r := a + 3) (by omega) (by omega)
    have hslot : IsSlot (PR H w U) w.chal (w.adv .key (a + 3)) (w.adv .storageKeyRlc s) :=
      ⟨x, hx, by rw [← hxr, kp3.2.1]⟩
    refine ⟨w.adv .key (a + 3), w.adv .oldHash (a + 3), w.adv .newHash (a + 3), hslot, hpres, ?_⟩
    obtain ⟨m', b1, b2, _, b4, _⟩ := R.storage_block (a + 3) (by omega) (by omega) L.l3
    obtain ⟨b5, b6⟩ := b4 ht
    have hcases := R.seg_cases T (a + 3) m' (by omega) b1 (.inr b2) (by rw [L.l3]; decide)
      (.inr (.inr b6))
    have hS := R.trieSeg T (a + 3) m' (by omega) b1 (.inr b2) (by rw [L.l3]; decide)
    have hne := R.path_ne_start (r := a + 3 + m' + 1) (by omega) b5
    have ql := pr (a + 3 + m' + 1) (by omega) b5
    rw [b6] at ql
    obtain ⟨g1, g2, _, _, g5, g6⟩ := ql
    have kl := R.keep' (r := a + 3 + m' + 1) (by omega) b5
    have hkey := (R.row (r := a + 3 + m' + 1) (by omega) b5).common.keepKey (by rw [b6]; decide)
      (by rw [b6]; decide)
    have hkb := hS.key_eq m' le_rfl
    have el : a + 3 + (m' : ℤ) + 1 - 1 = a + 3 + m' := by ring
    rw [el, hkb.1, hkb.2] at hkey
    have hlk := P.leafKey _ (R.enabled (r := a + 3 + m' + 1) (by omega) (by omega)) (.inr b6)
    rw [hkey.1] at hlk
    have dl := (R.domain_eq (r := a + 3 + m' + 1) (by omega) (by omega)).1 (.inr b6)
    rcases R.acct_leaf_cases T m (by omega) h2 (by rw [hadef]; exact hl) with
      ⟨-, hsame⟩ | ⟨hp', _⟩
    swap
    · rw [hadef, hp] at hp'; cases hp'
    obtain ⟨p3, NO, NN⟩ := R.leaf_common (by omega) L hp
    have lo := node0 R.acc.pos d3 NO.n3
    have ln := node0 R.acc.pos d3 NN.n3
    rw [show a + 3 - 1 = a + 2 by ring] at lo ln
    refine ⟨⟨_, _, _, _, _, _, _, _, lo, ln, account_right R.acc.pos _ NO q0 q1 q2,
        account_right R.acc.pos _ NN q0 q1 q2, hsame _ _ (by rw [ha1]) (by rw [ha1])⟩, ?_⟩
    have hal3 := R.al3_nodes (r := a + 3) (by omega) (by omega) p3 L.l3
    rcases hcases with hC | hN | hO
    · obtain ⟨hpl, path, p1, p2, p3', p4, _⟩ := hC
      have hpl := hpl.resolve_right hne
      have hst : pathAt w (a + 3 + m' + 1 + 1) = .Common ∨ pathAt w (a + 3 + m' + 1 + 1) = .Start := by
        right
        rw [R.path_start_iff (by omega) (by omega)]
        obtain ⟨ll, hll, hmem⟩ := R.next (r := a + 3 + m' + 1) (by omega) b5
        rw [ht, b6] at hll
        cases hll
        simpa using hmem
      obtain ⟨o, nn⟩ := R.common_nodes (r := a + 3 + m' + 1) (by omega) b5 hpl hst
      rw [dl] at o nn
      have o1 := node1 R.acc.pos g1 o
      have n1 := node1 R.acc.pos g1 nn
      rw [el, hlk] at o1 n1
      obtain ⟨xo, hxo, hov⟩ := T.word R.acc.pos (g2 hpl).1
      obtain ⟨xn, hxn, hnv⟩ := T.word R.acc.pos (g2 hpl).2
      exact .update xo xn _ _ _ _ (by rw [← hov, kl.2.2.1]) (by rw [← hnv, kl.2.2.2]) (word_ne_zero hxo g5)
        (word_ne_zero hxn g6) hxo hxn o1 n1 ⟨path, p2, p3', p4⟩
    · have hpl := hN.1.resolve_right (fun h => hne h.1)
      obtain ⟨_, t2, t3, t4, _, _, t7⟩ := R.extNew_rel (r := a + 3 + m' + 1) (by omega) b5 hpl
      rw [dl] at t4
      have n1 := node1 R.acc.pos g1 t4
      rw [el, hlk] at n1
      obtain ⟨xn, hxn, hnv⟩ := P.newWord _ (R.enabled (by omega) (by omega)) b6 hpl
      refine .insert xn _ _ (by rw [← kl.2.2.1]; exact t2) (by rw [← hnv, kl.2.2.2]) (word_ne_zero hxn g6) hxn n1
        (R.proper_levels T P (a + 3) m' (by omega) b5 (.inr b2) (by rw [L.l3]; decide) (.inr b6) hpl ?_ rfl hN)
      rintro rfl
      simp only [Nat.cast_zero, add_zero] at hpl b6
      exact hal3.2.2.1 hpl b6
    · have hpl := hO.1.1.resolve_right (fun h => hne h.1)
      obtain ⟨_, _, t2, t3, t4, _, t7⟩ := R.extOld_rel (r := a + 3 + m' + 1) (by omega) b5 hpl
      rw [dl] at t4
      have n1 := node1 R.acc.pos g1 t4
      rw [el, hlk] at n1
      obtain ⟨xo, hxo, hov⟩ := P.oldWord _ (R.enabled (by omega) (by omega)) b6 hpl
      refine .delete xo _ _ (by rw [← kl.2.2.2]; exact t2) (by rw [← hov, kl.2.2.1]) (word_ne_zero hxo g5) hxo n1
        (R.proper_removal T P (a + 3) m' (by omega) b5 b2 (by rw [L.l3]; decide) b6 hpl ?_ rfl hO.1)
      rintro rfl
      simp only [Nat.cast_zero, add_zero] at hpl b6
      exact hal3.2.2.2 hpl b6

/-- A new account leaf, opened in the account tries before and after. -/
inductive FreshAccount (R : HashRel) (H : HashFn) (ρ : Fr) (t : MPTProofType) (key oldRoot newRoot newValue : Fr) : Prop
  | nonce (x : ℕ) (left leaf : Fr) : t = .NonceChanged → 0 < x → x < 2 ^ 64 → newValue = (x : Fr) →
      IsLeft R (nonceCode x 0) 0 left →
      IsAccount R key left (H 0 (H 0 0 HashDomain.Pair.toFr) HashDomain.AccountFields.toFr) 0 leaf →
      ProperInsertion R key oldRoot newRoot leaf → FreshAccount R H ρ t key oldRoot newRoot newValue
  | balance (x : ℕ) (left leaf : Fr) : t = .BalanceChanged → 0 < x → x < 2 ^ 248 →
      newValue = Spec.rlc ρ (beBytes 31 x) → IsLeft R 0 x left →
      IsAccount R key left (H 0 (H 0 0 HashDomain.Pair.toFr) HashDomain.AccountFields.toFr) 0 leaf →
      ProperInsertion R key oldRoot newRoot leaf → FreshAccount R H ρ t key oldRoot newRoot newValue

/-- What a run says if it is about an account that is not there: the account is there; or it is not there and
nothing changes; or it is created. -/
theorem absent_strict (R : Run H n U w s e) (T : TablesOK w U) (P : Patched H n U w) :
    Present (PR H w U) (w.adv .key s) (w.adv .oldHash s) ∨
    ((proofAt w s ∈ Op.absentTypes ∨ proofAt w s = .StorageDoesNotExist) ∧ w.adv .oldHash s = w.adv .newHash s ∧
      w.adv .oldValue s = 0 ∧ w.adv .newValue s = 0 ∧ EmptyPath (PR H w U) (w.adv .key s) (w.adv .oldHash s)) ∨
    (w.adv .oldValue s = 0 ∧
      FreshAccount (PR H w U) H w.chal (proofAt w s) (w.adv .key s) (w.adv .oldHash s) (w.adv .newHash s)
        (w.adv .newValue s)) := by
  by_cases ht0 : proofAt w s = .AccountDoesNotExist
  · obtain ⟨h1, h2, h3, h4⟩ := R.emptyAccount_sound T ht0
    exact .inr (.inl ⟨.inl (by rw [ht0]; decide), h3, h1, h2, h4⟩)
  obtain ⟨m, h1, h2, h3⟩ := R.acct
  rcases h3 with ⟨h3, hst⟩ | ⟨h3, hl⟩
  · right; left
    have hC := R.end_common T P m h3 h2
    have hE : ∀ {σ' : SegmentType}, σ' = segAt w (s + m + 1) → EmptyEnd w U (s + m) σ' →
        w.adv .oldHash s = w.adv .newHash s ∧ w.adv .oldValue s = 0 ∧ w.adv .newValue s = 0 ∧
        EmptyPath (PR H w U) (w.adv .key s) (w.adv .oldHash s) := by
      rintro _ rfl hE
      rcases R.empty_end T m h3 h2 hE with ⟨g1, g2, g3, g4⟩ | ⟨-, -, -, hX⟩
      · exact ⟨g3, g1, g2, g4⟩
      · obtain ⟨g1, g2, g3⟩ := hE hst
        have kp := R.keep' (r := s + m) (by omega) (by omega)
        have hov : w.adv .oldValue s = 0 := by rw [← kp.2.2.1]; exact g3.1
        have hnv : w.adv .newValue s = 0 := by rw [← kp.2.2.2, ← g2, kp.2.2.1]; exact hov
        obtain ⟨f1, f2, f3, f4⟩ := R.nothing_there T m (by omega) h2 hC .oldHash rfl g1 hnv g3
        exact ⟨f3, f1, f2, f4⟩
    have pr := R.proof_rel (r := s + m) (by omega) h1
    have hse := R.seg_end m h1 h2
    cases ht : proofAt w s with
    | NonceChanged =>
      rw [ht] at pr
      refine ⟨.inl (by decide), hE rfl ?_⟩
      have := pr.2
      rcases hse with h | h <;> rw [h] at this <;> exact this
    | BalanceChanged =>
      rw [ht] at pr
      refine ⟨.inl (by decide), hE rfl ?_⟩
      rcases hse with h | h <;> rw [h] at pr <;> exact pr
    | CodeSizeExists =>
      rw [ht] at pr
      refine ⟨.inl (by decide), hE rfl ?_⟩
      rcases hse with h | h <;> rw [h] at pr <;> exact pr
    | CodeHashExists =>
      rw [ht] at pr
      refine ⟨.inl (by decide), hE rfl ?_⟩
      rcases hse with h | h <;> rw [h] at pr <;> exact pr
    | StorageDoesNotExist =>
      rw [ht] at pr
      have ps := R.proof_rel (r := s) le_rfl R.lt
      rw [ht] at ps
      exact ⟨.inr rfl, ps.2.2.2.1, ps.1, ps.2.1,
        (R.nothing_there T m h1 h2 hC .oldHash rfl pr.2.2.2.1 ps.2.1 (pr.2.2.2.2.1 hst)).empty⟩
    | AccountDoesNotExist => exact absurd ht ht0
    | AccountDestructed => exact absurd ht R.not_destructed
    | StorageChanged =>
      exfalso
      obtain ⟨l, hl, hmem⟩ := R.next (r := s + m) (by omega) h1
      rw [ht] at hl
      rw [hst] at hmem
      rcases hse with h | h <;> rw [h] at hl <;> cases hl <;> simp at hmem
    | PoseidonCodeHashExists =>
      exfalso
      obtain ⟨l, hl, hmem⟩ := R.next (r := s + m) (by omega) h1
      rw [ht] at hl
      rw [hst] at hmem
      rcases hse with h | h <;> rw [h] at hl <;> cases hl <;> simp at hmem
  · rcases R.acct_leaf_cases T m h3 h2 hl with ⟨hp, -⟩ | ⟨hp, hty, hov, -⟩
    · exact .inl (R.leaf_present T P m h3 h2 hl hp ht0)
    · right; right
      refine ⟨hov, ?_⟩
      have hins := R.leaf_proper T P m h3 h2 hl hp
      have hnp : proofAt w s ≠ .PoseidonCodeHashExists := by
        intro h; rw [h] at hty; simp at hty
      have L := R.leaf4 (a := s + m + 1) (by omega) h3 hl hnp
      have hlt := L.lt
      obtain ⟨k3, -⟩ := R.key_trie T m (by omega) h2
      have hk := (R.row (r := s + m + 1) (by omega) h3).common.keepKey (by rw [hl]; decide) (by rw [hl]; decide)
      rw [add_sub_cancel_right, k3] at hk
      have hlk := P.leafKey _ (R.enabled (r := s + m + 1) (by omega) (by omega)) (.inl hl)
      rw [hk.1] at hlk
      have hpr := R.keep' (r := s + m + 1) (by omega) h3
      have hpr3 := R.keep' (r := s + m + 1 + 3) (by omega) (by omega)
      have ea : s + m + 1 - 1 = s + m := by omega
      generalize hadef : s + m + 1 = a at *
      obtain ⟨⟨p1, p2, p3⟩, NN, _⟩ := R.leaf_ext (by omega) L hp
      have q0 := R.proof_rel (r := a) (by omega) (by omega)
      have q1 := R.proof_rel (r := a + 1) (by omega) (by omega)
      have q2 := R.proof_rel (r := a + 2) (by omega) (by omega)
      have q3 := R.proof_rel (r := a + 3) (by omega) (by omega)
      rw [L.l0] at q0; rw [L.l1] at q1; rw [L.l2] at q2; rw [L.l3] at q3
      have hna := P.newAccount _ (R.enabled (r := a + 3) (by omega) (by omega)) L.l3 p3
      rw [hpr3.1] at hna
      simp only [List.mem_cons, List.not_mem_nil, or_false] at hty
      rcases hty with ht | ht | ht
      · rw [ht] at q0 q1 q2 q3
        replace q0 := q0.2
        replace q1 := q1.2
        replace q2 := q2.2
        obtain ⟨y0, y1, y2, y3⟩ := q3.2
        obtain ⟨nn, hnn, hnv⟩ := T.bytes8 y1
        obtain ⟨z1, z2, z3⟩ := y3 p3
        have en := eq_of_div z2
        have ln := node0 R.acc.pos y0 NN.n3
        rw [show a + 3 - 1 = a + 2 by ring, z3] at ln
        have cn : w.adv .newHash (a + 3) = nonceCode nn 0 := by
          rw [en, hnv, nonceCode]; push_cast; ring
        have hn0 := hna (.inl ht)
        rw [cn] at ln hn0
        have hacc := account_left R.acc.pos _ NN q0 q1.1 q2.1
        rw [q1.2 p1, q2.2 p2, hlk, ea] at hacc
        refine .nonce nn _ _ ht (Nat.pos_of_ne_zero ?_) hnn (by rw [← hnv, hpr3.2.2.2]) ln hacc hins
        rintro rfl
        exact hn0 (by simp [nonceCode])
      · rw [ht] at q0 q1 q2 q3
        obtain ⟨y0, y1, y2, y3⟩ := q3
        obtain ⟨bn, hbn, hbv, hnv⟩ := T.rlc31 y2
        have ln := node1 R.acc.pos y0 NN.n3
        have hn0 := hna (.inr ht)
        rw [hbv] at hn0
        rw [show a + 3 - 1 = a + 2 by ring, y3 p3, hbv] at ln
        have hacc := account_left R.acc.pos _ NN q0.2 q1.2.1 q2.1
        rw [q1.2.2 p1, q2.2 p2, hlk, ea] at hacc
        refine .balance bn _ _ ht (Nat.pos_of_ne_zero ?_) hbn (by rw [← hnv, hpr3.2.2.2]) ln hacc hins
        rintro rfl
        exact hn0 (by simp)
      · exfalso
        have := P.storageAccount _ (R.enabled (by omega) (by omega)) hl (hpr.1.trans ht)
        rw [hp] at this; cases this

end Run
end Mpt

namespace Mpt.Props
open Mpt Spec Types MptUpdate Requests

variable {H : HashFn} {n U : ℕ} {w : Witness Fr} {t : MPTProofType}
variable {address slotRlc oldRootRlc newRootRlc oldValue newValue : Fr}
variable {key oldRoot newRoot : Fr}

/-- What a claim says about a known state: it is an operation on it, or it says that a slot of an account that
does not exist is empty. -/
def Faithful (H : HashFn) (w : Witness Fr) (U : ℕ) (t : MPTProofType) (slotRlc oldValue newValue : Fr)
    (key oldRoot newRoot : Fr) : Prop :=
  TableOutput H w U oldRoot ∧
  ∀ (adr : List ℕ) (W : World), accountKey H adr = key → W.OK H → W.trie.hash H = oldRoot →
    CollisionFree H (Or3 (PosInputs w U) (W.Inputs H)) →
    (∃ (op : Op) (W' : World), op.address = adr ∧ op.type = t ∧ op.apply H W = some W' ∧
      (t = .StorageChanged ∨ t = .StorageDoesNotExist → slotRlc = rlc w.chal (beBytes 32 op.slot)) ∧
      newRoot = W'.trie.hash H ∧ oldValue = valueCode w.chal t (opValue H op W) ∧
      newValue = valueCode w.chal t (opValue H op W') ∧ Recorded H w U op W W' newRoot) ∨
    (t = .StorageDoesNotExist ∧ W.accounts key = none ∧ oldRoot = newRoot ∧ oldValue = 0 ∧ newValue = 0)

/-- A write of a slot of a known account. -/
theorem faithful_storage {slot so sn : Fr} (hslot : IsSlot (PR H w U) w.chal slot slotRlc)
    (hu : StorageRootUpdate (PR H w U) key oldRoot newRoot so sn)
    (hw : SlotWrite (PR H w U) w.chal slot so sn oldValue newValue)
    {adr : List ℕ} {W : World} {a : AcctState} (hk : accountKey H adr = key) (hW : W.OK H)
    (ho : W.trie.hash H = oldRoot) (ha : W.accounts key = some a)
    (C : CollisionFree H (Or3 (PosInputs w U) (W.Inputs H))) :
    ∃ (op : Op) (W' : World), op.address = adr ∧ op.type = .StorageChanged ∧ op.apply H W = some W' ∧
      slotRlc = rlc w.chal (beBytes 32 op.slot) ∧
      newRoot = W'.trie.hash H ∧ oldValue = valueCode w.chal .StorageChanged (opValue H op W) ∧
      newValue = valueCode w.chal .StorageChanged (opValue H op W') ∧ Recorded H w U op W W' newRoot := by
  subst hk ho
  obtain ⟨s, hws, hsl⟩ := hslot
  obtain rfl := isWord_hash hws
  obtain ⟨k, left, pch, kh, ro, rn, lo, ln, r1, r2, a1, a2, hs⟩ := hu
  have hout : TableOutput H w U newRoot := by
    obtain ⟨path, -, -, o2⟩ := hs
    exact out_of_opens o2 (out_of_account a2)
  have K := known_of_world hW ha C
  obtain ⟨rfl, e1, rfl, e4⟩ := account_update hW ha C a1 a2 hs
  obtain ⟨rfl, rfl⟩ := K.right_inputs r1 e1
  have Ct : CollisionFree H (Or3 (PosInputs w U) (a.trie.trie.Inputs H)) :=
    C.mono fun _ _ _ h => h.imp id fun h => .inr ⟨_, a, ha, .inr (.inl h)⟩
  have hOK := hW.each _ _ ha
  -- a present leaf holds the slot's value
  have hval : ∀ {x : ℕ} {d : Fr}, a.trie.get (Account.wordHash H s) = some d → IsWord (PR H w U) x d → x ≠ 0 →
      a.slots (Account.wordHash H s) = x := by
    intro x d hg hx hne
    have hne' : a.slots (Account.wordHash H s) ≠ 0 := by
      intro h0
      rw [hOK.slots, if_pos h0] at hg; cases hg
    have KS := knownSlot_of_world hW ha C hne'
    have hg' := hg
    rw [hOK.slots, if_neg hne'] at hg'
    exact (KS.eq_word hx (Option.some.inj hg').symm).symm
  -- the operation
  have fin : ∀ x : ℕ, x < 2 ^ 256 → (x ≠ 0 ∨ a.slots (Account.wordHash H s) ≠ 0) →
      sn = (Op.writeSlot H a s x).trie.hash H → oldValue = rlc w.chal (beBytes 32 (a.slots (Account.wordHash H s))) →
      newValue = rlc w.chal (beBytes 32 x) → TableWord w U (a.slots (Account.wordHash H s)) → TableWord w U x →
      ∃ (op : Op) (W' : World), op.address = adr ∧ op.type = .StorageChanged ∧ op.apply H W = some W' ∧
        slotRlc = rlc w.chal (beBytes 32 op.slot) ∧
        newRoot = W'.trie.hash H ∧ oldValue = valueCode w.chal .StorageChanged (opValue H op W) ∧
        newValue = valueCode w.chal .StorageChanged (opValue H op W') ∧ Recorded H w U op W W' newRoot := by
    intro x hx hne hsn hov hnv t1 t2
    refine ⟨.setSlot adr s x, W.set H (accountKey H adr) (Op.writeSlot H a s x), rfl, rfl, ?_, hsl,
      e4 _ rfl ?_ rfl, ?_, ?_, ⟨hout, fun _ => ⟨hws.1, tableWord_word hws⟩, fun _ => ⟨?_, ?_⟩⟩⟩
    · simp only [Op.apply, Op.address]; rw [ha]; exact if_pos ⟨hws.1, hx, hne⟩
    · rw [r2.1, hsn]; rfl
    · simp only [valueCode, opValue, Op.address, ha]; exact hov
    · simp only [valueCode, opValue, Op.address, World.set, Op.writeSlot, Function.update_self]; exact hnv
    · simp only [opValue, Op.address, ha]; exact t1
    · simp only [opValue, Op.address, World.set, Op.writeSlot, Function.update_self]; exact t2
  cases hw with
  | update xo xn ho hn lo' ln' hov hnv hxo hxn w1 w2 l1 l2 hs' =>
    have hs'' := hs'
    obtain ⟨path', hp', o1', o2'⟩ := hs'
    have hx := hval (ZkTrie.get_of_opens Ct rfl hp' o1' l1) w1 hxo
    have hput := put_of_samePath (tr := a.trie) ⟨rfl, a.trie.branching, Ct⟩ l1 l2 hs''
    refine fin xn w2.1 (.inl hxn) ?_ (by rw [hx]; exact hov) hnv (by rw [hx]; exact tableWord_word w1)
      (tableWord_word w2)
    rw [hput, isWord_hash w2]
    simp only [Op.writeSlot, if_neg hxn]
  | insert xn hn leaf hov hnv hxn w2 l2 hi =>
    obtain ⟨hput, hnone⟩ := ZkTrie.put_of_inserted Ct rfl l2 hi
    have hz : a.slots (Account.wordHash H s) = 0 := by
      by_contra hne
      rw [hOK.slots, if_neg hne] at hnone
      cases hnone
    refine fin xn w2.1 (.inl hxn) ?_ ?_ hnv (.inl hz) (tableWord_word w2)
    · rw [hput, isWord_hash w2]
      simp only [Op.writeSlot, if_neg hxn]
    · rw [hz, rlc_zero_word]; exact hov
  | delete xo ho leaf hnv hov hxo w1 l1 hi =>
    have hrem := ZkTrie.remove_of_inserted Ct hOK.wf rfl l1 hi
    have hget : a.trie.get (Account.wordHash H s) = some ho := by
      obtain ⟨pre, ext, hNew, hg, hge, hi, -⟩ := hi
      obtain ⟨path, p1, p2, p3⟩ := hi.opens_new hg.2 hge.2
      exact ZkTrie.get_of_opens' Ct rfl p2 p3 l1
    have hx := hval hget w1 hxo
    refine fin 0 (by norm_num) (.inr (by rw [hx]; exact hxo)) ?_ (by rw [hx]; exact hov) (by rw [rlc_zero_word]; exact hnv)
      (by rw [hx]; exact tableWord_word w1) (.inl rfl)
    rw [hrem]
    simp only [Op.writeSlot]
    rfl

theorem out_of_insertion {leaf : Fr} (hi : ProperInsertion (PR H w U) key oldRoot newRoot leaf)
    (hl : TableOutput H w U leaf) : TableOutput H w U newRoot := by
  obtain ⟨pre, ext, hOld, -, hi, -⟩ := hi
  cases hi with
  | root h => exact out_of_opens h hl
  | below _ o2 _ n2 _ _ =>
    refine out_of_opens o2 ?_
    simp only [Spec.Node] at n2
    split at n2 <;> exact .inr ⟨_, _, _, n2.2, n2.1⟩

theorem fresh_data {f d left pch : Fr} {x : AccountData} (hx : x.codeHash = 0) (hp : pch = (x.poseidonCodeHash : Fr))
    (hl : left = H (nonceCode x.nonce x.codeSize) (x.balance : Fr) HashDomain.AccountFields.toFr)
    (h1 : f = H left (H 0 (H 0 0 HashDomain.Pair.toFr) HashDomain.AccountFields.toFr) HashDomain.AccountFields.toFr)
    (h2 : d = H f pch HashDomain.AccountFields.toFr) : d = (Op.fresh x).leafData H := by
  rw [h2, h1, hl, hp]
  simp [AcctState.leafData, Op.fresh, accountLeafData, Account.data, Account.fields, Account.left, Account.right, Account.wordHash,
    hx, ZkTrie.hash, ZkTrie.trie, Trie.hash]

/-- What the rows of one update say about a known state. -/
theorem faithful_run {s e : ℤ} (R : Run H n U w s e) (T : TablesOK w U) (P : Patched H n U w) :
    Faithful H w U (proofAt w s) (w.adv .storageKeyRlc s) (w.adv .oldValue s) (w.adv .newValue s) (w.adv .key s)
      (w.adv .oldHash s) (w.adv .newHash s) := by
  have hS := sound_run R T
  refine ⟨hS.1, ?_⟩
  intro adr W hk hW ho C
  have Ct : CollisionFree H (Or3 (PosInputs w U) (W.trie.trie.Inputs H)) :=
    C.mono fun _ _ _ h => h.imp id .inl
  cases ha : W.accounts (w.adv .key s) with
  | some a =>
    left
    by_cases ht : proofAt w s = .StorageChanged
    · obtain ⟨slot, so, sn, h1, -, h3, h4⟩ := R.storage_strict T P ht
      obtain ⟨op, W', g1, g2, g3, g4, g5⟩ := faithful_storage h1 h3 h4 hk hW ho ha C
      rw [ht]
      exact ⟨op, W', g1, g2, g3, fun _ => g4, g5⟩
    · exact hS.2 adr W a hk hW ho ha C (fun h => absurd h ht)
  | none =>
    have hnone : W.trie.get (w.adv .key s) = none := by rw [hW.accounts, ha]; rfl
    rcases R.absent_strict T P with ⟨path, d, leaf, h1, h2, h3⟩ | ⟨h1, h2, h3, h4, h5⟩ | ⟨h1, h2⟩
    · have := ZkTrie.get_of_opens Ct ho h1 h2 h3
      rw [hnone] at this; cases this
    · rcases h1 with h1 | h1
      · left
        refine ⟨.absent adr (proofAt w s), W, rfl, rfl, ?_, ?_, by rw [← h2, ho], ?_, ?_,
          ⟨h2 ▸ hS.1, ?_, fun _ => ⟨.inl ?_, .inl ?_⟩⟩⟩
        · simp only [Op.apply, Op.address]; rw [hk, ha]; exact if_pos h1
        · intro ht
          rcases ht with ht | ht <;> rw [ht] at h1 <;> simp [Op.absentTypes] at h1
        · simp [opValue, Op.address, hk, ha, valueCode_zero, h3]
        · simp [opValue, Op.address, hk, ha, valueCode_zero, h4]
        · intro ht
          simp only [Op.type] at ht
          rcases ht with ht | ht <;> rw [ht] at h1 <;> simp [Op.absentTypes] at h1
        · simp [opValue, Op.address, hk, ha]
        · simp [opValue, Op.address, hk, ha]
      · exact .inr ⟨h1, rfl, h2, h3, h4⟩
    · left
      cases h2 with
      | nonce x left leaf ht hx0 hx hnv l1 a1 hi =>
        obtain ⟨f, d, g1, g2, l2⟩ := a1
        obtain ⟨hput, -⟩ := ZkTrie.put_of_inserted Ct ho l2 hi
        have hout := out_of_insertion hi (out_of_leaf l2)
        rw [ht]
        refine ⟨.setNonce adr x, W.set H (w.adv .key s) (Op.fresh ⟨x, 0, 0, 0, 0⟩), rfl, rfl, ?_, by simp, ?_, ?_, ?_,
          ⟨hout, by simp [Op.type], by simp [Op.type]⟩⟩
        · simp only [Op.apply, Op.address]; rw [hk, ha]; exact if_pos ⟨hx0, hx⟩
        · rw [hput, fresh_data (x := ⟨x, 0, 0, 0, 0⟩) rfl (by simp) (by simpa using l1.1) g1.1 g2.1]; rfl
        · simp [opValue, Op.address, hk, ha, valueCode_zero, h1]
        · simp [opValue, Op.address, hk, World.set, valueCode, Op.fresh, hnv]
      | balance x left leaf ht hx0 hx hnv l1 a1 hi =>
        obtain ⟨f, d, g1, g2, l2⟩ := a1
        obtain ⟨hput, -⟩ := ZkTrie.put_of_inserted Ct ho l2 hi
        have hout := out_of_insertion hi (out_of_leaf l2)
        have hval : opValue H (.setBalance adr x) (W.set H (w.adv .key s) (Op.fresh ⟨0, x, 0, 0, 0⟩)) = x := by
          simp [opValue, Op.address, hk, World.set, Op.fresh]
        rw [ht]
        refine ⟨.setBalance adr x, W.set H (w.adv .key s) (Op.fresh ⟨0, x, 0, 0, 0⟩), rfl, rfl, ?_, by simp, ?_, ?_, ?_,
          ⟨hout, by simp [Op.type], fun _ => ⟨.inl ?_, ?_⟩⟩⟩
        · simp only [Op.apply, Op.address]; rw [hk, ha]; exact if_pos ⟨hx0, hx⟩
        · rw [hput, fresh_data (x := ⟨0, x, 0, 0, 0⟩) rfl (by simp) (by simpa [nonceCode] using l1.1) g1.1 g2.1]; rfl
        · simp [opValue, Op.address, hk, ha, valueCode_zero, h1]
        · rw [hval]; simp only [valueCode]; rw [rlc_31 hx]; exact hnv
        · simp [opValue, Op.address, hk, ha]
        · rw [hval]; exact tableWord_right hx l1

end Mpt.Props
