import Verif.Props.WorldSound
import Verif.Spec.StateClaims
import Verif.Assign.Phases
import Mathlib.Data.Set.Card.Arithmetic

set_option autoImplicit false

/-!
# Theorems: the challenge (C60, C61, C62)
-/

namespace Mpt.Props
open Mpt Spec Types MptUpdate Requests

/-! ## RLCs of a finite set of strings -/

/-- The RLC at `ρ` distinguishes the strings of `B`. -/
def Separates (ρ : Fr) (B : Finset (List ℕ)) : Prop :=
  ∀ a ∈ B, ∀ b ∈ B, rlc ρ a = rlc ρ b → a = b

theorem ncard_biUnion_le {ι α : Type} [Finite α] (t : Finset ι) (s : ι → Set α) (m : ℕ)
    (h : ∀ i ∈ t, (s i).ncard ≤ m) : (⋃ i ∈ t, s i).ncard ≤ t.card * m := by
  classical
  induction t using Finset.induction_on with
  | empty => simp
  | insert a t ha ih =>
    rw [Finset.set_biUnion_insert, Finset.card_insert_of_notMem ha]
    refine le_trans (Set.ncard_union_le _ _) ?_
    have h1 := h a (by simp)
    have h2 := ih fun i hi => h i (by simp [hi])
    calc _ ≤ m + t.card * m := Nat.add_le_add h1 h2
      _ = (t.card + 1) * m := by ring

/-- All but `31 * (k choose 2)` challenges separate `k` strings of 32 bytes. -/
theorem separates_all_but (B : Finset (List ℕ)) (hB : ∀ b ∈ B, IsBytes b ∧ b.length = 32) :
    {ρ : Fr | ¬ Separates ρ B}.ncard ≤ 31 * B.card.choose 2 := by
  classical
  have : Fintype Fr := inferInstance
  let bad : Finset (List ℕ) → Set Fr := fun s =>
    {ρ | ∃ a b, s = {a, b} ∧ a ∈ B ∧ b ∈ B ∧ a ≠ b ∧ rlc ρ a = rlc ρ b}
  have hsub : {ρ : Fr | ¬ Separates ρ B} ⊆ ⋃ s ∈ B.powersetCard 2, bad s := by
    intro ρ hρ
    simp only [Set.mem_ofPred_eq, Separates] at hρ
    push Not at hρ
    obtain ⟨a, ha, b, hb, he, hne⟩ := hρ
    refine Set.mem_biUnion (x := ({a, b} : Finset (List ℕ))) ?_ ⟨a, b, rfl, ha, hb, hne, he⟩
    rw [Finset.mem_coe, Finset.mem_powersetCard]
    exact ⟨by intro x hx; simp at hx; rcases hx with rfl | rfl <;> assumption, Finset.card_pair hne⟩
  have hbad : ∀ s ∈ B.powersetCard 2, (bad s).ncard ≤ 31 := by
    intro s hs
    by_cases he : (bad s).Nonempty
    · obtain ⟨ρ, a, b, rfl, ha, hb, hne, -⟩ := he
      have h1 := c47_rlc_collisions a b (hB a ha).1 (hB b hb).1 ((hB a ha).2.trans (hB b hb).2.symm) hne
      rw [(hB a ha).2] at h1
      refine le_trans (Set.ncard_le_ncard ?_ (Set.toFinite _)) h1
      rintro σ ⟨a', b', hs', -, -, -, he⟩
      simp only [Set.mem_ofPred_eq, c47_rlc_eq]
      have ha' : a ∈ ({a', b'} : Finset (List ℕ)) := hs' ▸ by simp
      have hb' : b ∈ ({a', b'} : Finset (List ℕ)) := hs' ▸ by simp
      simp only [Finset.mem_insert, Finset.mem_singleton] at ha' hb'
      rcases ha' with rfl | rfl <;> rcases hb' with rfl | rfl
      · exact absurd rfl hne
      · exact he
      · exact he.symm
      · exact absurd rfl hne
    · rw [Set.not_nonempty_iff_eq_empty.1 he]; simp
  refine le_trans (Set.ncard_le_ncard hsub (Set.toFinite _)) ?_
  refine le_trans (ncard_biUnion_le _ _ 31 hbad) ?_
  rw [Finset.card_powersetCard, mul_comm]

/-! ## What the first phase commits to -/

variable {H : HashFn} {n U : ℕ} {w w₀ : Witness Fr}

/-- The strings of 32 bytes that the Poseidon table commits to: 0, and for each row its hash, its right input
and the word that its inputs are the halves of. -/
noncomputable def committed (H : HashFn) (w : Witness Fr) (U : ℕ) : Finset (List ℕ) :=
  {beBytes 32 0} ∪
    ((Finset.range U).image (fun i : ℕ => frBytes (H (w.adv .posLeft i) (w.adv .posRight i) (w.adv .posDomain i))) ∪
      ((Finset.range U).image (fun i : ℕ => frBytes (w.adv .posRight i)) ∪
        (Finset.range U).image (fun i : ℕ =>
          beBytes 32 ((w.adv .posLeft i).val * 2 ^ 128 + (w.adv .posRight i).val))))

theorem committed_card (H : HashFn) (w : Witness Fr) (U : ℕ) : (committed H w U).card ≤ 3 * U + 1 := by
  unfold committed
  refine le_trans (Finset.card_union_le _ _) ?_
  refine le_trans (Nat.add_le_add_left (Finset.card_union_le _ _) _) ?_
  refine le_trans (Nat.add_le_add_left (Nat.add_le_add_left (Finset.card_union_le _ _) _) _) ?_
  have h1 := Finset.card_image_le (s := Finset.range U)
    (f := fun i : ℕ => frBytes (H (w.adv .posLeft i) (w.adv .posRight i) (w.adv .posDomain i)))
  have h2 := Finset.card_image_le (s := Finset.range U) (f := fun i : ℕ => frBytes (w.adv .posRight i))
  have h3 := Finset.card_image_le (s := Finset.range U)
    (f := fun i : ℕ => beBytes 32 ((w.adv .posLeft i).val * 2 ^ 128 + (w.adv .posRight i).val))
  rw [Finset.card_range] at h1 h2 h3
  rw [Finset.card_singleton]
  omega

theorem committed_bytes {b : List ℕ} (h : b ∈ committed H w U) : IsBytes b ∧ b.length = 32 := by
  have hx : ∀ x, IsBytes (beBytes 32 x) ∧ (beBytes 32 x).length = 32 :=
    fun x => ⟨isBytes_beBytes _ _, beBytes_length _ _⟩
  simp only [committed, Finset.mem_union, Finset.mem_singleton, Finset.mem_image] at h
  rcases h with rfl | ⟨i, -, rfl⟩ | ⟨i, -, rfl⟩ | ⟨i, -, rfl⟩ <;> exact hx _

theorem posInputs_same (h : SameFirstPhase w₀ w) {l r d : Fr} :
    PosInputs w₀ U l r d ↔ PosInputs w U l r d := by
  unfold PosInputs
  simp only [h.fix, h.adv .posControl rfl, h.adv .posHead rfl, h.adv .posLeft rfl, h.adv .posRight rfl,
    h.adv .posDomain rfl]

theorem committed_same (h : SameFirstPhase w₀ w) : committed H w₀ U = committed H w U := by
  unfold committed
  simp only [h.adv .posLeft rfl, h.adv .posRight rfl, h.adv .posDomain rfl]

theorem committed_output {x : Fr} (h : TableOutput H w U x) : frBytes x ∈ committed H w U := by
  simp only [committed, Finset.mem_union, Finset.mem_singleton, Finset.mem_image, Finset.mem_range]
  rcases h with rfl | ⟨l, r, d, ⟨i, hi, -, -, -, rfl, rfl, rfl⟩, rfl⟩
  · left; simp [frBytes]
  · right; left
    refine ⟨i.toNat, by have := hi.1; have := hi.2; omega, ?_⟩
    rw [Int.toNat_of_nonneg hi.1]

theorem committed_word {x : ℕ} (h : TableWord w U x) : beBytes 32 x ∈ committed H w U := by
  simp only [committed, Finset.mem_union, Finset.mem_singleton, Finset.mem_image, Finset.mem_range]
  rcases h with rfl | ⟨l, r, d, ⟨i, hi, -, -, -, rfl, rfl, rfl⟩, rfl | rfl⟩
  · left; rfl
  · right; right; left
    refine ⟨i.toNat, by have := hi.1; have := hi.2; omega, ?_⟩
    rw [Int.toNat_of_nonneg hi.1]; rfl
  · right; right; right
    refine ⟨i.toNat, by have := hi.1; have := hi.2; omega, ?_⟩
    rw [Int.toNat_of_nonneg hi.1]

/-- The strings of 32 bytes in the claims. -/
def claimStrings (cs : List StateClaim) : List (List ℕ) :=
  cs.flatMap fun c => [beBytes 32 c.slot, frBytes c.oldRoot, frBytes c.newRoot, beBytes 32 c.oldValue,
    beBytes 32 c.newValue]

/-- All strings that are compared by their RLCs. -/
noncomputable def compared (H : HashFn) (w : Witness Fr) (U : ℕ) (cs : List StateClaim) : Finset (List ℕ) :=
  committed H w U ∪ (claimStrings cs).toFinset

theorem compared_card (H : HashFn) (w : Witness Fr) (U : ℕ) (cs : List StateClaim) :
    (compared H w U cs).card ≤ 3 * U + 5 * cs.length + 1 := by
  have h1 := committed_card H w U
  have h2 := List.toFinset_card_le (claimStrings cs)
  have h3 : (claimStrings cs).length = 5 * cs.length := by
    simp [claimStrings, List.length_flatMap, mul_comm]
  refine le_trans (Finset.card_union_le _ _) ?_
  omega

theorem compared_bytes {cs : List StateClaim} {b : List ℕ} (h : b ∈ compared H w U cs) :
    IsBytes b ∧ b.length = 32 := by
  have hx : ∀ x, IsBytes (beBytes 32 x) ∧ (beBytes 32 x).length = 32 :=
    fun x => ⟨isBytes_beBytes _ _, beBytes_length _ _⟩
  rcases Finset.mem_union.1 h with h | h
  · exact committed_bytes h
  · simp only [claimStrings, List.mem_toFinset, List.mem_flatMap, List.mem_cons, List.not_mem_nil, or_false] at h
    obtain ⟨c, -, rfl | rfl | rfl | rfl | rfl⟩ := h <;> exact hx _

theorem word_inj {ρ : Fr} {B : Finset (List ℕ)} (hs : Separates ρ B) {x y : ℕ} (hx : beBytes 32 x ∈ B)
    (hy : beBytes 32 y ∈ B) (lx : x < 2 ^ 256) (ly : y < 2 ^ 256)
    (h : rlc ρ (beBytes 32 x) = rlc ρ (beBytes 32 y)) : x = y := by
  have e := hs _ hx _ hy h
  rw [← beVal_beBytes 32 x (by norm_num at lx ⊢; exact lx), ← beVal_beBytes 32 y (by norm_num at ly ⊢; exact ly), e]

theorem root_inj {ρ : Fr} {B : Finset (List ℕ)} (hs : Separates ρ B) {x y : Fr} (hx : frBytes x ∈ B)
    (hy : frBytes y ∈ B) (h : rootRlc ρ x = rootRlc ρ y) : x = y := by
  have e := hs _ hx _ hy h
  apply ZMod.val_injective
  rw [← beVal_frBytes x, ← beVal_frBytes y, e]

/-! ## One claim -/

theorem opValue_fits {op : Op} {W : World} (hW : W.OK H) : ValueFits op.type (opValue H op W) := by
  unfold opValue
  split
  · unfold ValueFits; split <;> simp
  · rename_i a ha
    have o := hW.each _ _ ha
    cases op with
    | absent _ t => simp only [ValueFits]; split <;> simp
    | setBalance _ _ => exact lt_trans o.data.balance (by norm_num)
    | setNonce _ _ => exact o.data.nonce
    | setCodeSize _ _ => exact o.data.codeSize
    | setCodeHash _ _ => exact o.data.codeHash
    | setPoseidonCodeHash _ _ => trivial
    | setSlot _ _ _ => exact o.range _
    | slotEmpty _ _ => rfl

theorem value_inj {ρ : Fr} {B : Finset (List ℕ)} (hs : Separates ρ B) {t : MPTProofType} {x y : ℕ}
    (fx : ValueFits t x) (fy : ValueFits t y)
    (hx : t = .BalanceChanged ∨ t = .CodeHashExists ∨ t = .StorageChanged → beBytes 32 x ∈ B ∧ beBytes 32 y ∈ B)
    (h : valueCode ρ t x = valueCode ρ t y) : SameValue t x y := by
  have lt : (2 : ℕ) ^ 64 < frModulus := lt_trans (by norm_num) frModulus_gt
  cases t with
  | NonceChanged => exact .inl (natCast_inj_of_lt (lt_trans fx lt) (lt_trans fy lt) h)
  | CodeSizeExists => exact .inl (natCast_inj_of_lt (lt_trans fx lt) (lt_trans fy lt) h)
  | PoseidonCodeHashExists => exact .inr ⟨rfl, h⟩
  | BalanceChanged => obtain ⟨h1, h2⟩ := hx (by simp); exact .inl (word_inj hs h1 h2 fx fy h)
  | CodeHashExists => obtain ⟨h1, h2⟩ := hx (by simp); exact .inl (word_inj hs h1 h2 fx fy h)
  | StorageChanged => obtain ⟨h1, h2⟩ := hx (by simp); exact .inl (word_inj hs h1 h2 fx fy h)
  | AccountDoesNotExist => exact .inl (Eq.trans fx (Eq.symm fy))
  | StorageDoesNotExist => exact .inl (Eq.trans fx (Eq.symm fy))
  | AccountDestructed => exact .inl (Eq.trans fx (Eq.symm fy))

/-- The claim can be looked up in the witness. -/
def ClaimExposed (c : StateClaim) (w : Witness Fr) (U : ℕ) : Prop :=
  ∃ r, InU U r ∧ exposed w r = c.tuple w.chal

/-- The step from acceptance to truth, for a challenge that separates what is compared. -/
theorem step_of_separates (h : Accepted H n U w) (T : TablesOK w U) {B : Finset (List ℕ)}
    (hsep : Separates w.chal B) (hcom : committed H w U ⊆ B) {c : StateClaim} (hc : c.Fits)
    (hB : ∀ b ∈ claimStrings [c], b ∈ B) (hx : ClaimExposed c w U) {W : World} (hW : W.OK H)
    (hroot : c.oldRoot = W.trie.hash H) (C : CollisionFree H (Or3 (PosInputs w U) (W.Inputs H)))
    (hd : c.Decided H W) : ∃ W', c.Step H W W' := by
  have hB' : beBytes 32 c.slot ∈ B ∧ frBytes c.oldRoot ∈ B ∧ frBytes c.newRoot ∈ B ∧ beBytes 32 c.oldValue ∈ B ∧
      beBytes 32 c.newValue ∈ B := by
    simp only [claimStrings, List.flatMap_cons, List.flatMap_nil, List.append_nil, List.mem_cons,
      List.not_mem_nil, or_false, forall_eq_or_imp, forall_eq] at hB
    exact hB
  obtain ⟨b1, b2, b3, b4, b5⟩ := hB'
  have hx' : Exposes w U c.type (beVal c.address : Fr) (rlc w.chal (beBytes 32 c.slot)) (rootRlc w.chal c.oldRoot)
    (rootRlc w.chal c.newRoot) (valueCode w.chal c.type c.oldValue) (valueCode w.chal c.type c.newValue) := hx
  obtain ⟨x, o, nn, h1, h2, h3, h4, h5, h6⟩ := sound_claim h T hx'
  have hk : accountKey H c.address = addressKey H x := accountKey_eq_addressKey hc.address h1 h2
  have ho : o = c.oldRoot := root_inj hsep (hcom (committed_output h5)) b2 h3.symm
  -- claims about existing accounts
  have main : ∀ a, W.accounts (accountKey H c.address) = some a →
      (c.type = .StorageChanged → c.newValue ≠ 0 ∧ a.slots (Account.wordHash H c.slot) ≠ 0) →
      ∃ op W', c.StepBy H op W W' := by
    intro a ha hslot
    rw [hk] at ha
    obtain ⟨op, W', e1, e2, e3, e4, e5, e6, e7, R⟩ := h6 c.address W a hk hW (by rw [ho, hroot]) ha C (by
      intro ht
      obtain ⟨n1, n2⟩ := hslot ht
      constructor
      · intro h0
        apply n1
        have f := hc.newValue
        rw [ht] at f h0
        refine word_inj hsep b5 (hcom (committed_word (.inl rfl))) f (by norm_num) ?_
        rw [rlc_zero_word]; exact h0
      · intro s hs tw he
        rw [← word_inj hsep b1 (hcom (committed_word tw)) hc.slot hs he]
        exact n2)
    have hnn : nn = c.newRoot := root_inj hsep (hcom (committed_output R.root)) b3 h4.symm
    refine ⟨op, W', e1, e2, ?_, e3, hroot, hnn ▸ e5, ?_, ?_⟩
    · intro ht
      obtain ⟨r1, r2⟩ := R.slot (by rw [e2]; exact ht)
      exact (word_inj hsep b1 (hcom (committed_word r2)) hc.slot r1 (e4 ht)).symm
    · exact value_inj hsep hc.oldValue (e2 ▸ opValue_fits hW)
        (fun ht => ⟨b4, hcom (committed_word (R.values (by rw [e2]; exact ht)).1)⟩) e6
    · exact value_inj hsep hc.newValue (e2 ▸ opValue_fits (Op.apply_ok hW e3))
        (fun ht => ⟨b5, hcom (committed_word (R.values (by rw [e2]; exact ht)).2)⟩) e7
  have absent : W.accounts (accountKey H c.address) = none → c.type ∈ Op.absentTypes → c.oldRoot = c.newRoot →
      c.oldValue = 0 → c.newValue = 0 → ∃ W', c.Step H W W' := by
    intro ha ht hr hv hv'
    refine ⟨W, .absent c.address c.type, rfl, rfl, ?_, ?_, hroot, hr ▸ hroot, .inl ?_, .inl ?_⟩
    · intro ht'
      exfalso
      rcases ht' with ht' | ht' <;> rw [ht'] at ht <;> simp [Op.absentTypes] at ht
    · simp only [Op.apply, Op.address]; rw [ha]; exact if_pos ht
    · simp [opValue, Op.address, ha, hv]
    · simp [opValue, Op.address, ha, hv']
  rcases hd with ht | ⟨d1, d2, d3, d4, d5⟩ | ⟨a, ha, hslot⟩
  · have f1 := hc.oldValue
    have f2 := hc.newValue
    cases ha : W.accounts (accountKey H c.address) with
    | none =>
      rw [ht] at f1 f2 hx'
      obtain ⟨g1, -⟩ := c29_read_only_partial h T (.inl rfl) hx'
      exact absent ha (by rw [ht]; decide) (root_inj hsep b2 b3 g1) f1 f2
    | some a =>
      obtain ⟨op, W', D⟩ := main a ha (by rw [ht]; simp)
      exfalso
      have h1 := D.apply
      have h2 := D.type
      have h3 := D.address
      rw [ht] at h2
      cases op with
      | absent b t' =>
        simp only [Op.address] at h3
        subst h3
        simp only [Op.apply, Op.address, ha] at h1
        cases h1
      | _ => cases h2
  · exact absent d1 d2 d3 d4 d5
  · obtain ⟨op, W', D⟩ := main a ha hslot
    exact ⟨W', op, D⟩

/-! ## C61, C62 -/

/-- In all states the claims lead through, nothing collides with the hash inputs of the state and of the
Poseidon table of `w`, and the claims are among those the circuit decides. -/
def SafeClaims (H : HashFn) (w : Witness Fr) (U : ℕ) : World → List StateClaim → Prop
  | _, [] => True
  | W, c :: cs => CollisionFree H (Or3 (PosInputs w U) (W.Inputs H)) ∧ c.Decided H W ∧
      ∀ W', c.Step H W W' → SafeClaims H w U W' cs

/-- The challenges for which the first phase `w₀` can be completed to an accepted witness from which all the
claims can be looked up. -/
def AcceptingChallenges (H : HashFn) (n U : ℕ) (w₀ : Witness Fr) (cs : List StateClaim) : Set Fr :=
  {ρ | ∃ w, w.chal = ρ ∧ SameFirstPhase w₀ w ∧ Accepted H n U w ∧ ∀ c ∈ cs, ClaimExposed c w U}

theorem history_of_separates (h : Accepted H n U w) (T : TablesOK w U) {B : Finset (List ℕ)}
    (hsep : Separates w.chal B) (hcom : committed H w U ⊆ B) {cs : List StateClaim} (hc : ∀ c ∈ cs, c.Fits)
    (hB : ∀ b ∈ claimStrings cs, b ∈ B) (hx : ∀ c ∈ cs, ClaimExposed c w U) {W : World} (hW : W.OK H)
    (hl : Linked (W.trie.hash H) cs) (hs : SafeClaims H w U W cs) : History H W cs := by
  induction cs generalizing W with
  | nil => trivial
  | cons c cs ih =>
    obtain ⟨W', hstep⟩ := step_of_separates h T hsep hcom (hc c (by simp))
      (fun b hb => hB b (by
        simp only [claimStrings, List.mem_flatMap, List.mem_singleton] at hb ⊢
        obtain ⟨_, rfl, hb⟩ := hb
        exact ⟨_, by simp, hb⟩))
      (hx c (by simp)) hW hl.1 hs.1 hs.2.1
    obtain ⟨op, D⟩ := hstep
    refine ⟨W', ⟨op, D⟩, ih (fun c' hc' => hc c' (by simp [hc'])) (fun b hb => hB b ?_)
      (fun c' hc' => hx c' (by simp [hc'])) (Op.apply_ok hW D.apply) (D.newRoot ▸ hl.2) (hs.2.2 W' ⟨op, D⟩)⟩
    simp only [claimStrings, List.mem_flatMap] at hb ⊢
    obtain ⟨c', hc', hb⟩ := hb
    exact ⟨c', by simp [hc'], hb⟩

theorem safeClaims_same (hf : SameFirstPhase w₀ w) {cs : List StateClaim} {W : World}
    (hs : SafeClaims H w₀ U W cs) : SafeClaims H w U W cs := by
  induction cs generalizing W with
  | nil => trivial
  | cons c cs ih =>
    exact ⟨hs.1.mono fun _ _ _ h => h.imp (posInputs_same hf).2 id, hs.2.1, fun W' hW' => ih (hs.2.2 W' hW')⟩

/-- **C62.** Fix what the prover commits to before the challenge is drawn: all first-phase columns, the
Poseidon table among them; and fix claims, each starting with the root the previous one ended with, the first
one with that of a consistent state `W`. If the claims are not a history of `W`, then for all but
`31 * (3 U + 5 k + 1 choose 2)` of the challenges (`k` claims, `U` usable rows; the field has more than `2^253`
elements) no choice of the second-phase columns gives an accepted witness from which all the claims can be
looked up.

Partial: only for the claims that the circuit decides (`StateClaim.Decided`), without collisions of the hash
function, when the cells at the edges of the tables are in order (`EdgesOK`). -/
theorem c62_history_partial (hE : EdgesOK n w₀) {cs : List StateClaim}
    (hc : ∀ c ∈ cs, c.Fits) {W : World} (hW : W.OK H) (hl : Linked (W.trie.hash H) cs)
    (hs : SafeClaims H w₀ U W cs) (hfalse : ¬ History H W cs) :
    (AcceptingChallenges H n U w₀ cs).ncard ≤ 31 * (3 * U + 5 * cs.length + 1).choose 2 := by
  have : Fintype Fr := inferInstance
  have hsub : AcceptingChallenges H n U w₀ cs ⊆ {ρ | ¬ Separates ρ (compared H w₀ U cs)} := by
    rintro ρ ⟨w, rfl, hf, hacc, hx⟩ hsep
    refine hfalse (history_of_separates hacc (hacc.tablesOK (hE.same hf)) hsep ?_ hc
      (fun b hb => Finset.mem_union_right _ (by simpa using hb)) hx hW hl (safeClaims_same hf hs))
    rw [← committed_same hf]
    exact Finset.subset_union_left
  refine le_trans (Set.ncard_le_ncard hsub (Set.toFinite _)) ?_
  refine le_trans (separates_all_but _ fun b hb => compared_bytes hb) ?_
  exact Nat.mul_le_mul_left _ (Nat.choose_le_choose 2 (compared_card H w₀ U cs))

/-- **C61.** The same for one claim: if it is false of the state `W` whose root it starts with, it can be
proved for at most `31 * (3 U + 6 choose 2)` challenges. -/
theorem c61_claim_partial (hE : EdgesOK n w₀) {c : StateClaim}
    (hc : c.Fits) {W : World} (hW : W.OK H) (hroot : c.oldRoot = W.trie.hash H)
    (C : CollisionFree H (Or3 (PosInputs w₀ U) (W.Inputs H))) (hd : c.Decided H W)
    (hfalse : ¬ ∃ W', c.Step H W W') :
    {ρ | ∃ w, w.chal = ρ ∧ SameFirstPhase w₀ w ∧ Accepted H n U w ∧
      ∃ r, InU U r ∧ exposed w r = c.tuple ρ}.ncard ≤ 31 * (3 * U + 6).choose 2 := by
  have := c62_history_partial (n := n) (cs := [c]) hE (by simpa using hc) hW ⟨hroot, trivial⟩
    ⟨C, hd, fun _ _ => trivial⟩ (by rintro ⟨W', hW', -⟩; exact hfalse ⟨W', hW'⟩)
  refine le_trans (Set.ncard_le_ncard ?_ (Set.toFinite _)) this
  rintro ρ ⟨w, rfl, h2, h3, h4⟩
  exact ⟨w, rfl, h2, h3, by simpa [ClaimExposed] using h4⟩

/-! ## C60 -/

/-- **C60.** What `assign` writes into the first-phase columns and the fixed columns does not depend on the
challenge, and neither does whether it panics: serially, and in parallel for every number of threads. (The
caller's Poseidon table is the same.) -/
theorem c60_first_phase (H : HashFn) (ρ ρ' : Fr) (n : ℕ) (ps : List Proof) (table : Witness Fr) :
    (∀ s, serialAssign H ρ n ps = some s → ∃ s', serialAssign H ρ' n ps = some s' ∧
      SameFirstPhase (s.witness ρ table) (s'.witness ρ' table)) ∧
    ∀ threads s, parAssign H ρ n threads ps = some s → ∃ s', parAssign H ρ' n threads ps = some s' ∧
      SameFirstPhase (s.witness ρ n table) (s'.witness ρ' n table) :=
  ⟨fun _ h => Phases.serialAssign_first H ρ ρ' n ps h table,
    fun threads _ h => Phases.parAssign_first H ρ ρ' n threads ps h table⟩

/-- **C60**, by columns: the cells that depend on the challenge are in the columns for the RLCs of the storage key,
the old and the new value, the second-phase intermediate values, and the RLCs of the byte-representation and
canonical-representation tables. -/
theorem c60_columns (H : HashFn) (ρ ρ' : Fr) (n : ℕ) (ps : List Proof) (table : Witness Fr) (c : AdvCol)
    (hc : c ≠ .storageKeyRlc ∧ c ≠ .oldValue ∧ c ≠ .newValue ∧ (∀ i, c ≠ .sp i) ∧ c ≠ .brRlc ∧ c ≠ .crRlc) :
    (∀ s s', serialAssign H ρ n ps = some s → serialAssign H ρ' n ps = some s' →
      ∀ r, (s.witness ρ table).adv c r = (s'.witness ρ' table).adv c r) ∧
    ∀ threads s s', parAssign H ρ n threads ps = some s → parAssign H ρ' n threads ps = some s' →
      ∀ r, (s.witness ρ n table).adv c r = (s'.witness ρ' n table).adv c r := by
  have h2 : c.secondPhase = false := by
    obtain ⟨h1, h2, h3, h4, h5, h6⟩ := hc
    cases c <;> first | rfl | contradiction | exact absurd rfl (h4 _)
  obtain ⟨k1, k2⟩ := c60_first_phase H ρ ρ' n ps table
  refine ⟨fun s s' hs hs' r => ?_, fun threads s s' hs hs' r => ?_⟩
  · obtain ⟨s₂, e, k⟩ := k1 s hs
    obtain rfl := Option.some.inj (e.symm.trans hs')
    exact k.adv c h2 r
  · obtain ⟨s₂, e, k⟩ := k2 threads s hs
    obtain rfl := Option.some.inj (e.symm.trans hs')
    exact k.adv c h2 r

/-- **C60**, completeness in two phases: for the traces of any operations on any consistent state there is one
first phase that can be completed, for every challenge, to an accepted witness from which all operations can
be looked up. -/
theorem c60_complete {ops : List Op} {W W' : World} {steps : List (Op × World × World)} (hW : W.OK H)
    (hrun : runOps H ops W = some (W', steps))
    (hadr : ∀ op ∈ ops, IsBytes op.address ∧ op.address.length = 20)
    (C : ∀ s ∈ steps, CollisionFree H (s.1.Relevant H s.2.1 s.2.2)) :
    ∃ ps m es, (jobsOf H steps).mapM (fun j => proofFrom H j.1 j.2) = some ps ∧ nRowsRequired H ps = some m ∧
      hashTraces H ps = some es ∧
      ∀ (n U : ℕ) (table : Witness Fr), m ≤ n → 32 * ((updateKeys H ps).length + 1) ≤ n → n ≤ U →
        U ≤ 2 ^ 64 → PosTableFits H table U (traceInputs es) →
        ∃ w₀, ∀ ρ, ∃ s, serialAssign H ρ n ps = some s ∧ SameFirstPhase w₀ (s.witness ρ table) ∧
          Accepted H n U (s.witness ρ table) ∧
          ∀ st ∈ steps, ∃ r, Enabled n r ∧ exposed (s.witness ρ table) r = opTuple H ρ st.1 st.2.1 st.2.2 := by
  obtain ⟨ps, m, es, h1, h2, h3, h4⟩ := c35_operations hW hrun hadr C
  refine ⟨ps, m, es, h1, h2, h3, ?_⟩
  intro n U table a1 a2 a3 a4 a5
  obtain ⟨⟨s0, h0, -⟩, -⟩ := h4 0 n U table a1 a2 a3 a4 a5
  refine ⟨s0.witness 0 table, fun ρ => ?_⟩
  obtain ⟨⟨s, hs, hacc, hex⟩, -⟩ := h4 ρ n U table a1 a2 a3 a4 a5
  obtain ⟨s', hs', hsame⟩ := (c60_first_phase H 0 ρ n ps table).1 s0 h0
  rw [hs] at hs'
  obtain rfl := Option.some.inj hs'
  exact ⟨s, hs, hsame, hacc, hex⟩

end Mpt.Props
