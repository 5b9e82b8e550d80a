import Verif.Props.Patched

set_option autoImplicit false

/-!
# C63, C64: with the missing constraints, every accepted claim is true

No condition on the kind of claim is left: the claim may create an account or a slot, delete a slot, or read what
is not there.
-/

namespace Mpt.Props
open Mpt Spec Types MptUpdate Requests

variable {H : HashFn} {n U : ℕ} {w w₀ : Witness Fr} {t : MPTProofType}
variable {address slotRlc oldRootRlc newRootRlc oldValue newValue : Fr}

theorem faithful_zero {k : Fr} (ht : t = .NonceChanged ∨ t = .AccountDoesNotExist) (ho : oldValue = 0)
    (hn : newValue = 0) : Faithful H w U t slotRlc oldValue newValue k 0 0 := by
  refine ⟨(sound_zero (t := t) (slotRlc := slotRlc) (oldValue := oldValue) (newValue := newValue) k).1, ?_⟩
  intro adr W hk hW h0 C
  have he : W.trie = .empty := ZkTrie.eq_empty (S := PosInputs w U) (C.mono fun _ _ _ h => h.imp id .inl) h0
  have ha : W.accounts (accountKey H adr) = none := by
    have := hW.accounts (accountKey H adr)
    rw [he] at this
    cases h : W.accounts (accountKey H adr) with
    | none => rfl
    | some a => rw [h] at this; cases this
  refine .inl ⟨.absent adr t, W, rfl, rfl, ?_, ?_, h0.symm, ?_, ?_, ⟨.inl rfl, ?_, ?_⟩⟩
  · simp only [Op.apply, Op.address]; rw [ha]; exact if_pos (by rcases ht with rfl | rfl <;> decide)
  · rcases ht with rfl | rfl <;> simp
  · simp [opValue, Op.address, ha, valueCode_zero, ho]
  · simp [opValue, Op.address, ha, valueCode_zero, hn]
  · rcases ht with rfl | rfl <;> simp [Op.type]
  · rcases ht with rfl | rfl <;> simp [Op.type]

/-- What a claim accepted by the patched circuit says. -/
theorem faithful_claim (h : Accepted H n U w) (T : TablesOK w U) (P : Patched H n U w)
    (hx : Exposes w U t address slotRlc oldRootRlc newRootRlc oldValue newValue) :
    About H w.chal address oldRootRlc newRootRlc (Faithful H w U t slotRlc oldValue newValue) := by
  refine about_of_backed (backed_of_run h T hx ?_) (fun h1 h2 h3 => faithful_zero h1 h2 h3) fun _ _ _ hP => hP
  rintro s e R rfl rfl rfl rfl
  exact faithful_run R T P

/-! ## C63 -/

/-- **C63.** A claim that can be looked up in an accepted witness that also satisfies the missing constraints,
and whose old root is that of a known consistent state, describes an operation on that state: the new root and
the values are those of the state after the operation. -/
theorem c63_operation (h : Accepted H n U w) (T : TablesOK w U) (P : Patched H n U w)
    (hx : Exposes w U t address slotRlc oldRootRlc newRootRlc oldValue newValue)
    {W : World} (hW : W.OK H) (hs : SafeState H w U W) (hroot : oldRootRlc = rootRlc w.chal (W.trie.hash H))
    (hslot : t = .StorageDoesNotExist → ∃ s, s < 2 ^ 256 ∧ slotRlc = rlc w.chal (beBytes 32 s)) :
    ∃ (op : Op) (W' : World),
      Describes H w.chal op W W' t address slotRlc oldRootRlc newRootRlc oldValue newValue := by
  obtain ⟨adr, hadr, haddress⟩ := address_bytes h T hx
  obtain ⟨x, o, nn, h1, h2, h3, h4, h5, h6⟩ := faithful_claim h T P hx
  have hk : accountKey H adr = addressKey H x := accountKey_eq_addressKey hadr h1 (haddress.symm.trans h2)
  have ho : W.trie.hash H = o := (hs.rlc o h5 (h3.symm.trans hroot)).symm
  rcases h6 adr W hk hW ho hs.free with ⟨op, W', e1, e2, e3, e4, e5, e6, e7, -⟩ | ⟨rfl, e2, e3, e4, e5⟩
  · refine ⟨op, W', ⟨e3, ?_, e2, ?_, e4, hroot, ?_, e6, e7⟩⟩
    · rw [e1]; exact hadr
    · rw [e1]; exact haddress
    · rw [h4, e5]
  · obtain ⟨s, hs1, hs2⟩ := hslot rfl
    rw [← hk] at e2
    refine ⟨.slotEmpty adr s, W, ⟨?_, hadr, rfl, haddress, fun _ => hs2, hroot, by rw [h4, ← e3, ho], ?_, ?_⟩⟩
    · simp only [Op.apply, Op.address]; rw [e2]; exact if_pos hs1
    · simp [e4, opValue, Op.address, e2, valueCode_zero]
    · simp [e5, opValue, Op.address, e2, valueCode_zero]

/-- All states that the claims lead through are safe, and the slots of claims that a slot is empty are 256-bit
words. -/
def SafeChain (H : HashFn) (w : Witness Fr) (U : ℕ) : World → List LookupClaim → Prop
  | _, [] => True
  | W, c :: cs => SafeState H w U W ∧
      (c.type = .StorageDoesNotExist → ∃ s, s < 2 ^ 256 ∧ c.slotRlc = rlc w.chal (beBytes 32 s)) ∧
      ∀ op W', c.Describes H w.chal op W W' → SafeChain H w U W' cs

/-- **C63, histories.** A chain of claims accepted by the patched circuit that starts at the root of a known
consistent state is a history of that state. -/
theorem c63_history (h : Accepted H n U w) (T : TablesOK w U) (P : Patched H n U w) {cs : List LookupClaim}
    (hx : ∀ c ∈ cs, c.Exposed w U) {W : World} (hW : W.OK H)
    (hchain : Chained (rootRlc w.chal (W.trie.hash H)) cs) (hs : SafeChain H w U W cs) :
    ∃ (ops : List Op) (W' : World) (steps : List (Op × World × World)),
      runOps H ops W = some (W', steps) ∧ W'.OK H ∧
      List.Forall₂ (fun c (s : Op × World × World) => c.Describes H w.chal s.1 s.2.1 s.2.2) cs steps ∧
      (∀ c ∈ cs.getLast?, c.newRootRlc = rootRlc w.chal (W'.trie.hash H)) := by
  induction cs generalizing W with
  | nil => exact ⟨[], W, [], rfl, hW, .nil, by simp⟩
  | cons c cs ih =>
    obtain ⟨hr, hchain⟩ := hchain
    obtain ⟨s1, s2, s3⟩ := hs
    obtain ⟨op, W1, D'⟩ := c63_operation h T P (hx c (by simp)) hW s1 hr s2
    have D : c.Describes H w.chal op W W1 := D'
    rw [D'.newRoot] at hchain
    obtain ⟨ops, W', steps, e1, e2, e3, e4⟩ := ih (fun c hc => hx c (by simp [hc])) (Op.apply_ok hW D'.apply) hchain
      (s3 op W1 D)
    refine ⟨op :: ops, W', (op, W, W1) :: steps, ?_, e2, .cons D e3, ?_⟩
    · rw [runOps, D'.apply]
      simp [e1]
    · cases cs with
      | nil =>
        cases e3
        intro c' hc'
        simp only [List.getLast?_singleton, Option.mem_def, Option.some.injEq] at hc'
        subst hc'
        cases ops with
        | nil => cases e1; exact D'.newRoot
        | cons op' ops =>
          have := (runOps_steps (Op.apply_ok hW D'.apply) e1).2.1
          simp at this
      | cons c2 cs => intro c' hc'; exact e4 c' (by rwa [List.getLast?_cons_cons] at hc')

/-! ## C64: the challenge phase -/

/-- The step from acceptance to truth, for a challenge that separates what is compared. -/
theorem patched_step (h : Accepted H n U w) (T : TablesOK w U) (P : Patched H n U w) {B : Finset (List ℕ)}
    (hsep : Separates w.chal B) (hcom : committed H w U ⊆ B) {c : StateClaim} (hc : c.Fits)
    (hB : ∀ b ∈ claimStrings [c], b ∈ B) (hx : ClaimExposed c w U) {W : World} (hW : W.OK H)
    (hroot : c.oldRoot = W.trie.hash H) (C : CollisionFree H (Or3 (PosInputs w U) (W.Inputs H))) :
    ∃ W', c.Step H W W' := by
  have hB' : beBytes 32 c.slot ∈ B ∧ frBytes c.oldRoot ∈ B ∧ frBytes c.newRoot ∈ B ∧ beBytes 32 c.oldValue ∈ B ∧
      beBytes 32 c.newValue ∈ B := by
    simp only [claimStrings, List.flatMap_cons, List.flatMap_nil, List.append_nil, List.mem_cons,
      List.not_mem_nil, or_false, forall_eq_or_imp, forall_eq] at hB
    exact hB
  obtain ⟨b1, b2, b3, b4, b5⟩ := hB'
  have hx' : Exposes w U c.type (beVal c.address : Fr) (rlc w.chal (beBytes 32 c.slot)) (rootRlc w.chal c.oldRoot)
    (rootRlc w.chal c.newRoot) (valueCode w.chal c.type c.oldValue) (valueCode w.chal c.type c.newValue) := hx
  obtain ⟨x, o, nn, h1, h2, h3, h4, h5, h6⟩ := faithful_claim h T P hx'
  have hk : accountKey H c.address = addressKey H x := accountKey_eq_addressKey hc.address h1 h2
  have ho : o = c.oldRoot := root_inj hsep (hcom (committed_output h5)) b2 h3.symm
  rcases h6 c.address W hk hW (by rw [ho, hroot]) C with
    ⟨op, W', e1, e2, e3, e4, e5, e6, e7, R⟩ | ⟨e1, e2, e3, e4, e5⟩
  · have hnn : nn = c.newRoot := root_inj hsep (hcom (committed_output R.root)) b3 h4.symm
    refine ⟨W', op, e1, e2, ?_, e3, hroot, hnn ▸ e5, ?_, ?_⟩
    · intro ht
      obtain ⟨r1, r2⟩ := R.slot (by rw [e2]; exact ht)
      exact (word_inj hsep b1 (hcom (committed_word r2)) hc.slot r1 (e4 ht)).symm
    · exact value_inj hsep hc.oldValue (e2 ▸ opValue_fits hW)
        (fun ht => ⟨b4, hcom (committed_word (R.values (by rw [e2]; exact ht)).1)⟩) e6
    · exact value_inj hsep hc.newValue (e2 ▸ opValue_fits (Op.apply_ok hW e3))
        (fun ht => ⟨b5, hcom (committed_word (R.values (by rw [e2]; exact ht)).2)⟩) e7
  · rw [← hk] at e2
    have f1 := hc.oldValue
    have f2 := hc.newValue
    rw [e1] at f1 f2
    have f1' : c.oldValue = 0 := f1
    have f2' : c.newValue = 0 := f2
    have hrr : c.newRoot = c.oldRoot := by
      refine root_inj hsep b3 b2 ?_
      rw [h4, ← e3, ho]
    refine ⟨W, .slotEmpty c.address c.slot, rfl, e1.symm, fun _ => rfl, ?_, hroot, hrr.trans hroot, .inl ?_, .inl ?_⟩
    · simp only [Op.apply, Op.address]; rw [e2]; exact if_pos hc.slot
    · simp [f1', opValue, Op.address, e2]
    · simp [f2', opValue, Op.address, e2]

/-- In all states the claims lead through, nothing collides with the hash inputs of the state and of the
Poseidon table of `w`. -/
def FreeStates (H : HashFn) (w : Witness Fr) (U : ℕ) : World → List StateClaim → Prop
  | _, [] => True
  | W, c :: cs => CollisionFree H (Or3 (PosInputs w U) (W.Inputs H)) ∧
      ∀ W', c.Step H W W' → FreeStates H w U W' cs

/-- The challenges for which the first phase `w₀` can be completed to a witness accepted by the patched circuit
from which all the claims can be looked up. -/
def PatchedChallenges (H : HashFn) (n U : ℕ) (w₀ : Witness Fr) (cs : List StateClaim) : Set Fr :=
  {ρ | ∃ w, w.chal = ρ ∧ SameFirstPhase w₀ w ∧ Accepted H n U w ∧ Patched H n U w ∧ ∀ c ∈ cs, ClaimExposed c w U}

theorem patched_history (h : Accepted H n U w) (T : TablesOK w U) (P : Patched H n U w) {B : Finset (List ℕ)}
    (hsep : Separates w.chal B) (hcom : committed H w U ⊆ B) {cs : List StateClaim} (hc : ∀ c ∈ cs, c.Fits)
    (hB : ∀ b ∈ claimStrings cs, b ∈ B) (hx : ∀ c ∈ cs, ClaimExposed c w U) {W : World} (hW : W.OK H)
    (hl : Linked (W.trie.hash H) cs) (hs : FreeStates H w U W cs) : History H W cs := by
  induction cs generalizing W with
  | nil => trivial
  | cons c cs ih =>
    obtain ⟨W', hstep⟩ := patched_step h T P hsep hcom (hc c (by simp))
      (fun b hb => hB b (by
        simp only [claimStrings, List.mem_flatMap, List.mem_singleton] at hb ⊢
        obtain ⟨_, rfl, hb⟩ := hb
        exact ⟨_, by simp, hb⟩))
      (hx c (by simp)) hW hl.1 hs.1
    obtain ⟨op, D⟩ := hstep
    refine ⟨W', ⟨op, D⟩, ih (fun c' hc' => hc c' (by simp [hc'])) (fun b hb => hB b ?_)
      (fun c' hc' => hx c' (by simp [hc'])) (Op.apply_ok hW D.apply) (D.newRoot ▸ hl.2) (hs.2 W' ⟨op, D⟩)⟩
    simp only [claimStrings, List.mem_flatMap] at hb ⊢
    obtain ⟨c', hc', hb⟩ := hb
    exact ⟨c', by simp [hc'], hb⟩

theorem freeStates_same (hf : SameFirstPhase w₀ w) {cs : List StateClaim} {W : World}
    (hs : FreeStates H w₀ U W cs) : FreeStates H w U W cs := by
  induction cs generalizing W with
  | nil => trivial
  | cons c cs ih =>
    exact ⟨hs.1.mono fun _ _ _ h => h.imp (posInputs_same hf).2 id, fun W' hW' => ih (hs.2 W' hW')⟩

/-- **C64.** Fix what the prover commits to before the challenge is drawn, and claims, each starting with the
root the previous one ended with, the first one with that of a consistent state `W`. If the claims are not a
history of `W`, then for all but `31 * (3 U + 5 k + 1 choose 2)` challenges no choice of the second-phase columns
gives a witness that the patched circuit accepts and from which all the claims can be looked up. Here the claims
are arbitrary: they may create accounts and slots, delete slots and read what is not there. -/
theorem c64_history (hE : EdgesOK n w₀) {cs : List StateClaim}
    (hc : ∀ c ∈ cs, c.Fits) {W : World} (hW : W.OK H) (hl : Linked (W.trie.hash H) cs)
    (hs : FreeStates H w₀ U W cs) (hfalse : ¬ History H W cs) :
    (PatchedChallenges H n U w₀ cs).ncard ≤ 31 * (3 * U + 5 * cs.length + 1).choose 2 := by
  have : Fintype Fr := inferInstance
  have hsub : PatchedChallenges H n U w₀ cs ⊆ {ρ | ¬ Separates ρ (compared H w₀ U cs)} := by
    rintro ρ ⟨w, rfl, hf, hacc, hp, hx⟩ hsep
    refine hfalse (patched_history hacc (hacc.tablesOK (hE.same hf)) hp hsep ?_ hc
      (fun b hb => Finset.mem_union_right _ (by simpa using hb)) hx hW hl (freeStates_same hf hs))
    rw [← committed_same hf]
    exact Finset.subset_union_left
  refine le_trans (Set.ncard_le_ncard hsub (Set.toFinite _)) ?_
  refine le_trans (separates_all_but _ fun b hb => compared_bytes hb) ?_
  exact Nat.mul_le_mul_left _ (Nat.choose_le_choose 2 (compared_card H w₀ U cs))

end Mpt.Props
