import Verif.Props.Negative
import Verif.Props.PatchedAgreement
import Verif.Props.PatchedDemo

set_option autoImplicit false

/-!
# C71 fails for inserted values; cases that meet its hypotheses
-/

namespace Mpt.Props
open Mpt Spec Types MptUpdate Requests

/-- Demo circuits with rows that differ in second-phase cells only have the same first phase. -/
theorem demo_first (H : HashFn) (ρ ρ' : Fr) {runs runs' : List (List URow)} (strings : List (List ℕ)) (keys : List Fr)
    (reqs : List KeyBit.Req) (pos : List (Fr × Fr × Fr))
    (h : runs.flatten.map URow.first = runs'.flatten.map URow.first) :
    SameFirstPhase (demo H ρ runs strings keys reqs pos).witness (demo H ρ' runs' strings keys reqs pos).witness := by
  have hlen : runs.flatten.length = runs'.flatten.length := by
    have := congrArg List.length h
    simpa only [List.length_map] using this
  have hrow : ∀ r, (rowAt (demo H ρ runs strings keys reqs pos).rows r).first =
      (rowAt (demo H ρ' runs' strings keys reqs pos).rows r).first := by
    intro r
    have hl : (demo H ρ runs strings keys reqs pos).rows.map URow.first =
        (demo H ρ' runs' strings keys reqs pos).rows.map URow.first := by
      simp only [demo, List.map_append, h, hlen]
    have key : ∀ l : List URow, (rowAt l r).first = rowAt (l.map URow.first) r := by
      intro l
      unfold rowAt
      split
      · exact (List.getD_map l URow.blank URow.first).symm
      · rfl
    rw [key, key, hl]
  have hbr := Phases.brRows_first ρ ρ' (List.replicate 16 0 :: strings)
  have hcr : (Canonical.rows ρ (0 :: keys) 2049).map Phases.crFirst = (Canonical.rows ρ' (0 :: keys) 2049).map Phases.crFirst := by
    have h0 := Phases.crRows_first ρ ρ' (0 :: keys) 2049
    have e : ∀ o : Option (List Canonical.Row), (o.getD []).map Phases.crFirst = (o.map (List.map Phases.crFirst)).getD [] := by
      intro o; cases o <;> rfl
    rw [Canonical.rows, Canonical.rows, e, e, h0]
  refine ⟨fun c r => by cases c <;> rfl, fun c hc r => ?_⟩
  cases c <;> first
    | (cases hc; done)
    | rfl
    | exact Phases.tableCell_map hbr _ (fun _ => rfl) r
    | exact Phases.tableCell_map hcr _ (fun _ => rfl) r
    | exact (URow.cell_first _ hc).symm.trans ((congrArg (fun u => URow.cell u _) (hrow r)).trans (URow.cell_first _ hc))

theorem insertion_first (H : HashFn) (l : Insertion) (ρ ρ' : Fr) (a : ℕ) (v v' : Fr) :
    [l.run H ρ a v].flatten.map URow.first = [l.run H ρ' a v'].flatten.map URow.first := by
  simp only [Insertion.run, List.flatten_cons, List.flatten_nil, List.append_nil, List.map_cons, List.map_nil,
    URow.first, Insertion.row, Insertion.row3, Insertion.row4, startRow]

/-- The claim that `v` is stored in the slot `slot` of the account, in place of 0, when the storage trie of the
account is empty at first and is the leaf that stores `x` afterwards. -/
def insertionClaim (H : HashFn) (adr : List ℕ) (acc : Account) (slot x v : ℕ) : StateClaim where
  type := .StorageChanged
  address := adr
  slot := slot
  oldRoot := (insertionOf H (beVal adr) acc slot x).hash H 0
  newRoot := (insertionOf H (beVal adr) acc slot x).hash H ((insertionOf H (beVal adr) acc slot x).storageRoot H)
  oldValue := 0
  newValue := v

/-- **C71 is false without restrictions.** The word `x` is inserted into the empty storage trie of an account.
The claims that the new state has `v` in the slot, and that it has `v'` there, are both accepted, with the same
commitments and for every challenge. -/
theorem c71_false (H : HashFn) {adr : List ℕ} (hadr : IsBytes adr ∧ adr.length = 20) {slot x v v' : ℕ}
    (hs : slot < 2 ^ 256) (acc : Account) (h0 : Account.wordHash H 0 ≠ 0)
    (hx : Account.wordHash H x ≠ Account.wordHash H 0) (hv : v < 2 ^ 256) (hv' : v' < 2 ^ 256) (hne : v ≠ v') :
    ∃ (w₀ : Witness Fr) (c d : StateClaim), c.Fits ∧ d.Fits ∧ c.newValue = v ∧ d.newValue = v' ∧
      c.Contradicts .new d .new ∧
      ∀ ρ, ρ ∈ AcceptingChallenges H 2049 2049 w₀ [c] ∧ ρ ∈ AcceptingChallenges H 2049 2049 w₀ [d] := by
  have ha : beVal adr < 2 ^ 160 := by
    have := beVal_lt _ hadr.1
    rw [hadr.2] at this
    exact this
  have z : zeroPairHash H = Account.wordHash H 0 := by simp [zeroPairHash, Account.wordHash]
  refine ⟨((insertionOf H (beVal adr) acc slot x).assembly H 0 (beVal adr) 0).witness,
    insertionClaim H adr acc slot x v, insertionClaim H adr acc slot x v', ⟨hadr, hs, ?_, hv⟩, ⟨hadr, hs, ?_, hv'⟩,
    rfl, rfl, ⟨rfl, rfl, .StorageChanged, slot, v, v', .inl ⟨rfl, fun _ => rfl, rfl⟩, .inl ⟨rfl, fun _ => rfl, rfl⟩, ?_⟩, ?_⟩
  · show 0 < 2 ^ 256; norm_num
  · show 0 < 2 ^ 256; norm_num
  · rintro (h | ⟨h, -⟩)
    · exact hne h
    · cases h
  have all : ∀ (y : ℕ) (ρ : Fr), ρ ∈ AcceptingChallenges H 2049 2049
      ((insertionOf H (beVal adr) acc slot x).assembly H 0 (beVal adr) 0).witness [insertionClaim H adr acc slot x y] := by
    intro y ρ
    obtain ⟨h1, -, r, hr, he⟩ := insertion_accepted H ρ ha (insertionOf H (beVal adr) acc slot x) hs (by rw [z]; exact h0)
      (by rw [z]; exact hx) (Spec.rlc ρ (beBytes 32 y))
    refine ⟨_, rfl, demo_first H 0 ρ _ _ _ _ (insertion_first H _ 0 ρ _ _ _), h1, ?_⟩
    intro c hc
    rw [List.mem_singleton] at hc
    subst hc
    refine ⟨r, hr, he.trans ?_⟩
    show [_, _, _, _, _, _, _, _] = [_, _, _, _, _, _, _, Spec.rlc ρ (beBytes 32 0)]
    rw [rlc_zero_word]
    rfl
  exact fun ρ => ⟨all v ρ, all v' ρ⟩

/-- The hypotheses of `c71_false` are met. -/
example : ∃ (w₀ : Witness Fr) (c d : StateClaim), c.Fits ∧ d.Fits ∧ c.newValue = 8 ∧ d.newValue = 9 ∧
      c.Contradicts .new d .new ∧
      ∀ ρ, ρ ∈ AcceptingChallenges linHash 2049 2049 w₀ [c] ∧ ρ ∈ AcceptingChallenges linHash 2049 2049 w₀ [d] :=
  c71_false linHash (adr := soundAdr) ⟨by unfold IsBytes; decide, by decide⟩ (slot := 3) (x := 8) (by norm_num)
    (soundAcct.account linHash) (by decide +kernel) (by decide +kernel) (by norm_num) (by norm_num) (by decide)

/-- The claims that the nonce was 5, and that it was 6, in the state with the same root. -/
theorem nonceClaim_contradicts : (nonceClaim 5).Contradicts .old (nonceClaim 6) .old :=
  ⟨rfl, rfl, .NonceChanged, 0, 5, 6, .inl ⟨rfl, (fun h => by cases h), rfl⟩, .inl ⟨rfl, (fun h => by cases h), rfl⟩, by
    rintro (h | ⟨h, -⟩)
    · exact absurd h (by norm_num)
    · cases h⟩

theorem nonceClaim_definite {old : ℕ} (h : old ≠ 0) : (nonceClaim old).Definite .old :=
  ⟨(by
      rintro (h' | ⟨h', -⟩)
      · exact h h'
      · cases h'), (fun h => by cases h)⟩

theorem soundWitness_free : CollisionFree linHash (PosInputs soundWitness 2049) :=
  soundWorld_safe.free.mono fun _ _ _ h => .inl h

/-- The claim about 5 is accepted, with this first phase; the one about 6 can only be accepted with it for few
challenges, and both in one circuit, in two circuits, or in circuits with the gaps closed too. -/
example : (AcceptingChallenges linHash 2049 2049 soundWitness [nonceClaim 5, nonceClaim 6]).ncard ≤
    31 * (3 * 2049 + 11).choose 2 :=
  c71_agree_partial (.of_mod (by norm_num) soundWitness_index) (nonceClaim_fits (by norm_num)) (nonceClaim_fits (by norm_num))
    (nonceClaim_definite (by norm_num)) (nonceClaim_definite (by norm_num)) soundWitness_free nonceClaim_contradicts

example : (AcceptingChallenges linHash 2049 2049 soundWitness [nonceClaim 5] ×ˢ
      AcceptingChallenges linHash 2049 2049 soundWitness [nonceClaim 6]).ncard ≤
    frModulus * (31 * (3 * 2049 + 6).choose 2 + 31 * (3 * 2049 + 6).choose 2) :=
  c71_two_circuits_partial (.of_mod (by norm_num) soundWitness_index) (.of_mod (by norm_num) soundWitness_index)
    (nonceClaim_fits (by norm_num)) (nonceClaim_fits (by norm_num)) (nonceClaim_definite (by norm_num))
    (nonceClaim_definite (by norm_num)) (soundWitness_free.mono fun _ _ _ h => h.elim id id) nonceClaim_contradicts

example : (PatchedChallenges linHash 2049 2049 soundWitness [nonceClaim 5, nonceClaim 6]).ncard ≤
    31 * (3 * 2049 + 11).choose 2 :=
  c71_patched (.of_mod (by norm_num) soundWitness_index) (nonceClaim_fits (by norm_num)) (nonceClaim_fits (by norm_num))
    soundWitness_free nonceClaim_contradicts

example : (PatchedChallenges linHash 2049 2049 soundWitness [nonceClaim 5] ×ˢ
      PatchedChallenges linHash 2049 2049 soundWitness [nonceClaim 6]).ncard ≤
    frModulus * (31 * (3 * 2049 + 6).choose 2 + 31 * (3 * 2049 + 6).choose 2) :=
  c71_patched_two_circuits (.of_mod (by norm_num) soundWitness_index) (.of_mod (by norm_num) soundWitness_index)
    (nonceClaim_fits (by norm_num)) (nonceClaim_fits (by norm_num))
    (soundWitness_free.mono fun _ _ _ h => h.elim id id) nonceClaim_contradicts

end Mpt.Props
