import Verif.Accepted
import Verif.Spec.Openings

set_option autoImplicit false

/-!
# Trie segments of an update

What the rows of a maximal block of trie rows (account trie or storage trie) prove: openings along
the key's bits, or an insertion.
-/

namespace Mpt
open Spec MptUpdate

variable {H : HashFn} {n U : ℕ} {w : Witness Fr} {b : ℤ} {m : ℕ}

/-- The hash relation of the witness: correct hashes whose inputs are on the Poseidon table. -/
abbrev PR (H : HashFn) (w : Witness Fr) (U : ℕ) : HashRel := hashRel H (PosInputs w U)

/-- The row relation with decoded types. -/
abbrev Row (H : HashFn) (w : Witness Fr) (U : ℕ) (r : ℤ) : Prop :=
  RowRel H w U r (segAt w r) (segAt w (r + 1)) (pathAt w (r - 1)) (pathAt w r) (pathAt w (r + 1))
    (proofAt w (r - 1)) (proofAt w r)

/-- `OldNode`/`NewNode` for either column. -/
def NodeAt (c : AdvCol) (w : Witness Fr) (U : ℕ) (r : ℤ) (d : Fr) : Prop :=
  P1 w U (lft (w.adv .direction r) (w.adv .sibling r) (w.adv c r))
    (rgt (w.adv .direction r) (w.adv .sibling r) (w.adv c r)) d (w.adv c (r - 1))

theorem nodeAt_spec (hp : PosSound H w U) {c : AdvCol} {r : ℤ} {d : Fr} (bit : Bool)
    (hb : w.adv .direction r = bitFr bit) (h : NodeAt c w U r d) :
    Spec.Node (PR H w U) bit ⟨w.adv .sibling r, d⟩ (w.adv c r) (w.adv c (r - 1)) := by
  have h1 := posRow_sound hp h
  rw [hb] at h1
  cases bit <;> simpa [Spec.Node, PR, hashRel, lft, rgt, bitFr] using h1

/-- Level proven by row `r`. -/
def stepAt (w : Witness Fr) (r : ℤ) : Step := ⟨w.adv .sibling r, w.adv .domain r⟩

/-- Levels proven by the `j` rows after row `b`. -/
def stepsFrom (w : Witness Fr) (b : ℤ) (j : ℕ) : List Step :=
  (List.range j).map (fun k : ℕ => stepAt w (b + (k : ℤ) + 1))

@[simp] theorem stepsFrom_length (w : Witness Fr) (b : ℤ) (j : ℕ) :
    (stepsFrom w b j).length = j := by simp [stepsFrom]

theorem stepsFrom_succ (w : Witness Fr) (b : ℤ) (j : ℕ) :
    stepsFrom w b (j + 1) = stepsFrom w b j ++ [stepAt w (b + j + 1)] := by
  simp [stepsFrom, List.range_succ]

theorem opens_rows (hp : PosSound H w U) (c : AdvCol) (key : Fr) (b : ℤ) (i j : ℕ)
    (hdir : ∀ k < j, w.adv .direction (b + i + k + 1) = bitFr (keyBit key (i + k)))
    (hn : ∀ k < j, NodeAt c w U (b + i + k + 1) (w.adv .domain (b + i + k + 1))) :
    Opens (PR H w U) key i (stepsFrom w (b + i) j) (w.adv c (b + i + j)) (w.adv c (b + i)) := by
  induction j with
  | zero => simp [stepsFrom, Opens]
  | succ j ih =>
    rw [stepsFrom_succ]
    have h1 := ih (fun k hk => hdir k (by omega)) (fun k hk => hn k (by omega))
    refine opens_snoc _ _ _ _ _ _ (w.adv c (b + i + j)) _ h1 ?_
    have h2 := nodeAt_spec hp _ (hdir j (by omega)) (hn j (by omega))
    have e : b + (i : ℤ) + ((j + 1 : ℕ) : ℤ) = b + i + j + 1 := by push_cast; ring
    rw [add_sub_cancel_right] at h2
    rw [e, stepsFrom_length]
    exact h2

/-- A block of `m` trie rows after a row `b` of depth 0. -/
structure TrieSeg (H : HashFn) (w : Witness Fr) (U : ℕ) (b : ℤ) (m : ℕ) : Prop where
  tab : TablesOK w U
  pos : PosSound H w U
  rows : ∀ j < m, Row H w U (b + (j : ℕ) + 1)
  on : ∀ j < m, w.fix .selector (b + (j : ℕ) + 1) = 1
  trie : ∀ j < m, segAt w (b + (j : ℕ) + 1) = .AccountTrie ∨ segAt w (b + (j : ℕ) + 1) = .StorageTrie
  depth0 : w.adv .depth b = 0

namespace TrieSeg

theorem row_keep (T : TrieSeg H w U b m) {j : ℕ} (hj : j < m) :
    w.adv .key (b + j + 1) = w.adv .key (b + j) ∧
    w.adv .otherKey (b + j + 1) = w.adv .otherKey (b + j) := by
  have h := (T.rows j hj).common.keepKey
  simp only [add_sub_cancel_right] at h
  apply h <;> rcases T.trie j hj with h2 | h2 <;> rw [h2] <;> decide

theorem key_eq (T : TrieSeg H w U b m) : ∀ j ≤ m, w.adv .key (b + j) = w.adv .key b ∧
    w.adv .otherKey (b + j) = w.adv .otherKey b := by
  intro j
  induction j with
  | zero => intro _; simp
  | succ j ih =>
    intro hj
    have e : b + ((j + 1 : ℕ) : ℤ) = b + j + 1 := by push_cast; ring
    rw [e, (T.row_keep (by omega)).1, (T.row_keep (by omega)).2]
    exact ih (by omega)

theorem depth_eq (T : TrieSeg H w U b m) : ∀ j ≤ m, w.adv .depth (b + j) = (j : Fr) := by
  intro j
  induction j with
  | zero => intro _; simpa using T.depth0
  | succ j ih =>
    intro hj
    have e : b + ((j + 1 : ℕ) : ℤ) = b + j + 1 := by push_cast; ring
    have h := ((T.rows j (by omega)).common.trie (T.trie j (by omega))).2.1
    rw [add_sub_cancel_right, ih (by omega)] at h
    rw [e, h]; push_cast; ring

theorem bit (T : TrieSeg H w U b m) {j : ℕ} (hj : j < m) (hm : m < 2 ^ 64) :
    w.adv .direction (b + j + 1) = bitFr (keyBit (w.adv .key b) j) ∧ j < 256 ∧
    (pathAt w (b + j + 1) = .Common →
      w.adv .direction (b + j + 1) = bitFr (keyBit (w.adv .otherKey b) j)) := by
  obtain ⟨h1, h2, h3⟩ := (T.rows j hj).common.trie (T.trie j hj)
  have e : b + ((j + 1 : ℕ) : ℤ) = b + j + 1 := by push_cast; ring
  have hd : w.adv .depth (b + j + 1) - 1 = (j : Fr) := by
    rw [← e, T.depth_eq (j + 1) (by omega)]; push_cast; ring
  have hk := T.key_eq (j + 1) (by omega)
  rw [e] at hk
  rw [hd, hk.1] at h1
  have hsel : ∃ r, w.fix .selector r = 1 ∧ w.adv .depth r = (j + 1 : ℕ) :=
    ⟨_, T.on j hj, by rw [← e, T.depth_eq (j + 1) (by omega)]⟩
  obtain ⟨hk1, hk3⟩ := T.tab.keyBit _ _ j (by omega) hsel h1
  refine ⟨hk3, hk1, fun hp => ?_⟩
  have h4 := h3 hp
  rw [hd, hk.2] at h4
  exact (T.tab.keyBit _ _ j (by omega) hsel h4).2

theorem len (T : TrieSeg H w U b m) (hm : m < 2 ^ 64) : m ≤ 256 := by
  rcases Nat.eq_zero_or_pos m with h | h
  · omega
  · have := (T.bit (j := m - 1) (by omega) hm).2.1
    omega

theorem dom (T : TrieSeg H w U b m) {j : ℕ} (hj : j < m) : IsBranch (w.adv .domain (b + j + 1)) := by
  obtain ⟨d, hd, he⟩ := (T.rows j hj).domain
  rw [he]
  rcases T.trie j hj with h2 | h2 <;> rw [h2] at hd <;>
    simp only [domains, List.mem_cons, List.not_mem_nil, or_false] at hd <;>
    rcases hd with rfl | rfl | rfl | rfl <;> simp [IsBranch]

theorem good (T : TrieSeg H w U b m) (hm : m < 2 ^ 64) (i j : ℕ) (hij : i + j ≤ m) :
    GoodPath (stepsFrom w (b + i) j) := by
  refine ⟨by have := T.len hm; simp; omega, ?_⟩
  intro s hs
  simp only [stepsFrom, List.mem_map, List.mem_range] at hs
  obtain ⟨k, hk, rfl⟩ := hs
  have := T.dom (j := i + k) (by omega)
  simpa [stepAt, add_assoc] using this

theorem bitFr_inj {x y : Bool} (h : bitFr x = bitFr y) : x = y := by
  cases x <;> cases y <;> simp_all [bitFr]

/-- A block of Common rows followed by a Common row or by the end of the update. -/
theorem common (T : TrieSeg H w U b m) (hm : m < 2 ^ 64)
    (hc : ∀ j < m, pathAt w (b + (j : ℕ) + 1) = .Common)
    (hn : pathAt w (b + m + 1) = .Common ∨ pathAt w (b + m + 1) = .Start ∨ m = 0) :
    ∃ path, path.length = m ∧ GoodPath path ∧
      Opens (PR H w U) (w.adv .key b) 0 path (w.adv .oldHash (b + m)) (w.adv .oldHash b) ∧
      Opens (PR H w U) (w.adv .key b) 0 path (w.adv .newHash (b + m)) (w.adv .newHash b) ∧
      SharesPrefix (w.adv .otherKey b) (w.adv .key b) m := by
  have hrow : ∀ j < m, NodeAt .oldHash w U (b + j + 1) (w.adv .domain (b + j + 1)) ∧
      NodeAt .newHash w U (b + j + 1) (w.adv .domain (b + j + 1)) := by
    intro j hj
    have h := (T.rows j hj).path
    rw [hc j hj] at h
    have hp' : pathAt w (b + j + 1 + 1) = .Common ∨ pathAt w (b + j + 1 + 1) = .Start := by
      rcases Nat.lt_or_ge (j + 1) m with h2 | h2
      · have := hc (j + 1) h2
        push_cast at this
        rw [← add_assoc] at this
        exact .inl this
      · have : m = j + 1 := by omega
        subst this
        push_cast at hn
        rw [← add_assoc] at hn
        rcases hn with h3 | h3 | h3
        · exact .inl h3
        · exact .inr h3
        · exact absurd h3 (by simp)
    rcases hp' with h2 | h2 <;> rw [h2] at h <;> exact h
  refine ⟨stepsFrom w b m, by simp, ?_, ?_, ?_, ?_⟩
  · simpa using T.good hm 0 m (by omega)
  · have := opens_rows T.pos .oldHash (w.adv .key b) b 0 m
      (fun k hk => by simpa using (T.bit hk hm).1) (fun k hk => by simpa using (hrow k hk).1)
    simpa using this
  · have := opens_rows T.pos .newHash (w.adv .key b) b 0 m
      (fun k hk => by simpa using (T.bit hk hm).1) (fun k hk => by simpa using (hrow k hk).2)
    simpa using this
  · intro i hi
    have := T.bit hi hm
    exact bitFr_inj (by rw [← this.2.2 (hc i hi), this.1])

theorem nextDomain_of {d : Fr} (hb : IsBranch d) (he : Extendable d) (bit : Bool) :
    NextDomain d bit (newDomVal d (bitFr bit)) := by
  rcases hb with rfl | rfl | rfl | rfl
  · left; refine ⟨rfl, ?_⟩; cases bit <;> simp [newDomVal, bitFr]
  · right; refine ⟨.inl rfl, ?_⟩; simp [newDomVal]
  · right; refine ⟨.inr rfl, ?_⟩; simp [newDomVal]
  · simp [Extendable] at he

/-- A block of `c` common rows followed by `m - c` rows that extend only side `B`. -/
theorem inserted (T : TrieSeg H w U b m) (hm : m < 2 ^ 64) (A B : AdvCol) (c : ℕ) (hc : c ≤ m)
    (hcom : ∀ j, j + 1 < c → NodeAt A w U (b + (j : ℕ) + 1) (w.adv .domain (b + (j : ℕ) + 1)) ∧
      NodeAt B w U (b + (j : ℕ) + 1) (w.adv .domain (b + (j : ℕ) + 1)))
    (hsplit : ∀ j, j + 1 = c → Extendable (w.adv .domain (b + (j : ℕ) + 1)) ∧
      NodeAt A w U (b + (j : ℕ) + 1) (w.adv .domain (b + (j : ℕ) + 1)) ∧
      (if c = m then w.adv A (b + (j : ℕ) + 1) = 0 ∧
          NodeAt B w U (b + (j : ℕ) + 1) (w.adv .domain (b + (j : ℕ) + 1))
        else NodeAt B w U (b + (j : ℕ) + 1)
          (newDomVal (w.adv .domain (b + (j : ℕ) + 1)) (w.adv .direction (b + (j : ℕ) + 1)))))
    (hext : ∀ j, c ≤ j → j < m → w.adv A (b + (j : ℕ) + 1) = w.adv A (b + (j : ℕ)) ∧
      NodeAt B w U (b + (j : ℕ) + 1) (w.adv .domain (b + (j : ℕ) + 1)) ∧
      w.adv .sibling (b + (j : ℕ) + 1) = if j + 1 < m then 0 else w.adv A (b + (j : ℕ) + 1)) :
    ∃ pre ext, pre.length = c ∧ pre.length + ext.length = m ∧ GoodPath pre ∧ GoodPath ext ∧
      Inserted (PR H w U) (w.adv .key b) ext (w.adv A (b + m)) (w.adv B (b + m)) pre
        (w.adv A b) (w.adv B b) ∧ ExtSiblings ext (w.adv A (b + m)) ∧
      pre = stepsFrom w b c ∧ ext = stepsFrom w (b + (c : ℕ)) (m - c) := by
  have hA : ∀ j, c ≤ j → j ≤ m → w.adv A (b + (j : ℕ)) = w.adv A (b + (c : ℕ)) := by
    intro j hj
    induction j, hj using Nat.le_induction with
    | base => intro _; rfl
    | succ j hj ih =>
      intro hjm
      have e : b + ((j + 1 : ℕ) : ℤ) = b + j + 1 := by push_cast; ring
      rw [e, (hext j hj (by omega)).1]
      exact ih (by omega)
  have hextO : Opens (PR H w U) (w.adv .key b) c (stepsFrom w (b + c) (m - c)) (w.adv B (b + m))
      (w.adv B (b + c)) := by
    have := opens_rows T.pos B (w.adv .key b) b c (m - c)
      (fun k hk => by
        have := (T.bit (j := c + k) (by omega) hm).1
        push_cast at this; rwa [← add_assoc] at this)
      (fun k hk => by
        have := (hext (c + k) (by omega) (by omega)).2.1
        push_cast at this; rwa [← add_assoc] at this)
    rwa [show b + (c : ℤ) + ((m - c : ℕ) : ℤ) = b + m by omega] at this
  have hsib : ExtSiblings (stepsFrom w (b + c) (m - c)) (w.adv A (b + m)) := by
    rcases Nat.eq_or_lt_of_le hc with h | h
    · left; subst h; simp [stepsFrom]
    · right
      obtain ⟨e, he⟩ : ∃ e, m - c = e + 1 := ⟨m - c - 1, by omega⟩
      refine ⟨e, ?_⟩
      rw [he, stepsFrom_succ, List.map_append]
      congr 1
      · rw [List.eq_replicate_iff]
        refine ⟨by simp, ?_⟩
        intro x hx
        simp only [stepsFrom, List.map_map, List.mem_map, List.mem_range, Function.comp] at hx
        obtain ⟨k, hk, rfl⟩ := hx
        have := (hext (c + k) (by omega) (by omega)).2.2
        rw [if_pos (by omega)] at this
        push_cast at this
        rw [← add_assoc] at this
        exact this
      · have := (hext (c + e) (by omega) (by omega)).2.2
        rw [if_neg (by omega)] at this
        have e2 : b + ((c + e : ℕ) : ℤ) + 1 = b + m := by omega
        have e3 : b + (c : ℤ) + (e : ℤ) + 1 = b + m := by omega
        rw [e2] at this
        simp only [List.map_cons, List.map_nil, stepAt, e3, this]
  rcases Nat.eq_zero_or_pos c with h0 | hpos
  · subst h0
    refine ⟨[], stepsFrom w b m, rfl, by simp, ⟨by simp, by simp⟩,
      by simpa using T.good hm 0 m (by omega), ?_, by simpa using hsib, rfl, by simp⟩
    have e1 : w.adv A b = w.adv A (b + m) := by
      have := hA m (by omega) (by omega); simpa using this.symm
    rw [e1]
    exact .root (by simpa using hextO)
  · obtain ⟨k, rfl⟩ : ∃ k, c = k + 1 := ⟨c - 1, by omega⟩
    obtain ⟨s1, s2, s3⟩ := hsplit k rfl
    have ek : b + ((k + 1 : ℕ) : ℤ) = b + k + 1 := by push_cast; ring
    have hpreA := opens_rows T.pos A (w.adv .key b) b 0 k
      (fun j hj => by simpa using (T.bit (j := j) (by omega) hm).1)
      (fun j hj => by simpa using (hcom j (by omega)).1)
    have hpreB := opens_rows T.pos B (w.adv .key b) b 0 k
      (fun j hj => by simpa using (T.bit (j := j) (by omega) hm).1)
      (fun j hj => by simpa using (hcom j (by omega)).2)
    simp only [Nat.cast_zero, add_zero] at hpreA hpreB
    have hb := (T.bit (j := k) (by omega) hm).1
    have hAk : w.adv A (b + k + 1) = w.adv A (b + m) := by
      rw [← ek]; exact (hA m (by omega) le_rfl).symm
    have nA := nodeAt_spec T.pos _ hb s2
    rw [add_sub_cancel_right, hAk] at nA
    refine ⟨stepsFrom w b k ++ [stepAt w (b + k + 1)], stepsFrom w (b + (k + 1 : ℕ)) (m - (k + 1)),
      by simp, by simp; omega, ?_, by simpa using T.good hm (k + 1) (m - (k + 1)) (by omega), ?_,
      hsib, (stepsFrom_succ w b k).symm, rfl⟩
    · rw [← stepsFrom_succ]; simpa using T.good hm 0 (k + 1) (by omega)
    · have hl : (stepsFrom w b k).length = k := by simp
      by_cases hcm : k + 1 = m
      · rw [if_pos hcm] at s3
        have nB := nodeAt_spec T.pos _ hb s3.2
        rw [add_sub_cancel_right] at nB
        refine .below (domain' := w.adv .domain (b + k + 1)) (y := w.adv B (b + k + 1))
          hpreA hpreB (by rw [hl]; exact nA) (by rw [hl]; exact nB) ?_ ?_
        · rw [hl, ← ek]; exact hextO
        · rw [if_pos (by simp [stepsFrom, hcm])]
          exact ⟨rfl, by rw [← hAk]; exact s3.1⟩
      · rw [if_neg hcm, hb] at s3
        have nB := nodeAt_spec T.pos _ hb s3
        rw [add_sub_cancel_right] at nB
        refine .below (domain' := _) (y := w.adv B (b + k + 1))
          hpreA hpreB (by rw [hl]; exact nA) (by rw [hl]; exact nB) ?_ ?_
        · rw [hl, ← ek]; exact hextO
        · rw [if_neg (by
            intro h0
            have := congrArg List.length h0
            simp at this; omega), hl]
          exact nextDomain_of (T.dom (by omega)) s1 _

/-- Path types of a block: common rows, then rows of one extension kind. -/
theorem paths (T : TrieSeg H w U b m) (hs : ∀ j < m, pathAt w (b + (j : ℕ) + 1) ≠ .Start) :
    ∃ c ≤ m, ∃ q, (q = .ExtensionNew ∨ q = .ExtensionOld) ∧
      (∀ j < c, pathAt w (b + (j : ℕ) + 1) = .Common) ∧
      ∀ j, c ≤ j → j < m → pathAt w (b + (j : ℕ) + 1) = q := by
  have main : ∀ k ≤ m, ∃ c ≤ k, ∃ q, (q = PathType.ExtensionNew ∨ q = .ExtensionOld) ∧
      (∀ j < c, pathAt w (b + (j : ℕ) + 1) = .Common) ∧
      ∀ j, c ≤ j → j < k → pathAt w (b + (j : ℕ) + 1) = q := by
    intro k
    induction k with
    | zero => intro _; exact ⟨0, le_rfl, .ExtensionNew, .inl rfl, by simp, by omega⟩
    | succ k ih =>
      intro hk
      obtain ⟨c, hc, q, hq, h1, h2⟩ := ih (by omega)
      have hns := hs k (by omega)
      rcases Nat.eq_or_lt_of_le hc with he | hlt
      · subst he
        cases hp : pathAt w (b + (c : ℕ) + 1) with
        | Start => exact absurd hp hns
        | Common =>
          refine ⟨c + 1, le_rfl, q, hq, fun j hj => ?_, by omega⟩
          rcases Nat.eq_or_lt_of_le (Nat.lt_succ_iff.1 hj) with h | h
          · rw [h]; exact hp
          · exact h1 j h
        | ExtensionOld =>
          refine ⟨c, by omega, .ExtensionOld, .inr rfl, h1, fun j hj1 hj2 => ?_⟩
          rw [show j = c by omega]; exact hp
        | ExtensionNew =>
          refine ⟨c, by omega, .ExtensionNew, .inl rfl, h1, fun j hj1 hj2 => ?_⟩
          rw [show j = c by omega]; exact hp
      · refine ⟨c, by omega, q, hq, h1, fun j hj1 hj2 => ?_⟩
        rcases Nat.lt_or_ge j k with h | h
        · exact h2 j hj1 h
        · have hjk : j = k := by omega
          subst hjk
          obtain ⟨i, rfl⟩ : ∃ i, j = i + 1 := ⟨j - 1, by omega⟩
          have hprev := h2 i (by omega) (by omega)
          have hnext := (T.rows i (by omega)).pathNext
          rw [hprev] at hnext
          push_cast at hns ⊢
          rw [← add_assoc] at hns ⊢
          rcases hq with rfl | rfl <;>
            simp only [forwardTransitions, pathTransitions, List.filter] at hnext <;>
            simp at hnext <;> rcases hnext with h3 | h3
          · exact h3
          · exact absurd h3 hns
          · exact h3
          · exact absurd h3 hns
  exact main m le_rfl

end TrieSeg
end Mpt
