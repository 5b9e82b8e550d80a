import Verif.AccountLeaf

set_option autoImplicit false

/-!
# Soundness of the account-level claims (C16, C19-C24, C27, C29)
-/

namespace Mpt
open Spec MptUpdate

variable {H : HashFn} {n U : ℕ} {w : Witness Fr} {s e r a : ℤ}

/-! ## Values read through the lookup tables -/

theorem TablesOK.bytes8 (T : TablesOK w U) {v : Fr} (h : InBytes w U v 7) :
    ∃ x : ℕ, x < 2 ^ 64 ∧ v = x := by
  have := T.bytes v 7 (by norm_num) (by exact_mod_cast h)
  norm_num at this
  simpa using this

theorem TablesOK.rlc31 (T : TablesOK w U) {v x : Fr} (h : InRlc w U v 30 x) :
    ∃ b : ℕ, b < 2 ^ 248 ∧ v = b ∧ x = Spec.rlc w.chal (beBytes 31 b) := by
  obtain ⟨l, h1, h2, h3, h4⟩ := T.rlc v x 30 (by norm_num) (by exact_mod_cast h)
  have h2' : l.length = 31 := h2
  have hb := beBytes_beVal l h1
  have hlt := beVal_lt l h1
  rw [h2'] at hb hlt
  exact ⟨beVal l, lt_of_lt_of_eq hlt (by norm_num), h3, by rw [hb]; exact h4⟩

/-- C16: the word gadget binds a hash, a 256-bit word and the RLC of the word's 32 bytes. -/
theorem TablesOK.word (T : TablesOK w U) (hp : PosSound H w U)
    {wordHash high low rlcWord rlcHigh rlcLow : AdvCol}
    (h : WordRel w U r wordHash high low rlcWord rlcHigh rlcLow) :
    ∃ x : ℕ, IsWord (PR H w U) x (w.adv wordHash r) ∧
      w.adv rlcWord r = Spec.rlc w.chal (beBytes 32 x) := by
  obtain ⟨_, _, h3, h4, h5, h6⟩ := h
  obtain ⟨l1, a1, a2, a3, a4⟩ := T.rlc _ _ 15 (by norm_num) (by exact_mod_cast h4)
  obtain ⟨l2, b1, b2, b3, b4⟩ := T.rlc _ _ 15 (by norm_num) (by exact_mod_cast h5)
  have a2' : l1.length = 16 := a2
  have b2' : l2.length = 16 := b2
  have hb1 := beVal_lt l1 a1
  have hb2 := beVal_lt l2 b1
  rw [a2'] at hb1
  rw [b2'] at hb2
  norm_num at hb1 hb2
  have hval : beVal (l1 ++ l2) = beVal l1 * 2 ^ 128 + beVal l2 := by
    rw [beVal_append, b2']; norm_num
  have hbytes : IsBytes (l1 ++ l2) := isBytes_append.2 ⟨a1, b1⟩
  have hlen : (l1 ++ l2).length = 32 := by simp [a2', b2']
  refine ⟨beVal (l1 ++ l2), ⟨?_, ?_⟩, ?_⟩
  · have := beVal_lt _ hbytes
    rw [hlen] at this
    exact lt_of_lt_of_eq this (by norm_num)
  · have e1 : beVal (l1 ++ l2) / 2 ^ 128 = beVal l1 := by
      rw [hval]; norm_num; omega
    have e2 : beVal (l1 ++ l2) % 2 ^ 128 = beVal l2 := by
      rw [hval]; norm_num; omega
    rw [e1, e2, ← a3, ← b3]
    exact posRow_sound hp h3
  · have hb := beBytes_beVal _ hbytes
    rw [hlen] at hb
    rw [hb, rlc_append, b2', h6, a4, b4]

theorem two64_eq : two64 = ((2 ^ 64 : ℕ) : Fr) := by
  simp only [two64]; norm_num

theorem two64_ne : two64 ≠ 0 := by
  have h32 : ((2 ^ 32 : ℕ) : Fr) ≠ 0 := by
    intro h
    have hb := frModulus_big
    have h2 : (2 : ℕ) ^ 32 = 0 :=
      natCast_inj_of_lt (a := 2 ^ 32) (b := 0) (by omega) (by omega) (by simpa using h)
    norm_num at h2
  exact mul_ne_zero h32 h32

theorem eq_of_div {x v c : Fr} (h : (x - v) * two64⁻¹ = c) : x = v + two64 * c := by
  rw [← h]
  field_simp [two64_ne]
  ring

namespace Run

theorem proof_rel (R : Run H n U w s e) (h1 : s ≤ r) (h2 : r < e) :
    ProofRel H w U r (segAt w r) (segAt w (r + 1)) (pathAt w r) (proofAt w s) := by
  have := (R.row h1 h2).proof
  rwa [(R.keep' h1 h2).1] at this

/-- Runs of the four account proof types that may end without a leaf. -/
theorem empty_end (R : Run H n U w s e) (T : TablesOK w U) (m : ℕ) (h2 : s + m + 1 = e)
    (hseg : ∀ j < m, segAt w (s + (j : ℕ) + 1) = .AccountTrie)
    (hE : EmptyEnd w U (s + m) (segAt w (s + m + 1))) :
    NothingThere (PR H w U) (w.adv .key s) (w.adv .oldHash s) (w.adv .newHash s)
      (w.adv .oldValue s) (w.adv .newValue s) ∨
    (proofAt w s ∈ [MPTProofType.NonceChanged, .BalanceChanged, .StorageChanged] ∧
      w.adv .oldValue s = 0 ∧ w.adv .newValue s = 0 ∧
      PushedDown (PR H w U) (w.adv .key s) (w.adv .oldHash s) (w.adv .newHash s)) := by
  have hst : segAt w (s + m + 1) = .Start := by rw [h2]; exact R.stop
  obtain ⟨g1, g2, g3⟩ := hE hst
  have kp := R.keep' (r := s + m) (by omega) (by omega)
  have hov : w.adv .oldValue s = 0 := by rw [← kp.2.2.1]; exact g3.1
  have hnv : w.adv .newValue s = 0 := by rw [← kp.2.2.2, ← g2, kp.2.2.1]; exact hov
  rcases R.acct_end_cases T m h2 hseg with hC | ⟨hX, _, _, ht⟩
  · exact .inl (R.nothing_there T m (by omega) hseg hC .oldHash rfl g1 hnv g3)
  · exact .inr ⟨ht, hov, hnv, R.pushed_down T m h2 hseg hX g1 g3⟩

theorem seg_end (R : Run H n U w s e) (m : ℕ) (_h : s + m < e)
    (hseg : ∀ j < m, segAt w (s + (j : ℕ) + 1) = .AccountTrie) :
    segAt w (s + m) = .Start ∨ segAt w (s + m) = .AccountTrie := by
  rcases Nat.eq_zero_or_pos m with h | h
  · left; subst h; simpa using R.start
  · right
    have := hseg (m - 1) (by omega)
    rwa [show s + ((m - 1 : ℕ) : ℤ) + 1 = s + m by omega] at this

/-- The account opened by a side whose directions are `1, 0, 0`. -/
theorem account_left (hp : PosSound H w U) (c : AdvCol) (N : LeafNodes c w U a)
    (d0 : w.adv .direction a = 1) (d1 : w.adv .direction (a + 1) = 0)
    (d2 : w.adv .direction (a + 2) = 0) :
    IsAccount (PR H w U) (w.adv .sibling a) (w.adv c (a + 2)) (w.adv .sibling (a + 2))
      (w.adv .sibling (a + 1)) (w.adv c (a - 1)) := by
  have n0 := node1 hp d0 N.n0
  have n1 := node0 hp d1 N.n1
  have n2 := node0 hp d2 N.n2
  rw [show a + 1 - 1 = a by ring] at n1
  rw [show a + 2 - 1 = a + 1 by ring] at n2
  exact ⟨_, _, n2, n1, n0⟩

/-- The account opened by a side whose directions are `1, 0, 1`. -/
theorem account_right (hp : PosSound H w U) (c : AdvCol) (N : LeafNodes c w U a)
    (d0 : w.adv .direction a = 1) (d1 : w.adv .direction (a + 1) = 0)
    (d2 : w.adv .direction (a + 2) = 1) :
    IsAccount (PR H w U) (w.adv .sibling a) (w.adv .sibling (a + 2)) (w.adv c (a + 2))
      (w.adv .sibling (a + 1)) (w.adv c (a - 1)) := by
  have n0 := node1 hp d0 N.n0
  have n1 := node0 hp d1 N.n1
  have n2 := node1 hp d2 N.n2
  rw [show a + 1 - 1 = a by ring] at n1
  rw [show a + 2 - 1 = a + 1 by ring] at n2
  exact ⟨_, _, n2, n1, n0⟩

/-- C20. -/
theorem nonce_sound (R : Run H n U w s e) (T : TablesOK w U) (ht : proofAt w s = .NonceChanged) :
    NothingThere (PR H w U) (w.adv .key s) (w.adv .oldHash s) (w.adv .newHash s)
      (w.adv .oldValue s) (w.adv .newValue s) ∨
    NonceUpdate (PR H w U) (w.adv .key s) (w.adv .oldHash s) (w.adv .newHash s)
      (w.adv .oldValue s) (w.adv .newValue s) ∨
    NonceCreation (PR H w U) H (w.adv .key s) (w.adv .oldHash s) (w.adv .newHash s)
      (w.adv .oldValue s) (w.adv .newValue s) ∨
    (w.adv .oldValue s = 0 ∧ w.adv .newValue s = 0 ∧
      PushedDown (PR H w U) (w.adv .key s) (w.adv .oldHash s) (w.adv .newHash s)) := by
  obtain ⟨m, h1, h2, h3⟩ := R.acct
  have pr : ∀ r, s ≤ r → r < e → NonceRel H w U r (segAt w r) (segAt w (r + 1)) (pathAt w r) := by
    intro r h1 h2
    have := R.proof_rel h1 h2
    rwa [ht] at this
  rcases h3 with ⟨h3, _⟩ | ⟨h3, hl⟩
  · have hE : EmptyEnd w U (s + m) (segAt w (s + m + 1)) := by
      have := (pr (s + m) (by omega) h1).2
      rcases R.seg_end m h1 h2 with h | h <;> rw [h] at this <;> exact this
    rcases R.empty_end T m h3 h2 hE with h | h
    · exact .inl h
    · exact .inr (.inr (.inr h.2))
  · have L := R.leaf4 (a := s + m + 1) (by omega) h3 hl (by rw [ht]; decide)
    have hlt := L.lt
    set a := s + m + 1 with ha
    have q0 := (pr a (by omega) (by omega)).2
    have q1 := (pr (a + 1) (by omega) (by omega)).2
    have q2 := (pr (a + 2) (by omega) (by omega)).2
    have q3 := (pr (a + 3) (by omega) (by omega)).2
    rw [L.l0] at q0; rw [L.l1] at q1; rw [L.l2] at q2; rw [L.l3] at q3
    have ea : a - 1 = s + m := by omega
    have kp := R.keep' (r := a + 3) (by omega) (by omega)
    obtain ⟨y0, y1, y2, y3⟩ := q3
    obtain ⟨nn, hnn, hnv⟩ := T.bytes8 y1
    rcases R.acct_leaf_cases T m h3 h2 hl with ⟨hp, hsame⟩ | ⟨hp, _, hov, hins⟩
    · obtain ⟨p3, NO, NN⟩ := R.leaf_common (by omega) L hp
      obtain ⟨z1, z2, z3⟩ := y2 p3
      obtain ⟨no, hno, hov⟩ := T.bytes8 z1
      obtain ⟨cs, hcs, hcv⟩ := T.bytes8 z3
      right; left
      have eo := eq_of_div hcv
      have en := eq_of_div (z2.symm.trans hcv)
      have lo := node0 R.acc.pos y0 NO.n3
      have ln := node0 R.acc.pos y0 NN.n3
      rw [show a + 3 - 1 = a + 2 by ring] at lo ln
      have co : w.adv .oldHash (a + 3) = nonceCode no cs := by
        rw [eo, hov, two64_eq, nonceCode]; push_cast; ring
      have cn : w.adv .newHash (a + 3) = nonceCode nn cs := by
        rw [en, hnv, two64_eq, nonceCode]; push_cast; ring
      rw [co] at lo; rw [cn] at ln
      exact ⟨_, _, _, _, no, nn, cs, _, _, _, _, hno, hnn, hcs, by rw [← hov, kp.2.2.1],
        by rw [← hnv, kp.2.2.2], lo, ln, account_left R.acc.pos _ NO q0 q1.1 q2.1,
        account_left R.acc.pos _ NN q0 q1.1 q2.1, hsame _ _ (by rw [ea]) (by rw [ea])⟩
    · obtain ⟨⟨p1, p2, p3⟩, NN, _⟩ := R.leaf_ext (by omega) L hp
      obtain ⟨z1, z2, z3⟩ := y3 p3
      right; right; left
      have en := eq_of_div z2
      have ln := node0 R.acc.pos y0 NN.n3
      rw [show a + 3 - 1 = a + 2 by ring, z3] at ln
      have cn : w.adv .newHash (a + 3) = nonceCode nn 0 := by
        rw [en, hnv, nonceCode]; push_cast; ring
      rw [cn] at ln
      have hacc := account_left R.acc.pos _ NN q0 q1.1 q2.1
      rw [q1.2 p1, q2.2 p2] at hacc
      exact ⟨_, nn, _, _, hnn, hov, by rw [← hnv, kp.2.2.2], ln, hacc, hins _ (by rw [ea])⟩

/-- C21. -/
theorem balance_sound (R : Run H n U w s e) (T : TablesOK w U)
    (ht : proofAt w s = .BalanceChanged) :
    NothingThere (PR H w U) (w.adv .key s) (w.adv .oldHash s) (w.adv .newHash s)
      (w.adv .oldValue s) (w.adv .newValue s) ∨
    BalanceUpdate (PR H w U) w.chal (w.adv .key s) (w.adv .oldHash s) (w.adv .newHash s)
      (w.adv .oldValue s) (w.adv .newValue s) ∨
    BalanceCreation (PR H w U) w.chal H (w.adv .key s) (w.adv .oldHash s) (w.adv .newHash s)
      (w.adv .oldValue s) (w.adv .newValue s) ∨
    (w.adv .oldValue s = 0 ∧ w.adv .newValue s = 0 ∧
      PushedDown (PR H w U) (w.adv .key s) (w.adv .oldHash s) (w.adv .newHash s)) := by
  obtain ⟨m, h1, h2, h3⟩ := R.acct
  have pr : ∀ r, s ≤ r → r < e → BalanceRel H w U r (segAt w r) (segAt w (r + 1)) (pathAt w r) := by
    intro r h1 h2
    have := R.proof_rel h1 h2
    rwa [ht] at this
  rcases h3 with ⟨h3, _⟩ | ⟨h3, hl⟩
  · have hE : EmptyEnd w U (s + m) (segAt w (s + m + 1)) := by
      have := pr (s + m) (by omega) h1
      rcases R.seg_end m h1 h2 with h | h <;> rw [h] at this <;> exact this
    rcases R.empty_end T m h3 h2 hE with h | h
    · exact .inl h
    · exact .inr (.inr (.inr h.2))
  · have L := R.leaf4 (a := s + m + 1) (by omega) h3 hl (by rw [ht]; decide)
    have hlt := L.lt
    set a := s + m + 1 with ha
    have q0 := pr a (by omega) (by omega)
    have q1 := pr (a + 1) (by omega) (by omega)
    have q2 := pr (a + 2) (by omega) (by omega)
    have q3 := pr (a + 3) (by omega) (by omega)
    rw [L.l0] at q0; rw [L.l1] at q1; rw [L.l2] at q2; rw [L.l3] at q3
    have ea : a - 1 = s + m := by omega
    have kp := R.keep' (r := a + 3) (by omega) (by omega)
    obtain ⟨y0, y1, y2, y3⟩ := q3
    obtain ⟨bn, hbn, hbv, hnv⟩ := T.rlc31 y2
    rcases R.acct_leaf_cases T m h3 h2 hl with ⟨hp, hsame⟩ | ⟨hp, _, hov, hins⟩
    · obtain ⟨p3, NO, NN⟩ := R.leaf_common (by omega) L hp
      obtain ⟨bo, hbo, hbov, hov⟩ := T.rlc31 (y1 p3)
      right; left
      have lo := node1 R.acc.pos y0 NO.n3
      have ln := node1 R.acc.pos y0 NN.n3
      rw [show a + 3 - 1 = a + 2 by ring] at lo ln
      rw [hbov] at lo; rw [hbv] at ln
      exact ⟨_, _, _, _, bo, bn, _, _, _, _, hbo, hbn, by rw [← hov, kp.2.2.1],
        by rw [← hnv, kp.2.2.2], lo, ln, account_left R.acc.pos _ NO q0.2 q1.2.1 q2.1,
        account_left R.acc.pos _ NN q0.2 q1.2.1 q2.1, hsame _ _ (by rw [ea]) (by rw [ea])⟩
    · obtain ⟨⟨p1, p2, p3⟩, NN, _⟩ := R.leaf_ext (by omega) L hp
      right; right; left
      have ln := node1 R.acc.pos y0 NN.n3
      rw [show a + 3 - 1 = a + 2 by ring, y3 p3, hbv] at ln
      have hacc := account_left R.acc.pos _ NN q0.2 q1.2.1 q2.1
      rw [q1.2.2 p1, q2.2 p2] at hacc
      exact ⟨_, bn, _, _, hbn, hov, by rw [← hnv, kp.2.2.2], ln, hacc, hins _ (by rw [ea])⟩

/-- C22. -/
theorem codeSize_sound (R : Run H n U w s e) (T : TablesOK w U)
    (ht : proofAt w s = .CodeSizeExists) :
    NothingThere (PR H w U) (w.adv .key s) (w.adv .oldHash s) (w.adv .newHash s)
      (w.adv .oldValue s) (w.adv .newValue s) ∨
    CodeSizeUpdate (PR H w U) (w.adv .key s) (w.adv .oldHash s) (w.adv .newHash s)
      (w.adv .oldValue s) (w.adv .newValue s) := by
  obtain ⟨m, h1, h2, h3⟩ := R.acct
  have pr : ∀ r, s ≤ r → r < e → CodeSizeRel w U r (segAt w r) (segAt w (r + 1)) := by
    intro r h1 h2
    have := R.proof_rel h1 h2
    rwa [ht] at this
  rcases h3 with ⟨h3, _⟩ | ⟨h3, hl⟩
  · have hE : EmptyEnd w U (s + m) (segAt w (s + m + 1)) := by
      have := pr (s + m) (by omega) h1
      rcases R.seg_end m h1 h2 with h | h <;> rw [h] at this <;> exact this
    rcases R.empty_end T m h3 h2 hE with h | h
    · exact .inl h
    · rw [ht] at h; simp at h
  · have L := R.leaf4 (a := s + m + 1) (by omega) h3 hl (by rw [ht]; decide)
    have hlt := L.lt
    set a := s + m + 1 with ha
    have q0 := pr a (by omega) (by omega)
    have q1 := pr (a + 1) (by omega) (by omega)
    have q2 := pr (a + 2) (by omega) (by omega)
    have q3 := pr (a + 3) (by omega) (by omega)
    rw [L.l0] at q0; rw [L.l1] at q1; rw [L.l2] at q2; rw [L.l3] at q3
    have ea : a - 1 = s + m := by omega
    have kp := R.keep' (r := a + 3) (by omega) (by omega)
    obtain ⟨y0, y1, y2, y3, y4⟩ := q3
    obtain ⟨so, hso, hov⟩ := T.bytes8 y1
    obtain ⟨sn, hsn, hnv⟩ := T.bytes8 y2
    obtain ⟨nc, hnc, hncv⟩ := T.bytes8 y4
    rcases R.acct_leaf_cases T m h3 h2 hl with ⟨hp, hsame⟩ | ⟨hp, ht2, _⟩
    · obtain ⟨p3, NO, NN⟩ := R.leaf_common (by omega) L hp
      right
      have lo := node0 R.acc.pos y0 NO.n3
      have ln := node0 R.acc.pos y0 NN.n3
      rw [show a + 3 - 1 = a + 2 by ring] at lo ln
      have co : w.adv .oldHash (a + 3) = nonceCode nc so := by
        rw [sub_eq_iff_eq_add.1 hncv, hov, two64_eq, nonceCode]; push_cast; ring
      have cn : w.adv .newHash (a + 3) = nonceCode nc sn := by
        rw [sub_eq_iff_eq_add.1 (y3.symm.trans hncv), hnv, two64_eq, nonceCode]; push_cast; ring
      rw [co] at lo; rw [cn] at ln
      exact ⟨_, _, _, _, nc, so, sn, _, _, _, _, hnc, hso, hsn, by rw [← hov, kp.2.2.1],
        by rw [← hnv, kp.2.2.2], lo, ln, account_left R.acc.pos _ NO q0 q1 q2,
        account_left R.acc.pos _ NN q0 q1 q2, hsame _ _ (by rw [ea]) (by rw [ea])⟩
    · rw [ht] at ht2; simp at ht2

/-- C23. -/
theorem codeHash_sound (R : Run H n U w s e) (T : TablesOK w U)
    (ht : proofAt w s = .CodeHashExists) :
    NothingThere (PR H w U) (w.adv .key s) (w.adv .oldHash s) (w.adv .newHash s)
      (w.adv .oldValue s) (w.adv .newValue s) ∨
    CodeHashUpdate (PR H w U) w.chal (w.adv .key s) (w.adv .oldHash s) (w.adv .newHash s)
      (w.adv .oldValue s) (w.adv .newValue s) := by
  obtain ⟨m, h1, h2, h3⟩ := R.acct
  have pr : ∀ r, s ≤ r → r < e → KeccakRel w U r (segAt w r) (segAt w (r + 1)) := by
    intro r h1 h2
    have := R.proof_rel h1 h2
    rwa [ht] at this
  rcases h3 with ⟨h3, _⟩ | ⟨h3, hl⟩
  · have hE : EmptyEnd w U (s + m) (segAt w (s + m + 1)) := by
      have := pr (s + m) (by omega) h1
      rcases R.seg_end m h1 h2 with h | h <;> rw [h] at this <;> exact this
    rcases R.empty_end T m h3 h2 hE with h | h
    · exact .inl h
    · rw [ht] at h; simp at h
  · have L := R.leaf4 (a := s + m + 1) (by omega) h3 hl (by rw [ht]; decide)
    have hlt := L.lt
    set a := s + m + 1 with ha
    have q0 := pr a (by omega) (by omega)
    have q1 := pr (a + 1) (by omega) (by omega)
    have q2 := pr (a + 2) (by omega) (by omega)
    have q3 := pr (a + 3) (by omega) (by omega)
    rw [L.l0] at q0; rw [L.l1] at q1; rw [L.l2] at q2; rw [L.l3] at q3
    have ea : a - 1 = s + m := by omega
    have kp := R.keep' (r := a + 3) (by omega) (by omega)
    obtain ⟨y0, y1, y2⟩ := q3
    obtain ⟨xo, hxo, hov⟩ := T.word R.acc.pos y1
    obtain ⟨xn, hxn, hnv⟩ := T.word R.acc.pos y2
    rcases R.acct_leaf_cases T m h3 h2 hl with ⟨hp, hsame⟩ | ⟨hp, ht2, _⟩
    · obtain ⟨p3, NO, NN⟩ := R.leaf_common (by omega) L hp
      right
      have lo := node1 R.acc.pos y0 NO.n3
      have ln := node1 R.acc.pos y0 NN.n3
      rw [show a + 3 - 1 = a + 2 by ring] at lo ln
      exact ⟨_, _, _, _, xo, xn, _, _, _, _, _, _, by rw [← hov, kp.2.2.1],
        by rw [← hnv, kp.2.2.2], hxo, hxn, lo, ln, account_right R.acc.pos _ NO q0 q1 q2,
        account_right R.acc.pos _ NN q0 q1 q2, hsame _ _ (by rw [ea]) (by rw [ea])⟩
    · rw [ht] at ht2; simp at ht2

/-- C24. -/
theorem poseidonCodeHash_sound (R : Run H n U w s e) (T : TablesOK w U)
    (ht : proofAt w s = .PoseidonCodeHashExists) :
    PoseidonCodeHashUpdate (PR H w U) (w.adv .key s) (w.adv .oldHash s) (w.adv .newHash s)
      (w.adv .oldValue s) (w.adv .newValue s) := by
  obtain ⟨m, h1, h2, h3⟩ := R.acct
  have pr : ∀ r, s ≤ r → r < e → PoseidonCodeHashRel w r (segAt w r) := by
    intro r h1 h2
    have := R.proof_rel h1 h2
    rwa [ht] at this
  rcases h3 with ⟨h3, hst⟩ | ⟨h3, hl⟩
  · exfalso
    obtain ⟨l, hl, hmem⟩ := R.next (r := s + m) (by omega) h1
    rw [ht, hst] at *
    rcases R.seg_end m h1 h2 with h | h <;> rw [h] at hl <;> cases hl <;> simp at hmem
  · obtain ⟨k1, k2⟩ := R.al0_next (a := s + m + 1) (by omega) h3 hl
    set a := s + m + 1 with ha
    have q0 := pr a (by omega) (by omega)
    have q1 := pr (a + 1) (by omega) (by omega)
    rw [hl] at q0; rw [k2] at q1
    have ea : a - 1 = s + m := by omega
    have kp := R.keep' (r := a + 1) (by omega) (by omega)
    have hst : segAt w (a + 1 + 1) = .Start := by
      obtain ⟨l, hl, hmem⟩ := R.next (r := a + 1) (by omega) k1
      rw [ht, k2] at hl
      cases hl
      simpa using hmem
    rcases R.acct_leaf_cases T m h3 h2 hl with ⟨hp, hsame⟩ | ⟨hp, ht2, _⟩
    · have p1 := R.common_next (r := a) (by omega) k1 hp (.inl hl)
      have hps := (R.path_start_iff (r := a + 1 + 1) (by omega) (by omega)).2 hst
      obtain ⟨o0, n0⟩ := R.common_nodes (r := a) (by omega) (by omega) hp (.inl p1)
      obtain ⟨o1, n1⟩ := R.common_nodes (r := a + 1) (by omega) (by omega) p1 (.inr hps)
      rw [(R.domain_eq (r := a) (by omega) (by omega)).1 (.inl hl)] at o0 n0
      rw [(R.domain_eq (r := a + 1) (by omega) (by omega)).2 (.inl k2)] at o1 n1
      have lo0 := node1 R.acc.pos q0 o0
      have ln0 := node1 R.acc.pos q0 n0
      have lo1 := node1 R.acc.pos q1.1 o1
      have ln1 := node1 R.acc.pos q1.1 n1
      rw [show a + 1 - 1 = a by ring] at lo1 ln1
      rw [← q1.2.1, kp.2.2.1] at lo1
      rw [← q1.2.2, kp.2.2.2] at ln1
      exact ⟨_, _, _, _, _, _, lo1, ln1, lo0, ln0, hsame _ _ (by rw [ea]) (by rw [ea])⟩
    · rw [ht] at ht2; simp at ht2

/-- C27 (path level). -/
theorem emptyAccount_sound (R : Run H n U w s e) (T : TablesOK w U)
    (ht : proofAt w s = .AccountDoesNotExist) :
    NothingThere (PR H w U) (w.adv .key s) (w.adv .oldHash s) (w.adv .newHash s)
      (w.adv .oldValue s) (w.adv .newValue s) := by
  obtain ⟨m, h1, h2, h3⟩ := R.acct
  have pr : ∀ r, s ≤ r → r < e → EmptyAccountRel w U r (segAt w r) (segAt w (r + 1)) := by
    intro r h1 h2
    have := R.proof_rel h1 h2
    rwa [ht] at this
  rcases h3 with ⟨h3, hst⟩ | ⟨h3, hl⟩
  · have q := pr (s + m) (by omega) h1
    have hE : Nonexist w U (s + m) .oldValue .newHash (.iv 3) := by
      have := q.2.2.2
      rcases R.seg_end m h1 h2 with h | h <;> rw [h] at this <;> exact this hst
    have hnv := (pr s le_rfl R.lt).2.1
    rcases R.acct_end_cases T m h3 h2 with hC | ⟨_, _, _, ht2⟩
    · exact R.nothing_there T m h1 h2 hC .newHash q.2.2.1.symm q.2.2.1 hnv hE
    · rw [ht] at ht2; simp at ht2
  · exfalso
    obtain ⟨l, hl', hmem⟩ := R.next (r := s + m) (by omega) h1
    rw [ht] at hl'
    rw [hl] at hmem
    rcases R.seg_end m h1 h2 with h | h <;> rw [h] at hl' <;> cases hl' <;> simp at hmem

/-- No run has type AccountDestructed. -/
theorem not_destructed (R : Run H n U w s e) : proofAt w s ≠ .AccountDestructed := by
  intro h
  have := R.proof_rel (r := s) le_rfl R.lt
  rw [h] at this
  exact this

/-- C19: what a Start row exposes is what its run is about. -/
theorem start_sound (R : Run H n U w s e) (T : TablesOK w U) :
    ∃ hi lo : ℕ, hi < 2 ^ 128 ∧ lo < 2 ^ 32 ∧
      PR H w U (hi : Fr) ((lo * 2 ^ 96 : ℕ) : Fr) HashDomain.Pair.toFr (w.adv .key s) ∧
      exposed w s = [1, ((hi * 2 ^ 32 + lo : ℕ) : Fr), w.adv .storageKeyRlc s,
        ((proofAt w s).toNat : Fr), rlc w.chal (frBytes (w.adv .newHash s)),
        rlc w.chal (frBytes (w.adv .oldHash s)), w.adv .newValue s, w.adv .oldValue s] := by
  obtain ⟨h1, h2, h3, h4, h5⟩ := (R.row (r := s) le_rfl R.lt).start R.start
  obtain ⟨hi, hhi, ehi⟩ := T.bytes _ 15 (by norm_num) (by exact_mod_cast h2)
  obtain ⟨lo, hlo, elo⟩ := T.bytes _ 3 (by norm_num) (by exact_mod_cast h3)
  have p1 := R.pos
  have p2 := R.le
  have p3 := R.lt
  refine ⟨hi, lo, lt_of_lt_of_eq hhi (by norm_num), lt_of_lt_of_eq hlo (by norm_num), ?_, ?_⟩
  · have := posRow_sound R.acc.pos h1
    rw [ehi, elo] at this
    push_cast at this ⊢
    exact this
  · rw [R.acc.exposed_eq ⟨by omega, by omega⟩, if_pos R.start, ehi, elo, T.frRlc _ _ h4,
      T.frRlc _ _ h5]
    push_cast
    rfl

end Run
end Mpt
