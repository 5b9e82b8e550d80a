import Verif.Props.Scenes

set_option autoImplicit false

/-!
# Each missing constraint is needed (C66)

For each gap there is a state, an accepted witness that satisfies all the other missing constraints, and a claim it
exposes about this state that no operation on the state makes true.
-/

namespace Mpt
open Spec MptUpdate Types Props

/-- A witness that leaves only the gap `g` open is accepted and proves a false claim about a state: the hypotheses of
`c63_operation` hold with `g` as the only missing constraint that is not satisfied, and its conclusion does not. -/
def Exploitable (g : Gap) : Prop :=
  ∃ (H : HashFn) (n U : ℕ) (w : Witness Fr) (W : World) (t : MPTProofType)
    (address slotRlc oldRootRlc newRootRlc oldValue newValue : Fr),
    Accepted H n U w ∧ TablesOK w U ∧ (∀ g' : Gap, g' ≠ g → g'.Closed H n U w) ∧
    Exposes w U t address slotRlc oldRootRlc newRootRlc oldValue newValue ∧ W.OK H ∧ SafeState H w U W ∧
    oldRootRlc = rootRlc w.chal (W.trie.hash H) ∧ t ≠ .StorageDoesNotExist ∧
    ¬ ∃ (op : Op) (W' : World), Describes H w.chal op W W' t address slotRlc oldRootRlc newRootRlc oldValue newValue

namespace Scene
variable {s : Scene}

theorem state_ok {d : AccountData} (hd : AccountOK d) (l : List (ℕ × ℕ)) (hl : ∀ y ∈ l, y.2 < 2 ^ 256) :
    (state d l).OK linHash := by
  have : ∀ (l : List (ℕ × ℕ)) (a : AcctState), a.OK linHash → (∀ y ∈ l, y.2 < 2 ^ 256) →
      (l.foldl (fun a s => Op.writeSlot linHash a s.1 s.2) a).OK linHash := by
    intro l
    induction l with
    | nil => exact fun a ha _ => ha
    | cons y l ih => exact fun a ha h => ih _ (ha.writeSlot (h y (by simp))) fun z hz => h z (by simp [hz])
  exact this l _ (fresh_ok hd) hl

theorem state_slots (d : AccountData) (l : List (ℕ × ℕ)) (k : Fr) :
    (state d l).slots k = 0 ∨ ∃ y ∈ l, (state d l).slots k = y.2 := by
  have : ∀ (l : List (ℕ × ℕ)) (a : AcctState), (l.foldl (fun a s => Op.writeSlot linHash a s.1 s.2) a).slots k = a.slots k ∨
      ∃ y ∈ l, (l.foldl (fun a s => Op.writeSlot linHash a s.1 s.2) a).slots k = y.2 := by
    intro l
    induction l with
    | nil => exact fun a => .inl rfl
    | cons y l ih =>
      intro a
      rcases ih (Op.writeSlot linHash a y.1 y.2) with h | ⟨z, hz, h⟩
      · rw [List.foldl_cons, h]
        by_cases hk : k = Account.wordHash linHash y.1
        · subst hk
          exact .inr ⟨y, by simp, by simp [Op.writeSlot]⟩
        · exact .inl (by simp [Op.writeSlot, Function.update_of_ne hk])
      · exact .inr ⟨z, by simp [hz], h⟩
  exact this l (Op.fresh d)

theorem dataOK_sound {d : AccountData} (h : dataOK d = true) : AccountOK d := by
  simp only [dataOK, Bool.and_eq_true, decide_eq_true_eq] at h
  exact ⟨h.1.1.1, h.1.1.2, h.1.2, h.2⟩

theorem worldOf_ok (l : List (List ℕ × AccountData × List (ℕ × ℕ)))
    (h : ∀ x ∈ l, dataOK x.2.1 = true ∧ ∀ y ∈ x.2.2, y.2 < 2 ^ 256) : (worldOf l).OK linHash := by
  induction l with
  | nil => exact World.initial_ok _
  | cons x l ih =>
    refine World.set_ok (ih fun y hy => h y (by simp [hy])) ?_
    have := h x (by simp)
    exact state_ok (dataOK_sound this.1) _ this.2

theorem worldOf_account {l : List (List ℕ × AccountData × List (ℕ × ℕ))} {k : Fr} {a : AcctState}
    (h : (worldOf l).accounts k = some a) : ∃ x ∈ l, a = state x.2.1 x.2.2 := by
  induction l with
  | nil => cases h
  | cons x l ih =>
    simp only [worldOf, World.set, Function.update_apply] at h
    split at h
    · exact ⟨x, by simp, (Option.some.inj h).symm⟩
    · obtain ⟨y, hy, e⟩ := ih h
      exact ⟨y, by simp [hy], e⟩

theorem world_inputs {l r d : Fr} (hz : wordInput 0 .Pair ∈ s.inputs) (h : s.world.Inputs linHash l r d) :
    (l, r, d) ∈ s.inputs := by
  rcases h with h | ⟨k, a, ha, h⟩
  · have := mem_trieInputs h
    simp only [inputs, List.mem_append]
    exact .inl (.inr this)
  · obtain ⟨x, hx, rfl⟩ := worldOf_account ha
    have key : ∀ z, z ∈ stateInputs (state x.2.1 x.2.2) ++ (x.2.2.map fun y => wordInput y.2 .Pair) → z ∈ s.inputs := by
      intro z hz
      simp only [inputs, List.mem_append, List.mem_flatMap]
      exact .inr ⟨x, hx, List.mem_append.1 hz⟩
    rcases h with h | h | ⟨k', rfl, rfl, rfl⟩
    · exact key _ (by simp only [stateInputs, List.mem_append]; exact .inl (.inl (mem_accountInputs h)))
    · exact key _ (by simp only [stateInputs, List.mem_append]; exact .inl (.inr (mem_trieInputs h)))
    · rcases state_slots x.2.1 x.2.2 k' with h | ⟨y, hy, h⟩
      · rw [h]; exact hz
      · rw [h]
        refine key _ (List.mem_append.2 (.inr (List.mem_map.2 ⟨y, hy, rfl⟩)))

theorem pos_inputs {l r d : Fr} (h : (l, r, d) ∈ (0, 0, HashDomain.Pair.toFr) :: s.tab.pos) : (l, r, d) ∈ s.inputs := by
  simp only [inputs, List.mem_append]
  exact .inl (.inl h)

theorem zero_input : wordInput 0 .Pair ∈ s.inputs := by
  simp [inputs, wordInput]

theorem free_sound (h : s.free = true) : noCollision linHash s.inputs = true := by
  simp only [free, Force.list_eq Force.triple_eq, Force.list_eq Force.nat_eq, Bool.and_eq_true] at h
  obtain ⟨h1, h2⟩ := h
  have hz : s.inputs.zip (s.inputs.map fun x => (hash3 x).val) = s.inputs.map fun x => (x, (hash3 x).val) := by
    induction s.inputs with
    | nil => rfl
    | cons x l ih => simp only [List.map_cons, List.zip_cons_cons, ih]
  rw [hz] at h2
  simp only [List.all_eq_true, List.mem_map, forall_exists_index, and_imp, forall_apply_eq_imp_iff₂,
    Bool.or_eq_true, Bool.not_eq_true', decide_eq_true_eq] at h1 h2
  simp only [noCollision, List.all_eq_true, Bool.and_eq_true, Bool.or_eq_true, Bool.not_eq_true', decide_eq_true_eq,
    decide_eq_false_iff_not]
  refine fun x hx => ⟨fun e => ?_, fun y hy => ?_⟩
  · have := h1 x hx
    have e' : hash3 x = 0 := e
    rw [e', ZMod.val_zero] at this
    simp at this
  · rcases h2 x hx y hy with e | e
    · right
      intro e'
      have e' : hash3 x = hash3 y := e'
      rw [e'] at e
      simp at e
    · exact .inl e

theorem safe (h : noCollision linHash s.inputs = true) : SafeState linHash (s.tab.circuit s.rows).witness 2049 s.world where
  free := noCollision_free h fun l r d h => by
    rcases h with h | h
    · exact pos_inputs (demo_posInputs h)
    · exact world_inputs zero_input h
  rlc x _ h := by
    have h : rootRlc 256 x = rootRlc 256 (s.world.trie.hash linHash) := h
    rwa [rootRlc_256, rootRlc_256] at h

theorem mem_lifts {x y : ℕ} (hx : x < frModulus) (hy : y < 2 ^ 256) (h : (y : Fr) = (x : Fr)) : y ∈ lifts x := by
  have e : y % frModulus = x := by
    have := (ZMod.natCast_eq_natCast_iff' y x frModulus).1 h
    rwa [Nat.mod_eq_of_lt hx] at this
  refine List.mem_map.2 ⟨y / frModulus, List.mem_range.2 ?_, ?_⟩
  · refine Nat.div_lt_of_lt_mul (lt_trans hy ?_)
    decide +kernel
  · rw [← e]; exact Nat.mod_add_div' y frModulus

theorem beVal_address {a b : List ℕ} (ha : IsBytes a ∧ a.length = 20) (hb : IsBytes b ∧ b.length = 20)
    (h : (beVal a : Fr) = (beVal b : Fr)) : a = b := by
  have e1 := (c48_account_key linHash a ha.1 ha.2).1
  have e2 := (c48_account_key linHash b hb.1 hb.2).1
  have hlt : (2 : ℕ) ^ 160 < frModulus :=
    lt_trans (Nat.pow_lt_pow_right (by norm_num) (by norm_num)) frModulus_gt
  exact beVal_inj ha.1 hb.1 (ha.2.trans hb.2.symm) (natCast_inj_of_lt (lt_trans e1 hlt) (lt_trans e2 hlt) h)

theorem rlc_word {x : ℕ} (hx : x < 2 ^ 256) : Spec.rlc (256 : Fr) (beBytes 32 x) = (x : Fr) := by
  rw [rlc_256, beVal_beBytes 32 x (by rw [show (256 : ℕ) ^ 32 = 2 ^ 256 by norm_num]; exact hx)]

theorem applied_nonce {H : HashFn} {W W' : World} {a : List ℕ} {x : ℕ} (h : (Op.setNonce a x).apply H W = some W') :
    x < 2 ^ 64 ∧ opValue H (.setNonce a x) W' = x := by
  rcases hacc : W.accounts (accountKey H a) with _ | b
  · simp only [Op.apply, Op.address, hacc, Option.ite_none_right_eq_some, Option.some.injEq] at h
    obtain ⟨h1, rfl⟩ := h
    exact ⟨h1.2, by simp [opValue, Op.address, World.set, Op.fresh]⟩
  · simp only [Op.apply, Op.address, hacc, Option.ite_none_right_eq_some, Option.some.injEq] at h
    obtain ⟨h1, rfl⟩ := h
    exact ⟨h1, by simp [opValue, Op.address, World.set]⟩

theorem applied_slot {H : HashFn} {W W' : World} {a : List ℕ} {x y : ℕ} (h : (Op.setSlot a x y).apply H W = some W') :
    (x < 2 ^ 256 ∧ y < 2 ^ 256) ∧ opValue H (.setSlot a x y) W' = y := by
  rcases hacc : W.accounts (accountKey H a) with _ | b
  · simp [Op.apply, Op.address, hacc] at h
  · simp only [Op.apply, Op.address, hacc, Option.ite_none_right_eq_some, Option.some.injEq] at h
    obtain ⟨h1, rfl⟩ := h
    exact ⟨⟨h1.1, h1.2.1⟩, by simp [opValue, Op.address, World.set, Op.writeSlot]⟩

theorem applied_absent {H : HashFn} {W W' : World} {a : List ℕ} {t : MPTProofType}
    (h : (Op.absent a t).apply H W = some W') : t ∈ Op.absentTypes := by
  rcases hacc : W.accounts (accountKey H a) with _ | b
  · simp only [Op.apply, Op.address, hacc, Option.ite_none_right_eq_some] at h
    exact h.1
  · simp [Op.apply, Op.address, hacc] at h

/-- The claim is about one of the candidates. -/
theorem mem_candidates (hv : s.valid = true) {op : Op} {W' : World} {oldRoot newRoot oldValue : Fr}
    (h : Describes linHash 256 op s.world W' s.type (s.num : Fr) (s.slot : Fr) oldRoot newRoot oldValue (s.newValue : Fr)) :
    op ∈ s.candidates := by
  simp only [valid, Bool.and_eq_true, decide_eq_true_eq, List.all_eq_true] at hv
  obtain ⟨⟨⟨⟨⟨⟨v1, v2⟩, v3⟩, v4⟩, v5⟩, -⟩, -⟩ := hv
  have hadr : op.address = s.adr := beVal_address h.bytes ⟨v1, v2⟩ h.address.symm
  have ha := h.apply
  have hn := h.newValue
  have ht := h.type
  have hs := h.slot
  clear h
  generalize linHash = H at *
  generalize s.world = W at *
  unfold candidates
  rcases v5 with hty | hty
  · rw [if_pos hty]
    rw [hty] at ht hn
    cases op with
    | absent a t =>
      have ht : t = .NonceChanged := ht
      have hadr : a = s.adr := hadr
      rw [ht, hadr]
      exact List.mem_cons_self
    | setNonce a x =>
      have hadr : a = s.adr := hadr
      obtain ⟨k1, k2⟩ := applied_nonce ha
      rw [k2] at hn
      have hlt : (2 : ℕ) ^ 64 < frModulus :=
        lt_trans (Nat.pow_lt_pow_right (by norm_num) (by norm_num)) frModulus_gt
      have : s.newValue = x := natCast_inj_of_lt v4 (lt_trans k1 hlt) hn
      rw [this, hadr]
      exact List.mem_cons_of_mem _ List.mem_cons_self
    | _ => cases ht
  · rw [if_neg (by rw [hty]; intro h; cases h)]
    have hs := hs (.inl hty)
    rw [hty] at ht hn
    cases op with
    | setSlot a x y =>
      have hadr : a = s.adr := hadr
      obtain ⟨⟨k1, k2⟩, k3⟩ := applied_slot ha
      rw [k3] at hn
      have hn : (s.newValue : Fr) = Spec.rlc 256 (beBytes 32 y) := hn
      have hs : (s.slot : Fr) = Spec.rlc 256 (beBytes 32 x) := hs
      rw [rlc_word k1] at hs
      rw [rlc_word k2] at hn
      rw [hadr]
      exact List.mem_flatMap.2 ⟨x, mem_lifts v3 k1 hs.symm, List.mem_map.2 ⟨y, mem_lifts v4 k2 hn.symm, rfl⟩⟩
    | absent a t =>
      have ht : t = .StorageChanged := ht
      have := applied_absent ha
      rw [ht] at this
      simp [Op.absentTypes] at this
    | _ => cases ht

/-- What the check means. -/
theorem attack {g : Gap} (hv : s.valid = true) (ha : s.accepts g = true) (hc : s.free = true) (hop : s.untrue = true) :
    Exploitable g := by
  simp only [accepts, Tab.force_eq, Force.list_eq Force.row_eq, Bool.and_eq_true, List.all_eq_true, Bool.or_eq_true,
    decide_eq_true_eq] at ha
  simp only [untrue, Force.fr_eq, List.all_eq_true] at hop
  obtain ⟨⟨hf, hr⟩, hg⟩ := ha
  have hc := free_sound hc
  obtain ⟨hacc, htab⟩ := Tab.accepted hf hr
  have hv' := hv
  simp only [valid, Bool.and_eq_true, decide_eq_true_eq, List.all_eq_true] at hv'
  obtain ⟨⟨⟨⟨⟨⟨v1, v2⟩, v3⟩, v4⟩, v5⟩, v6⟩, v7⟩ := hv'
  refine ⟨linHash, 2049, 2049, (s.tab.circuit s.rows).witness, s.world, s.type, (s.num : Fr), (s.slot : Fr), _, _,
    (s.oldValue : Fr), (s.newValue : Fr), hacc, htab, fun g' hne => ?_, demo_exposes_start hacc, worldOf_ok _ v6, safe hc,
    ?_, ?_, ?_⟩
  · have hm : g' ∈ gaps := by cases g' <;> simp [gaps]
    exact Tab.closed_of_gapRows (T := s.tab) (l := s.rows) (words := s.gapWords) (g := g') hf
      ((hg g' hm).resolve_left hne)
  · have hch : (s.tab.circuit s.rows).witness.chal = s.tab.ρ := rfl
    rw [hch, v7]
  · rcases v5 with h | h <;> rw [h] <;> simp
  · rintro ⟨op, W', D⟩
    have D : Describes linHash 256 op s.world W' s.type (s.num : Fr) (s.slot : Fr) _ _ (s.oldValue : Fr) (s.newValue : Fr) := D
    have := hop op (mem_candidates hv D)
    rw [Bool.not_eq_true', trueOf, D.apply] at this
    have e1 : rootRlc 256 (s.newTop s.levels) = rootRlc 256 (W'.trie.hash linHash) := D.newRoot
    rw [rootRlc_256, rootRlc_256] at e1
    have e2 := D.oldValue
    simp only [e1, ← e2, decide_true, Bool.and_self] at this
    cases this

end Scene

/-- C66: each of the missing constraints is needed. With all the others added to the circuit, and nothing that
collides, a prover can still prove a false claim about a state. -/
theorem c66_necessary (g : Gap) : Exploitable g := by
  refine Scene.attack (s := Scene.scene g) ?_ ?_ ?_ ?_
  all_goals cases g <;> decide +kernel

/-- The missing constraints that are left when all but `g` are added do not give what C63 says. -/
theorem c66_independent (g : Gap) : ∃ (H : HashFn) (n U : ℕ) (w : Witness Fr), Accepted H n U w ∧ TablesOK w U ∧
    (∀ g' : Gap, g' ≠ g → g'.Closed H n U w) ∧ ¬ g.Closed H n U w := by
  obtain ⟨H, n, U, w, W, t, a, sr, o, nn, ov, nv, h1, h2, h3, h4, h5, h6, h7, h8, h9⟩ := c66_necessary g
  refine ⟨H, n, U, w, h1, h2, h3, fun hg => h9 ?_⟩
  refine c63_operation h1 h2 (patched_iff_gaps.2 fun g' => ?_) h4 h5 h6 h7 (fun h => absurd h h8)
  by_cases he : g' = g
  · rw [he]; exact hg
  · exact h3 g' he

end Mpt
