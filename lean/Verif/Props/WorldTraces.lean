import Verif.Spec.World
import Verif.Props.ZkPaths
import Verif.Props.Rows

set_option autoImplicit false

/-!
# The trace of an operation (C35)

The JSON trace that documents an operation on a state, and the theorem that it is an honest trace.
-/

namespace Mpt.Props
open Mpt Spec Types

variable {H : HashFn}

/-- A node of a path as written in a trace. -/
def nodeOf (n : PathNode) : SMTNode := ⟨frHash n.child, frHash n.sibling, n.domain.toNat⟩

/-- The leaf at the end of a path as written in a trace. -/
def leafNode : PathEnd → Option SMTNode
  | none => none
  | some (k, d) => some ⟨frHash d, frHash k, HashDomain.Leaf.toNat⟩

/-- The path of `key` in a trie as written in a trace. -/
def pathOf (H : HashFn) (key : Fr) (t : ZkTrie) : SMTPath :=
  ⟨frHash (t.hash H), leafNode (t.endOf key 0), (t.path H key 0).map nodeOf⟩

/-- The state of a slot as written in a trace. -/
def slotData (slot value : ℕ) : StateData := ⟨beBytes 32 slot, beBytes 32 value⟩

/-- The account part of the trace of an operation, with the given common storage root. -/
def accountTrace (H : HashFn) (address : List ℕ) (w w' : World) (root : Fr) : SMTTrace where
  address := address
  accountKey := frHash (accountKey H address)
  accountPath := (pathOf H (accountKey H address) w.trie, pathOf H (accountKey H address) w'.trie)
  accountUpdate := ((w.accounts (accountKey H address)).map (·.data), (w'.accounts (accountKey H address)).map (·.data))
  statePath := (none, none)
  commonStateRoot := some (frHash root)
  stateKey := none
  stateUpdate := none

/-- The trace of an operation that leads from `w` to `w'`. -/
def opTrace (H : HashFn) (op : Op) (w w' : World) : SMTTrace :=
  let key := accountKey H op.address
  let slotKey := Account.wordHash H op.slot
  match op with
  | .setSlot _ _ _ | .slotEmpty _ _ =>
    match w.accounts key, w'.accounts key with
    | some a, some a' =>
      { accountTrace H op.address w w' 0 with
        commonStateRoot := none
        statePath := (some (pathOf H slotKey a.trie), some (pathOf H slotKey a'.trie))
        stateKey := some (frHash slotKey)
        stateUpdate := some (some (slotData op.slot (a.slots slotKey)), some (slotData op.slot (a'.slots slotKey))) }
    | _, _ =>
      { accountTrace H op.address w w' 0 with
        stateUpdate := some (some (slotData op.slot 0), some (slotData op.slot 0)) }
  | _ => accountTrace H op.address w w' (((w.accounts key).map (·.trie.hash H)).getD 0)

theorem denotes_nodeOf {n : PathNode} (h : branchDomain n.domain) : Denotes (nodeOf n) n := by
  refine ⟨fr_frHash _, fr_frHash _, ?_⟩
  rcases h with h | h | h | h <;> rw [nodeOf, h] <;> rfl

theorem leafDenotes (e : PathEnd) : LeafDenotes (leafNode e) e := by
  rcases e with _ | ⟨k, d⟩
  · exact trivial
  · exact ⟨fr_frHash _, fr_frHash _⟩

theorem truthful_branch {key : Fr} {i : ℕ} {ps : List PathNode} (h : Truthful key i ps) :
    ∀ p ∈ ps, branchDomain p.domain := by
  induction ps generalizing i with
  | nil => simp
  | cons p ps ih =>
    intro q hq
    rcases List.mem_cons.1 hq with rfl | hq
    · exact h.1
    · exact ih h.2.2 q hq

theorem forall_denotes {ps : List PathNode} (h : ∀ p ∈ ps, branchDomain p.domain) :
    List.Forall₂ Denotes (ps.map nodeOf) ps := by
  induction ps with
  | nil => exact .nil
  | cons p ps ih => exact .cons (denotes_nodeOf (h p (by simp))) (ih fun q hq => h q (by simp [hq]))

theorem same_bytes {key : Fr} {i : ℕ} {ps qs : List PathNode} (h : SameSiblings key i ps qs) :
    ∀ p ∈ (ps.map nodeOf).zip (qs.map nodeOf), p.1.sibling = p.2.sibling := by
  induction ps generalizing i qs with
  | nil => simp
  | cons p ps ih =>
    cases qs with
    | nil => simp
    | cons q qs =>
      intro x hx
      simp only [List.map_cons, List.zip_cons_cons, List.mem_cons] at hx
      rcases hx with rfl | hx
      · exact congrArg frHash h.1
      · exact ih h.2.2 x hx

/-- The paths of a key in two well-formed tries that differ by a change at its end are honest. -/
theorem honestPaths {key : Fr} {c : Change} {t t' : ZkTrie} (hw : t.WF) (hw' : t'.WF)
    (hp : ZkTrie.Pair H key c 0 t t') :
    HonestPaths H key c (pathOf H key t) (pathOf H key t') (t.path H key 0) (t'.path H key 0)
      (t.endOf key 0) (t'.endOf key 0) (t.hash H) (t'.hash H) where
  nodesOld := forall_denotes (truthful_branch (ZkTrie.path_truthful t 0))
  nodesNew := forall_denotes (truthful_branch (ZkTrie.path_truthful t' 0))
  leafOld := leafDenotes _
  leafNew := leafDenotes _
  rootOld := fr_frHash _
  rootNew := fr_frHash _
  depthOld := ZkTrie.path_length t 0 hw (by omega)
  depthNew := ZkTrie.path_length t' 0 hw' (by omega)
  honest := ⟨ZkTrie.path_ok t 0, ZkTrie.path_ok t' 0, ZkTrie.path_truthful t 0, ZkTrie.path_truthful t' 0, hp.shape⟩
  siblings := hp.siblings
  bytes := same_bytes hp.siblings
  placedOld := fun k d h i hi => ZkTrie.endOf_placed (H := H) t 0 hw h i (by omega) (by omega)
  placedNew := fun k d h i hi => ZkTrie.endOf_placed (H := H) t' 0 hw' h i (by omega) (by omega)

/-! ## Hashes that cannot collide -/

theorem mem_inputs {t : ZkTrie} {k d : Fr} (h : t.Mem k d) : t.trie.Inputs H k d HashDomain.Leaf.toFr := by
  induction t with
  | empty => exact absurd h ZkTrie.mem_empty
  | leaf k' d' => exact ⟨h.1.symm, h.2.symm, rfl⟩
  | node l r hl hr =>
    rcases h with h | h
    · exact .inr (.inl (hl h))
    · exact .inr (.inr (hr h))

theorem absentEnd {S : Fr → Fr → Fr → Prop} (C : CollisionFree H S) {t : ZkTrie} {key : Fr}
    (hs : ∀ l r d, t.trie.Inputs H l r d → S l r d) (h : t.get key = none) :
    AbsentEnd H key (t.endOf key 0) := by
  rcases he : t.endOf key 0 with _ | ⟨k, d⟩
  · exact .inl rfl
  · exact .inr ⟨k, d, rfl, ZkTrie.endOf_of_none h he,
      C.ne_zero (hs _ _ _ (mem_inputs (ZkTrie.endOf_mem t 0 he)))⟩

theorem get_ne_zero {S : Fr → Fr → Fr → Prop} (C : CollisionFree H S) {t : ZkTrie} {key d : Fr}
    (hs : ∀ l r d, t.trie.Inputs H l r d → S l r d) (h : t.get key = some d) :
    endHash H (some (key, d)) ≠ 0 :=
  C.ne_zero (hs _ _ _ (mem_inputs (ZkTrie.endOf_mem t 0 (ZkTrie.endOf_of_get h))))

theorem half_lt {x : ℕ} (hx : x < 2 ^ 256) : x / 2 ^ 128 < frModulus ∧ x % 2 ^ 128 < frModulus := by
  have hp : 2 ^ 128 < frModulus := by decide
  refine ⟨lt_trans ?_ hp, lt_trans (Nat.mod_lt _ (by positivity)) hp⟩
  rw [Nat.div_lt_iff_lt_mul (by positivity)]
  norm_num at hx ⊢; exact hx

theorem cast_inj {x y : ℕ} (hx : x < frModulus) (hy : y < frModulus) (h : (x : Fr) = (y : Fr)) : x = y := by
  have := congrArg ZMod.val h
  rwa [ZMod.val_natCast_of_lt hx, ZMod.val_natCast_of_lt hy] at this

theorem wordHash_ne_zero_word {S : Fr → Fr → Fr → Prop} (C : CollisionFree H S) {x : ℕ} (hx : x < 2 ^ 256)
    (h0 : x ≠ 0) (hs : ∀ l r d, WordInput x .Pair l r d → S l r d)
    (hz : ∀ l r d, WordInput 0 .Pair l r d → S l r d) : Account.wordHash H x ≠ Account.wordHash H 0 := by
  intro h
  obtain ⟨h1, h2, -⟩ := C.inj (hs _ _ _ ⟨rfl, rfl, rfl⟩) (hz _ _ _ ⟨rfl, rfl, rfl⟩) h
  have e1 := cast_inj (half_lt hx).1 (by decide) h1
  have e2 := cast_inj (half_lt hx).2 (by decide) h2
  apply h0
  rw [← Nat.div_add_mod x (2 ^ 128), e1, e2]
  norm_num

theorem end_ne_zero_word {S : Fr → Fr → Fr → Prop} (C : CollisionFree H S) {t : ZkTrie} {key : Fr}
    (hs : ∀ l r d, t.trie.Inputs H l r d → S l r d)
    (hz : ∀ l r d, WordInput 0 .Pair l r d → S l r d) :
    endHash H (t.endOf key 0) ≠ Account.wordHash H 0 := by
  rcases he : t.endOf key 0 with _ | ⟨k, d⟩
  · exact (C.ne_zero (hz _ _ _ ⟨rfl, rfl, rfl⟩)).symm
  · intro h
    obtain ⟨-, -, h3⟩ := C.inj (hs _ _ _ (mem_inputs (ZkTrie.endOf_mem t 0 he))) (hz _ _ _ ⟨rfl, rfl, rfl⟩) h
    exact absurd h3 (by decide)

/-! ## The trace of an operation is honest -/

section
variable {op : Op} {w w' : World} {key sk : Fr}

theorem rel_trie (hr : ∀ l r d, w.Relevant H key sk l r d → op.Relevant H w w' l r d) :
    ∀ l r d, w.trie.trie.Inputs H l r d → op.Relevant H w w' l r d := fun l r d h => hr _ _ _ (.inl h)

/-- The account part when the account exists before and after. -/
theorem part_same {address : List ℕ} (hadr : IsBytes address ∧ address.length = 20) (hw : w.OK H)
    {a a' : AcctState} (ha : w.accounts (accountKey H address) = some a) (x : Fr) :
    AccountPart H (accountTrace H address w (w.set H (accountKey H address) a') x) .same
      (w.trie.path H (accountKey H address) 0)
      ((w.set H (accountKey H address) a').trie.path H (accountKey H address) 0)
      (accountEnd H address a.data (a.trie.hash H)) (accountEnd H address a'.data (a'.trie.hash H))
      (w.trie.hash H) ((w.set H (accountKey H address) a').trie.hash H) := by
  have hg : w.trie.get (accountKey H address) = some (a.leafData H) := by rw [hw.accounts, ha]; rfl
  refine ⟨hadr, fr_frHash _, ?_⟩
  have hp := honestPaths hw.wf (ZkTrie.put_spec hw.wf _ (a'.leafData H)).1
    (ZkTrie.pair_put_same (H := H) (d := a'.leafData H) w.trie 0 hg)
  rw [ZkTrie.endOf_of_get hg, ZkTrie.endOf_put _ _ _ hw.wf (ZkTrie.under_zero _ _)] at hp
  exact hp

/-- The account part when nothing is written. -/
theorem part_refl {address : List ℕ} (hadr : IsBytes address ∧ address.length = 20) (hw : w.OK H) (x : Fr) :
    AccountPart H (accountTrace H address w w x) .same (w.trie.path H (accountKey H address) 0)
      (w.trie.path H (accountKey H address) 0) (w.trie.endOf (accountKey H address) 0)
      (w.trie.endOf (accountKey H address) 0) (w.trie.hash H) (w.trie.hash H) :=
  ⟨hadr, fr_frHash _, honestPaths hw.wf hw.wf (ZkTrie.pair_refl w.trie 0)⟩

/-- The account part when the account is created. -/
theorem part_new {address : List ℕ} (hadr : IsBytes address ∧ address.length = 20) (hw : w.OK H)
    {a' : AcctState} (ha : w.accounts (accountKey H address) = none) (x : Fr) :
    AccountPart H (accountTrace H address w (w.set H (accountKey H address) a') x) .insert
      (w.trie.path H (accountKey H address) 0)
      ((w.set H (accountKey H address) a').trie.path H (accountKey H address) 0)
      (w.trie.endOf (accountKey H address) 0) (accountEnd H address a'.data (a'.trie.hash H))
      (w.trie.hash H) ((w.set H (accountKey H address) a').trie.hash H) := by
  have hg : w.trie.get (accountKey H address) = none := by rw [hw.accounts, ha]; rfl
  refine ⟨hadr, fr_frHash _, ?_⟩
  have hp := honestPaths hw.wf (ZkTrie.put_spec hw.wf _ (a'.leafData H)).1
    (ZkTrie.pair_put_insert (H := H) (d := a'.leafData H) w.trie 0 hw.wf (ZkTrie.under_zero _ _) hg)
  rw [ZkTrie.endOf_put _ _ _ hw.wf (ZkTrie.under_zero _ _)] at hp
  exact hp

theorem set_get (hw : w.OK H) (a : AcctState) : (w.set H key a).trie.get key = some (a.leafData H) := by
  show (w.trie.put key _ 0).get key = _
  rw [(ZkTrie.put_spec hw.wf _ _).2, if_pos rfl]

theorem set_accounts (a : AcctState) : (w.set H key a).accounts key = some a := by
  simp [World.set]

theorem get_of (hw : w.OK H) {a : AcctState} (ha : w.accounts key = some a) :
    w.trie.get key = some (a.leafData H) := by rw [hw.accounts, ha]; rfl

/-- A change of a field. -/
theorem honest_field {t : MPTProofType} {address : List ℕ} (hadr : IsBytes address ∧ address.length = 20)
    (hw : w.OK H) {S : Fr → Fr → Fr → Prop} (C : CollisionFree H S) {a : AcctState} {d : AccountData}
    (ha : w.accounts (accountKey H address) = some a) (hd : AccountOK d)
    (h1 : ∀ l r e, w.trie.trie.Inputs H l r e → S l r e)
    (h2 : ∀ l r e, (w.set H (accountKey H address) { a with data := d }).trie.trie.Inputs H l r e → S l r e)
    (hc : FieldChange H a.data d t) :
    HonestTrace H t (accountTrace H address w (w.set H (accountKey H address) { a with data := d })
      (((w.accounts (accountKey H address)).map (·.trie.hash H)).getD 0)) := by
  refine .field a.data d (a.trie.hash H) _ _ _ _ (part_same hadr hw ha _) ?_ (hw.each _ _ ha).data hd
    (get_ne_zero C h1 (get_of hw ha)) (get_ne_zero C h2 (set_get hw _)) (.inl rfl) _ rfl ?_ hc
  · show (_, _) = _
    rw [ha, set_accounts]; rfl
  · rw [ha]; exact fr_frHash _

theorem slotData_key (s x : ℕ) (hs : s < 2 ^ 256) : beVal (slotData s x).key = s :=
  beVal_beBytes 32 s (by norm_num at hs ⊢; exact hs)

theorem slotData_value (s x : ℕ) (hx : x < 2 ^ 256) : beVal (slotData s x).value = x :=
  beVal_beBytes 32 x (by norm_num at hx ⊢; exact hx)

end

end Mpt.Props
