import Verif.Props.Operations

set_option autoImplicit false

/-!
# A run that meets the hypotheses of `c35_operations`

From the empty state: two accounts are created, fields are changed and read, slots are written, overwritten,
found empty and erased, and an account is found absent. The hash function is linear; on the states of this run
it has no collision, which the kernel checks by computing.
-/

namespace Mpt.Props
open Mpt Spec Types MptUpdate Requests

/-- The hash inputs of a trie, as a list. -/
def trieInputs (H : HashFn) : Trie → List (Fr × Fr × Fr)
  | .empty => []
  | .leaf k d => [(k, d, HashDomain.Leaf.toFr)]
  | .node d l r => (l.hash H, r.hash H, d) :: (trieInputs H l ++ trieInputs H r)

theorem mem_trieInputs {H : HashFn} {t : Trie} {l r d : Fr} (h : t.Inputs H l r d) : (l, r, d) ∈ trieInputs H t := by
  induction t with
  | empty => cases h
  | leaf k e => obtain ⟨rfl, rfl, rfl⟩ := h; simp [trieInputs]
  | node e a b iha ihb =>
    rcases h with ⟨rfl, rfl, rfl⟩ | h | h
    · simp [trieInputs]
    · simp [trieInputs, iha h]
    · simp [trieInputs, ihb h]

def wordInput (x : ℕ) (d : HashDomain) : Fr × Fr × Fr :=
  (((x / 2 ^ 128 : ℕ) : Fr), ((x % 2 ^ 128 : ℕ) : Fr), d.toFr)

def worldInputs (H : HashFn) (w : World) (key slotKey : Fr) : List (Fr × Fr × Fr) :=
  trieInputs H w.trie.trie ++ match w.accounts key with
    | none => []
    | some a => trieInputs H a.trie.trie ++ [wordInput a.data.codeHash .Pair, wordInput a.data.codeHash .Leaf,
        wordInput a.data.codeHash .AccountFields, wordInput (a.slots slotKey) .Pair]

def opInputs (H : HashFn) (op : Op) (w w' : World) : List (Fr × Fr × Fr) :=
  let key := accountKey H op.address
  let slotKey := Account.wordHash H op.slot
  worldInputs H w key slotKey ++ worldInputs H w' key slotKey ++ [wordInput 0 .Pair]

theorem mem_worldInputs {H : HashFn} {w : World} {key slotKey l r d : Fr} (h : w.Relevant H key slotKey l r d) :
    (l, r, d) ∈ worldInputs H w key slotKey := by
  unfold worldInputs
  rcases h with h | ⟨a, ha, h⟩
  · simp [mem_trieInputs h]
  · rw [ha]
    rcases h with h | ⟨e, he, h⟩ | h
    · simp [mem_trieInputs h]
    · obtain ⟨rfl, rfl, rfl⟩ := h
      simp only [List.mem_cons, List.not_mem_nil, or_false] at he
      rcases he with rfl | rfl | rfl <;> simp [wordInput]
    · obtain ⟨rfl, rfl, rfl⟩ := h
      simp [wordInput]

theorem mem_opInputs {H : HashFn} {op : Op} {w w' : World} {l r d : Fr} (h : op.Relevant H w w' l r d) :
    (l, r, d) ∈ opInputs H op w w' := by
  unfold opInputs
  rcases h with h | h | h
  · simp [mem_worldInputs h]
  · simp [mem_worldInputs h]
  · obtain ⟨rfl, rfl, rfl⟩ := h
    simp [wordInput]

/-- No two of the inputs collide, and none is hashed to 0. -/
def noCollision (H : HashFn) (l : List (Fr × Fr × Fr)) : Bool :=
  l.all fun x => (!(H x.1 x.2.1 x.2.2 = 0 : Bool)) &&
    l.all fun y => (x = y : Bool) || !(H x.1 x.2.1 x.2.2 = H y.1 y.2.1 y.2.2 : Bool)

theorem noCollision_free {H : HashFn} {l : List (Fr × Fr × Fr)} (h : noCollision H l = true)
    {S : Fr → Fr → Fr → Prop} (hS : ∀ x y z, S x y z → (x, y, z) ∈ l) : CollisionFree H S := by
  have key := List.all_eq_true.1 h
  constructor
  · intro a b c a' b' c' h1 h2 e
    have := (Bool.and_eq_true _ _ ▸ key _ (hS _ _ _ h1)).2
    have := List.all_eq_true.1 this _ (hS _ _ _ h2)
    simpa [e] using this
  · intro a b c h1
    have := (Bool.and_eq_true _ _ ▸ key _ (hS _ _ _ h1)).1
    simpa using this

/-- The operations are possible and no step has a collision. -/
def safeRun (H : HashFn) : List Op → World → Bool
  | [], _ => true
  | op :: ops, w =>
    match op.apply H w with
    | none => false
    | some w' => noCollision H (opInputs H op w w') && safeRun H ops w'

theorem safeRun_run {H : HashFn} {ops : List Op} {w : World} (h : safeRun H ops w = true) :
    ∃ w' steps, runOps H ops w = some (w', steps) ∧
      ∀ s ∈ steps, CollisionFree H (s.1.Relevant H s.2.1 s.2.2) := by
  induction ops generalizing w with
  | nil => exact ⟨w, [], rfl, by simp⟩
  | cons op ops ih =>
    unfold safeRun at h
    split at h
    · cases h
    · rename_i w1 h1
      obtain ⟨h2, h3⟩ := Bool.and_eq_true _ _ ▸ h
      obtain ⟨w2, steps, h4, h5⟩ := ih h3
      refine ⟨w2, (op, w, w1) :: steps, by simp [runOps, h1, h4], ?_⟩
      intro s hs
      rcases List.mem_cons.1 hs with rfl | hs
      · exact noCollision_free h2 fun _ _ _ => mem_opInputs
      · exact h5 s hs

/-- A linear hash function. -/
def linHash : HashFn := fun l r d =>
  10762682441881020451181376549681124488440685032331607764735834675741938668404 * l +
  7217631258492484879660901576918683898871190575587571352747416765506344249506 * r +
  17887741047118755013329214562665941113435799952006616644234660015638250427717 * d +
  153804901632319882066094526948265572368083095084226158145210199880175279691

def demoAddress (x : ℕ) : List ℕ := List.replicate 19 7 ++ [x]

def demoOps : List Op :=
  [ .absent (demoAddress 1) .AccountDoesNotExist,
    .setNonce (demoAddress 1) 1,
    .setBalance (demoAddress 2) 1000,
    .setBalance (demoAddress 1) 0,
    .setCodeHash (demoAddress 1) (2 ^ 256 - 1),
    .setPoseidonCodeHash (demoAddress 1) 12345,
    .setCodeSize (demoAddress 1) 77,
    .slotEmpty (demoAddress 1) 5,
    .setSlot (demoAddress 1) 5 (2 ^ 200),
    .setSlot (demoAddress 1) 6 3,
    .setSlot (demoAddress 1) 5 2,
    .slotEmpty (demoAddress 1) 7,
    .slotEmpty (demoAddress 3) 7,
    .setSlot (demoAddress 1) 5 0,
    .setSlot (demoAddress 1) 6 0,
    .absent (demoAddress 3) .BalanceChanged,
    .setNonce (demoAddress 3) 3 ]

theorem demo_safe : safeRun linHash demoOps .initial = true := by decide +kernel

/-- The hypotheses of `c35_operations` are met by this run of seventeen operations, so its conclusion holds: the
operations are parsed, and once there are enough rows the circuit is accepted and all of them can be looked
up. The Poseidon table the conclusion asks for is `posTable`. -/
example : ∃ w' steps, runOps linHash demoOps .initial = some (w', steps) ∧ steps.length = 17 ∧
    ∃ ps m es, (jobsOf linHash steps).mapM (fun j => proofFrom linHash j.1 j.2) = some ps ∧
      nRowsRequired linHash ps = some m ∧ hashTraces linHash ps = some es ∧
      ∀ (ρ : Fr) (n U : ℕ), m ≤ n → 32 * ((updateKeys linHash ps).length + 1) ≤ n → n ≤ U →
        1 + (traceInputs es).length ≤ U → U ≤ 2 ^ 64 →
        ∃ s, serialAssign linHash ρ n ps = some s ∧
          Accepted linHash n U (s.witness ρ (posTable linHash (traceInputs es))) ∧
          ∀ st ∈ steps, ∃ r, Enabled n r ∧
            exposed (s.witness ρ (posTable linHash (traceInputs es))) r = opTuple linHash ρ st.1 st.2.1 st.2.2 := by
  obtain ⟨w', steps, h1, h2⟩ := safeRun_run demo_safe
  have h3 := (runOps_steps (World.initial_ok linHash) h1).2.1
  have hadr : ∀ op ∈ demoOps, IsBytes op.address ∧ op.address.length = 20 := by
    unfold IsBytes; decide
  refine ⟨w', steps, h1, by rw [← List.length_map (f := (·.1)), h3]; rfl, ?_⟩
  obtain ⟨ps, m, es, a1, a2, a3, a4⟩ := c35_operations (World.initial_ok linHash) h1 hadr h2
  refine ⟨ps, m, es, a1, a2, a3, fun ρ n U b1 b2 b3 b4 b5 => ?_⟩
  exact (a4 ρ n U _ b1 b2 b3 b5 (posTable_fits _ _ _ b4)).1

end Mpt.Props
