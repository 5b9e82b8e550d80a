import Verif.Props.WorldSound
import Verif.Props.OperationsDemo
import Verif.Assign.DemoRuns

set_option autoImplicit false

/-!
# A case that meets the hypotheses of C30, C31, C53 and C54

A state with one account, an accepted witness that exposes the change of its nonce from 5 to 9, and the
kernel-checked fact that there are no collisions.
-/

namespace Mpt.Props
open Mpt Spec Types MptUpdate Requests

theorem demo_posInputs {H : HashFn} {ρ : Fr} {runs : List (List URow)} {strings : List (List ℕ)} {keys : List Fr}
    {reqs : List KeyBit.Req} {pos : List (Fr × Fr × Fr)} {U : ℕ} {l r d : Fr}
    (h : PosInputs (demo H ρ runs strings keys reqs pos).witness U l r d) :
    (l, r, d) ∈ (0, 0, HashDomain.Pair.toFr) :: pos := by
  obtain ⟨i, -, h1, -, -, h4, h5, h6⟩ := h
  have g1 : (posAt ((0, 0, HashDomain.Pair.toFr) :: pos) i).elim (0 : Fr) (fun _ => 1) = 1 := h1
  have g4 : (posAt ((0, 0, HashDomain.Pair.toFr) :: pos) i).elim (0 : Fr) (fun p => p.1) = l := h4
  have g5 : (posAt ((0, 0, HashDomain.Pair.toFr) :: pos) i).elim (0 : Fr) (fun p => p.2.1) = r := h5
  have g6 : (posAt ((0, 0, HashDomain.Pair.toFr) :: pos) i).elim (0 : Fr) (fun p => p.2.2) = d := h6
  rcases hp : posAt ((0, 0, HashDomain.Pair.toFr) :: pos) i with _ | p
  · rw [hp] at g1; simp at g1
  · rw [hp] at g4 g5 g6
    simp only [Option.elim_some] at g4 g5 g6
    subst g4 g5 g6
    simp only [posAt] at hp
    split at hp
    · exact List.mem_of_getElem? hp
    · cases hp

theorem rlc_256 (l : List ℕ) : rlc (256 : Fr) l = (beVal l : Fr) := by
  induction l with
  | nil => simp [rlc, beVal]
  | cons b l ih => simp [rlc, beVal, ih]

/-- With the challenge 256 the RLC of a root is the root. -/
theorem rootRlc_256 (x : Fr) : rootRlc 256 x = x := by
  have h : x.val < 256 ^ 32 := lt_trans (lt_trans (ZMod.val_lt x) frModulus_lt) (by norm_num)
  rw [rootRlc, rlc_256, frBytes, beVal_beBytes 32 _ h, ZMod.natCast_zmod_val]

/-- The address of the example, as a number and as bytes. -/
def soundAdr : List ℕ := demoAddress 1
def soundNum : ℕ := beVal soundAdr

/-- The account of the example. -/
def soundAcct : AcctState := Op.fresh ⟨5, 1000, 2 ^ 255 + 3, 77, 11⟩

def soundWorld : World := World.initial.set linHash (accountKey linHash soundAdr) soundAcct

/-- Its leaf, for the demo witness. -/
def soundLeaf : Leaf where
  k := accountKey linHash soundAdr
  pch := 77
  right := (soundAcct.account linHash).right linHash
  balance := 1000
  codeSize := 11

def accountInputs (H : HashFn) (a : Account) : List (Fr × Fr × Fr) :=
  [wordInput a.keccakCodeHash .Pair, (nonceCode a.nonce a.codeSize, (a.balance : Fr), HashDomain.AccountFields.toFr),
    (a.storageRoot, Account.wordHash H a.keccakCodeHash, HashDomain.AccountFields.toFr),
    (a.left H, a.right H, HashDomain.AccountFields.toFr), (a.fields H, a.poseidonCodeHash, HashDomain.AccountFields.toFr)]

theorem mem_accountInputs {H : HashFn} {a : Account} {l r d : Fr} (h : a.Inputs H l r d) :
    (l, r, d) ∈ accountInputs H a := by
  rcases h with ⟨rfl, rfl, rfl⟩ | ⟨rfl, ⟨rfl, rfl⟩ | ⟨rfl, rfl⟩ | ⟨rfl, rfl⟩ | ⟨rfl, rfl⟩⟩ <;>
    simp [accountInputs, wordInput]

/-- Everything that is hashed: the Poseidon table of the witness and the state. -/
def soundInputs : List (Fr × Fr × Fr) :=
  (0, 0, HashDomain.Pair.toFr) :: (startPos soundNum :: soundLeaf.pos linHash 5 ++ soundLeaf.pos linHash 9) ++
    trieInputs linHash soundWorld.trie.trie ++ accountInputs linHash (soundAcct.account linHash) ++
    [wordInput 0 .Pair]

theorem sound_noCollision : noCollision linHash soundInputs = true := by decide +kernel

theorem soundWorld_ok : soundWorld.OK linHash :=
  World.set_ok (World.initial_ok _) (fresh_ok ⟨by norm_num, by norm_num, by norm_num, by norm_num⟩)

theorem soundWorld_account : soundWorld.accounts (accountKey linHash soundAdr) = some soundAcct := by
  simp [soundWorld, World.set]

theorem soundWorld_inputs {l r d : Fr} (h : soundWorld.Inputs linHash l r d) : (l, r, d) ∈ soundInputs := by
  rcases h with h | ⟨k, a, ha, h⟩
  · have := mem_trieInputs h
    simp only [soundInputs, List.mem_append]
    exact .inl (.inl (.inr this))
  · have : a = soundAcct := by
      simp only [soundWorld, World.set, Function.update_apply, World.initial] at ha
      split at ha
      · exact (Option.some.inj ha).symm
      · cases ha
    subst this
    rcases h with h | h | ⟨k', rfl, rfl, rfl⟩
    · have := mem_accountInputs h
      simp only [soundInputs, List.mem_append]
      exact .inl (.inr this)
    · cases h
    · simp only [soundInputs, List.mem_append]
      exact .inr (by simp [soundAcct, Op.fresh, wordInput])

def soundWitness : Witness Fr := (nonceDemo linHash 256 soundNum soundLeaf 5 9).witness

theorem soundWitness_accepted : Accepted linHash 2049 2049 soundWitness ∧ TablesOK soundWitness 2049 ∧
    Exposes soundWitness 2049 .NonceChanged (soundNum : Fr) 0 (rootRlc 256 (soundLeaf.hash linHash 5))
      (rootRlc 256 (soundLeaf.hash linHash 9)) ((5 : ℕ) : Fr) ((9 : ℕ) : Fr) :=
  nonceDemo_accepted linHash 256 (by decide +kernel) soundLeaf (by norm_num) (by norm_num) (by decide)

theorem soundWorld_root : soundWorld.trie.hash linHash = soundLeaf.hash linHash 5 := by decide +kernel

theorem soundWorld_safe : SafeState linHash soundWitness 2049 soundWorld where
  free := noCollision_free sound_noCollision fun l r d h => by
    rcases h with h | h
    · have := demo_posInputs h
      simp only [soundInputs, List.mem_append]
      exact .inl (.inl (.inl this))
    · exact soundWorld_inputs h
  rlc x _ h := by
    have h : rootRlc 256 x = rootRlc 256 (soundWorld.trie.hash linHash) := h
    rwa [rootRlc_256, rootRlc_256] at h

/-- The hypotheses of `c53_operation_partial` are met. -/
example : ∃ (op : Op) (W' : World), op.address = soundAdr ∧
    Describes linHash 256 op soundWorld W' .NonceChanged (soundNum : Fr) 0
      (rootRlc 256 (soundLeaf.hash linHash 5)) (rootRlc 256 (soundLeaf.hash linHash 9)) ((5 : ℕ) : Fr) ((9 : ℕ) : Fr) :=
  c53_operation_partial soundWitness_accepted.1 soundWitness_accepted.2.1 soundWitness_accepted.2.2 soundWorld_ok
    soundWorld_safe (by rw [soundWorld_root]; rfl) ⟨by unfold IsBytes; decide, by decide⟩ rfl soundWorld_account
    (by simp)

/-- The hypothesis of C30 (`Stored`) is met: this trie is known and stores this account. -/
example : Known linHash (PosInputs soundWitness 2049) soundWorld.trie.trie (soundAcct.account linHash)
    (accountKey linHash soundAdr) (soundLeaf.hash linHash 5) :=
  soundWorld_root ▸ known_of_world soundWorld_ok soundWorld_account soundWorld_safe.free

def soundClaim : LookupClaim where
  type := .NonceChanged
  address := (soundNum : Fr)
  slotRlc := 0
  oldRootRlc := rootRlc 256 (soundLeaf.hash linHash 5)
  newRootRlc := rootRlc 256 (soundLeaf.hash linHash 9)
  oldValue := ((5 : ℕ) : Fr)
  newValue := ((9 : ℕ) : Fr)

theorem soundClaim_covered : Covered linHash 256 soundWorld soundClaim := by
  refine .inr (.inr fun adr h1 h2 => ⟨soundAcct, ?_, by simp [soundClaim]⟩)
  have e1 := (c48_account_key linHash adr h1.1 h1.2).1
  have h2' : ((soundNum : ℕ) : Fr) = (beVal adr : Fr) := h2
  rw [accountKey_eq_addressKey h1 (a := soundNum) (by decide +kernel) h2'.symm,
    ← accountKey_eq_addressKey (adr := soundAdr) (a := soundNum) ⟨by unfold IsBytes; decide, by decide⟩
      (by decide +kernel) rfl]
  exact soundWorld_account

/-- The hypotheses of `c54_history_partial` are met. -/
example : ∃ (ops : List Op) (W' : World) (steps : List (Op × World × World)),
    runOps linHash ops soundWorld = some (W', steps) ∧ W'.OK linHash ∧
    List.Forall₂ (fun c (s : Op × World × World) => c.Describes linHash 256 s.1 s.2.1 s.2.2) [soundClaim] steps ∧
    (∀ c ∈ [soundClaim].getLast?, c.newRootRlc = rootRlc 256 (W'.trie.hash linHash)) :=
  c54_history_partial (w := soundWitness) soundWitness_accepted.1 soundWitness_accepted.2.1
    (by intro c hc; rw [List.mem_singleton] at hc; subst hc; exact soundWitness_accepted.2.2) soundWorld_ok
    ⟨by rw [soundWorld_root]; rfl, trivial⟩ ⟨soundWorld_safe, soundClaim_covered, fun _ _ _ => trivial⟩

end Mpt.Props
