import Verif.Props.Trace
import Verif.Props.ParserCheckDemo
import Verif.Props.CapacityDemo

set_option autoImplicit false

/-!
# C70: only a nonce or a balance creates an account, and nothing deletes one

The circuit itself lets a storage write create the account (finding B6). On the prover's side the parser accepts such
a trace as well (the special case for a default account, /repo/src/types.rs:265-271), but no witness can be assigned
for it: the assertions of `account_leaf_siblings` fail.
-/

namespace Mpt.Props
open Mpt Spec Types MptUpdate Requests

variable {H : HashFn}

/-- What the parser accepts. -/
inductive AccountShape (t : MPTProofType) (tr : SMTTrace) : Prop
  | absent (h : tr.accountUpdate = (none, none))
  | present (a b : AccountData) (h : tr.accountUpdate = (some a, some b))
  | byNonce (a : AccountData) (h : tr.accountUpdate = (none, some a)) (hn : a.nonce ≠ 0) (ht : t = .NonceChanged)
  | byBalance (a : AccountData) (h : tr.accountUpdate = (none, some a)) (hn : a.nonce = 0) (hb : a.balance ≠ 0)
      (ht : t = .BalanceChanged)

theorem shape_of_kind {t : MPTProofType} {tr : SMTTrace} {k : ClaimKind} (h : KindOf t tr k) :
    AccountShape t tr ∨ (tr.accountUpdate = (none, some ⟨0, 0, 0, 0, 0⟩) ∧
      (t = .StorageChanged ∧ (∃ s o n, k = .Storage s o n) ∨ t = .StorageDoesNotExist ∧ ∃ s, k = .IsEmpty (some s))) := by
  have same : tr.accountUpdate.1 = tr.accountUpdate.2 → AccountShape t tr := by
    intro e
    cases hx : tr.accountUpdate with
    | mk x y =>
      rw [hx] at e
      dsimp only at e
      subst e
      cases x with
      | none => exact .absent hx
      | some a => exact .present a a hx
  cases h with
  | storageEmpty _ _ h3 _ _ =>
    rcases h3 with e | e
    · exact .inl (same e)
    · exact .inr ⟨e, .inr ⟨rfl, _, rfl⟩⟩
  | storage _ _ h3 _ _ _ =>
    rcases h3 with e | e
    · exact .inl (same e)
    · exact .inr ⟨e, .inl ⟨rfl, _, _, _, rfl⟩⟩
  | absentNonce _ h => exact .inl (.absent h)
  | absentBalance _ h => exact .inl (.absent h)
  | absentCodeHash _ h => exact .inl (.absent h)
  | absentCodeSize _ h => exact .inl (.absent h)
  | absentAccount _ h => exact .inl (.absent h)
  | absentStorage _ h _ => exact .inl (.absent h)
  | createNonce _ h hn => exact .inl (.byNonce _ h hn rfl)
  | createBalance _ h hn hb _ => exact .inl (.byBalance _ h hn hb rfl)
  | nonce _ h => exact .inl (.present _ _ h)
  | balance _ h _ _ => exact .inl (.present _ _ h)
  | codeHash _ h _ _ => exact .inl (.present _ _ h)
  | codeSize _ h => exact .inl (.present _ _ h)
  | poseidonCodeHash _ h => exact .inl (.present _ _ h)

theorem hiLo_zero_pair : hiLo 0 = (0, 0) := by
  simp [hiLo]

/-- **C70, a storage write cannot create the account.** A trace in which a storage claim creates the account is
assigned for no challenge, although the parser may accept it. -/
theorem c70_panics {t : MPTProofType} {tr : SMTTrace} {p : Proof} {a : AccountData} (hz : H 0 0 HashDomain.Pair.toFr ≠ 0)
    (h : proofFrom H t tr = some p) (hu : tr.accountUpdate = (none, some a))
    (ht : t = .StorageChanged ∨ t = .StorageDoesNotExist) (ρ : Fr) : assignSingleProof H ρ p = none := by
  obtain ⟨rows, lh0, lh1, sr0, sr1, P⟩ := parsedFrom h
  have hk := ((c41_claim t tr p.claim).1 P.claim).2.2.2
  have hs : tr.accountUpdate = (none, some ⟨0, 0, 0, 0, 0⟩) ∧
      (t = .StorageChanged ∧ (∃ s o n, p.claim.kind = .Storage s o n) ∨
        t = .StorageDoesNotExist ∧ ∃ s, p.claim.kind = .IsEmpty (some s)) := by
    rcases shape_of_kind hk with x | x
    · cases x with
      | absent h => rw [hu] at h; cases h
      | present a b h => rw [hu] at h; cases h
      | byNonce a h hn e => rcases ht with ht | ht <;> rw [ht] at e <;> cases e
      | byBalance a h hn hb e => rcases ht with ht | ht <;> rw [ht] at e <;> cases e
    · exact x
  obtain ⟨hu', hkind⟩ := hs
  have h0 := P.side0
  have h1 := P.side1
  have hne : p.oldTraces.t1.2.1 ≠ p.newTraces.t1.2.1 := by
    rw [h0, h1, hu']
    show (0 : Fr) ≠ domainHash H (hiLo 0).1 (hiLo 0).2 .Pair
    rw [hiLo_zero_pair]
    exact fun e => hz (Eq.trans (by rfl) e.symm)
  have hsib : p.accountLeafSiblings H = none := by
    unfold Proof.accountLeafSiblings
    rcases hkind with ⟨-, s, o, n, e⟩ | ⟨-, s, e⟩ <;> rw [e] <;> dsimp only <;>
      exact if_neg (fun x => hne x.2.2)
  have hnew : p.newAccount.isNone = false := by
    have := P.acc1
    rw [hu'] at this
    unfold sideAccount at this
    obtain ⟨x, -, hx⟩ := Option.map_eq_some_iff.1 this
    rw [← hx]; rfl
  have hleaf : ∀ x y, leafURows H ρ p x y = none := by
    intro x y
    unfold leafURows
    rw [hsib]
    cases finalPathType p with
    | none => rfl
    | some fin =>
      show (leafPathType fin (finalHashes H p)).bind _ = none
      cases leafPathType fin (finalHashes H p) with
      | none => rfl
      | some pt =>
        show (leafDirections p.claim.kind.proofType).bind _ = none
        cases leafDirections p.claim.kind.proofType <;> rfl
  have hbody : bodyURows H ρ p = none := by
    unfold bodyURows
    cases otherLeaf H p with
    | none => rfl
    | some o =>
      show (trieURows .AccountTrie (accountKey H p.claim.address) o.1 0 p.accountTrieRows).bind _ = none
      cases trieURows .AccountTrie (accountKey H p.claim.address) o.1 0 p.accountTrieRows with
      | none => rfl
      | some trie =>
        show (finalPathType p).bind _ = none
        cases finalPathType p with
        | none => rfl
        | some f =>
          show (if (p.oldAccount.isNone && p.newAccount.isNone) = true then _ else _) = none
          rw [hnew, Bool.and_false, if_neg (by simp), hleaf]
          rfl
  unfold assignSingleProof
  rw [hbody]
  rfl

/-- **C70.** If traces are parsed and the circuit is assigned, then in every trace the account is absent before
and after, or present before and after, or it is created by its first nonce or by its first balance. In
particular no claim deletes an account, and no storage, code or Poseidon code hash claim creates one. -/
theorem c70_accounts {jobs : List (MPTProofType × SMTTrace)} {ps : List Proof} {ρ : Fr} {n : ℕ} {s : SerialCells}
    (hz : H 0 0 HashDomain.Pair.toFr ≠ 0) (hps : TestCircuit.new H jobs = some ps)
    (hs : serialAssign H ρ n ps = some s) : ∀ j ∈ jobs, AccountShape j.1 j.2 := by
  have hP : ∀ p ∈ ps, Parsed H p := by
    intro p hp
    obtain ⟨j, -, hj⟩ := (mem_mapM_of _ _ _ hps).1 p hp
    exact ⟨_, _, hj⟩
  obtain ⟨⟨br, runs, bits, rows, strings, -, hr, -⟩, -⟩ := (serialAssign_isSome hP).1 ⟨s, hs⟩
  intro j hj
  obtain ⟨p, hp, hpj⟩ := (mem_mapM_of _ _ _ hps).2 j hj
  obtain ⟨l, -, hl⟩ := (mem_mapM_of _ _ _ hr).2 p hp
  obtain ⟨rs, lh0, lh1, sr0, sr1, P⟩ := parsedFrom hpj
  rcases shape_of_kind ((c41_claim _ _ _).1 P.claim).2.2.2 with x | ⟨x, y⟩
  · exact x
  · have : assignSingleProof H ρ p = none :=
      c70_panics hz hpj x (y.imp (fun z => z.1) (fun z => z.1)) ρ
    rw [hl] at this
    cases this

/-- The trace of a write to slot 5 of an account that does not exist. -/
def creatingTrace (H : HashFn) (w : World) (address : List ℕ) : SMTTrace :=
  let slotKey := Account.wordHash H 5
  let a := Op.writeSlot H (Op.fresh ⟨0, 0, 0, 0, 0⟩) 5 77
  { accountTrace H address w (w.set H (accountKey H address) a) 0 with
    commonStateRoot := none
    statePath := (some (pathOf H slotKey .empty), some (pathOf H slotKey a.trie))
    stateKey := some (frHash slotKey)
    stateUpdate := some (some (slotData 5 0), some (slotData 5 77)) }

/-- The hypotheses of `c70_panics` are met: the parser accepts the write of a slot of a new account in a state
with three accounts. -/
theorem c70_demo : ∃ w steps p, runOps linHash threeAccounts .initial = some (w, steps) ∧
    proofFrom linHash .StorageChanged (creatingTrace linHash w (demoAddress 9)) = some p ∧
    (creatingTrace linHash w (demoAddress 9)).accountUpdate = (none, some ⟨0, 0, 0, 0, 0⟩) ∧
    linHash 0 0 HashDomain.Pair.toFr ≠ 0 ∧ ∀ ρ, assignSingleProof linHash ρ p = none := by
  have h : ((runOps linHash threeAccounts .initial).map fun x =>
      ((Fixtures.proofFromS linHash .StorageChanged (creatingTrace linHash x.1 (demoAddress 9))).isSome,
        (creatingTrace linHash x.1 (demoAddress 9)).accountUpdate)) =
      some (true, (none, some ⟨0, 0, 0, 0, 0⟩)) := by decide +kernel
  obtain ⟨⟨w, steps⟩, h1, h2⟩ := Option.map_eq_some_iff.1 h
  rw [Prod.mk.injEq] at h2
  obtain ⟨h2, h3⟩ := h2
  rw [Fixtures.proofFromS_eq, Option.isSome_iff_exists] at h2
  obtain ⟨p, hp⟩ := h2
  have hz : linHash 0 0 HashDomain.Pair.toFr ≠ 0 := by decide +kernel
  exact ⟨w, steps, p, h1, hp, h3, hz, c70_panics hz hp h3 (.inl rfl)⟩

/-- The hypotheses of `c70_accounts` are met by the seventeen operations of the demonstration; among them are
absent accounts, creations by nonce and by balance, and changes of existing accounts. -/
example : ∃ w steps ps s, runOps linHash demoOps .initial = some (w, steps) ∧
    TestCircuit.new linHash (jobsOf linHash steps) = some ps ∧ serialAssign linHash 7 4000 ps = some s ∧
    ∀ st ∈ steps, AccountShape st.1.type (opTrace linHash st.1 st.2.1 st.2.2) := by
  obtain ⟨w, steps, h1, -, ps, h2, ⟨v, h3, -⟩, -⟩ := c69_demo 7
  obtain ⟨s, hs, -⟩ := Option.bind_eq_some_iff.1 h3
  refine ⟨w, steps, ps, s, h1, h2, hs, fun st hst => ?_⟩
  exact c70_accounts (by decide +kernel) h2 hs _ (List.mem_map_of_mem hst)

end Mpt.Props
