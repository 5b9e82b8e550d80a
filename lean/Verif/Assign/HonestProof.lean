import Verif.Assign.HonestLeaf

set_option autoImplicit false

/-!
# Completeness (C35): account trie rows of an accepted proof
-/

namespace Mpt
open Spec MptUpdate Types Requests Props

variable {H : HashFn} {w : Witness Fr} {U : ℕ}

/-- The entry of `address_hash_traces` that corresponds to a trie row. -/
def toHashRow (r : TrieRow) : HashRow :=
  ⟨r.direction, r.domain, r.old, r.new, r.sibling, decide (r.pathType = .ExtensionNew),
    decide (r.pathType = .ExtensionOld)⟩

/-- The two loops of `Proof::from` build the same rows. -/
theorem internalFrom_eq (key bo bn : Fr) (lo ln i : ℕ) (olds news : List SMTNode) :
    internalFrom key bo bn lo ln i olds news =
      (trieRowsFrom key lo ln bo bn i olds news).map (List.map toHashRow) := by
  fun_induction trieRowsFrom key lo ln bo bn i olds news with
  | case1 => simp [internalFrom]
  | case2 i old olds new news ih =>
    simp only [internalFrom, ih, bothRow, Option.bind_eq_bind, Option.pure_def]
    cases bit true key i <;> simp only [Option.bind_none, Option.bind_some, Option.map_none]
    by_cases hsib : old.sibling = new.sibling
    swap
    · simp only [if_neg hsib, Option.bind_none, Option.map_none]
    simp only [if_pos hsib]
    cases HashDomain.ofNat? old.nodeType <;> simp only [Option.bind_none, Option.bind_some, Option.map_none]
    cases HashDomain.ofNat? new.nodeType <;> simp only [Option.bind_none, Option.bind_some, Option.map_none]
    cases commonDomain lo ln i _ _ _ <;> simp only [Option.bind_none, Option.bind_some, Option.map_none]
    cases fr old.value <;> simp only [Option.bind_none, Option.bind_some, Option.map_none]
    cases fr new.value <;> simp only [Option.bind_none, Option.bind_some, Option.map_none]
    cases fr old.sibling <;> simp only [Option.bind_none, Option.bind_some, Option.map_none]
    cases trieRowsFrom key lo ln bo bn (i + 1) olds news <;> simp [toHashRow]
  | case3 i old olds ih =>
    simp only [internalFrom, ih, leftRow, Option.bind_eq_bind, Option.pure_def]
    cases bit true key i <;> simp only [Option.bind_none, Option.bind_some, Option.map_none]
    cases HashDomain.ofNat? old.nodeType <;> simp only [Option.bind_none, Option.bind_some, Option.map_none]
    cases fr old.value <;> simp only [Option.bind_none, Option.bind_some, Option.map_none]
    cases fr old.sibling <;> simp only [Option.bind_none, Option.bind_some, Option.map_none]
    cases trieRowsFrom key lo ln bo bn (i + 1) olds [] <;> simp [toHashRow]
  | case4 i new news ih =>
    simp only [internalFrom, ih, rightRow, Option.bind_eq_bind, Option.pure_def]
    cases bit true key i <;> simp only [Option.bind_none, Option.bind_some, Option.map_none]
    cases HashDomain.ofNat? new.nodeType <;> simp only [Option.bind_none, Option.bind_some, Option.map_none]
    cases fr new.value <;> simp only [Option.bind_none, Option.bind_some, Option.map_none]
    cases fr new.sibling <;> simp only [Option.bind_none, Option.bind_some, Option.map_none]
    cases trieRowsFrom key lo ln bo bn (i + 1) [] news <;> simp [toHashRow]

/-- The hashes at the end of the rows. -/
def endHashes (top : Fr × Fr) (rows : List TrieRow) : Fr × Fr :=
  (rows.getLast?.map fun r => (r.old, r.new)).getD top

theorem endHashes_cons (top : Fr × Fr) (row : TrieRow) (rows : List TrieRow) :
    endHashes top (row :: rows) = endHashes (row.old, row.new) rows := by
  unfold endHashes
  cases rows with
  | nil => simp
  | cons a l =>
    rw [List.getLast?_cons_cons]
    cases h : (a :: l).getLast? with
    | none => simp at h
    | some x => rfl

theorem rowsFrom_last {key bo bn : Fr} {lo ln i : ℕ} {olds news : List SMTNode} {rows : List TrieRow}
    {po pn : List PathNode} {ro rn : Fr} (h : trieRowsFrom key lo ln bo bn i olds news = some rows)
    (h1 : List.Forall₂ Denotes olds po) (h2 : List.Forall₂ Denotes news pn)
    (k1 : PathOK H key i po bo ro) (k2 : PathOK H key i pn bn rn) :
    endHashes (ro, rn) rows = (bo, bn) := by
  induction rows generalizing i olds news po pn ro rn with
  | nil =>
    have hl := rowsFrom_length h
    have l1 : olds = [] := List.length_eq_zero_iff.1 (by simp at hl; omega)
    have l2 : news = [] := List.length_eq_zero_iff.1 (by simp at hl; omega)
    subst l1 l2
    cases h1; cases h2
    rw [show ro = bo from k1, show rn = bn from k2]; rfl
  | cons row rows ih =>
    rw [endHashes_cons]
    rcases olds with _ | ⟨o, olds⟩ <;> rcases news with _ | ⟨n, news⟩
    · simp [trieRowsFrom] at h
    · simp only [trieRowsFrom, Option.bind_eq_bind, Option.bind_eq_some_iff, Option.pure_def,
        Option.some.injEq, List.cons.injEq] at h
      obtain ⟨b, -, row', hr, rest, hrest, rfl, rfl⟩ := h
      cases h1
      cases h2 with
      | cons hq hqs =>
        simp only [rightRow, Option.bind_eq_bind, Option.bind_eq_some_iff, Option.pure_def,
          Option.some.injEq] at hr
        obtain ⟨d, -, v, hv, s, -, rfl⟩ := hr
        refine ih hrest List.Forall₂.nil hqs (show bo = bo from rfl) ?_
        have := hq.1
        rw [hv] at this
        cases this
        exact k2.2
    · simp only [trieRowsFrom, Option.bind_eq_bind, Option.bind_eq_some_iff, Option.pure_def,
        Option.some.injEq, List.cons.injEq] at h
      obtain ⟨b, -, row', hr, rest, hrest, rfl, rfl⟩ := h
      cases h2
      cases h1 with
      | cons hq hqs =>
        simp only [leftRow, Option.bind_eq_bind, Option.bind_eq_some_iff, Option.pure_def,
          Option.some.injEq] at hr
        obtain ⟨d, -, v, hv, s, -, rfl⟩ := hr
        refine ih hrest hqs List.Forall₂.nil ?_ (show bn = bn from rfl)
        have := hq.1
        rw [hv] at this
        cases this
        exact k1.2
    · simp only [trieRowsFrom, Option.bind_eq_bind, Option.bind_eq_some_iff, Option.pure_def,
        Option.some.injEq, List.cons.injEq] at h
      obtain ⟨b, -, row', hr, rest, hrest, rfl, rfl⟩ := h
      cases h1 with
      | cons hp hps =>
        cases h2 with
        | cons hq hqs =>
          obtain ⟨-, f2, f3, -⟩ := bothRow_facts hp hq hr
          refine ih hrest hps hqs ?_ ?_
          · rw [f2]; exact k1.2
          · rw [f3]; exact k2.2

theorem rowsHonest_path {leafP : PathType} (rows : List TrieRow) : ∀ (top : Fr × Fr),
    RowsHonest H leafP top rows → ∀ row ∈ rows, row.pathType ≠ .Start ∧
      (row.pathType = .ExtensionNew → leafP = .ExtensionNew) ∧
      (row.pathType = .ExtensionOld → leafP = .ExtensionOld) := by
  induction rows with
  | nil => intro top _ row h; simp at h
  | cons a rows ih =>
    intro top h row hm
    obtain ⟨-, h1, h2⟩ := h
    rcases List.mem_cons.1 hm with rfl | hm
    · unfold RowHonest at h1
      cases hp : row.pathType <;> rw [hp] at h1
      · exact absurd h1 id
      · simp
      · simp [h1.1]
      · simp [h1.1]
    · exact ih _ h2 row hm

/-- The Poseidon requests of honest rows do not panic. -/
theorem rowsHonest_lookups {leafP : PathType} (rows : List TrieRow) : ∀ (top : Fr × Fr),
    RowsHonest H leafP top rows → ∃ l, triePoseidonLookups H rows = some l := by
  induction rows with
  | nil => intro top _; exact ⟨[], rfl⟩
  | cons a rows ih =>
    intro top h
    obtain ⟨-, h1, h2⟩ := h
    obtain ⟨l, hl⟩ := ih _ h2
    have : ∃ l, a.poseidonLookups H rows.head? = some l := by
      unfold RowHonest at h1
      unfold TrieRow.poseidonLookups
      cases hp : a.pathType <;> rw [hp] at h1
      · exact absurd h1 id
      · cases hn : rows.head? <;> rw [hn] at h1
        · exact ⟨_, rfl⟩
        · obtain ⟨d, hd, -⟩ := h1
          simp only [hd]; exact ⟨_, rfl⟩
      · exact ⟨_, rfl⟩
      · exact ⟨_, rfl⟩
    obtain ⟨l', hl'⟩ := this
    exact ⟨l' ++ l, by simp [triePoseidonLookups, hl, hl']⟩

/-- The account trie rows of a proof are honest. -/
structure AccountReady (H : HashFn) (leafP : PathType) (p : Proof) : Prop where
  rows : RowsHonest H leafP (p.claim.oldRoot, p.claim.newRoot) p.accountTrieRows
  traces : p.addressHashTraces = (p.accountTrieRows.map toHashRow).reverse
  last : endHashes (p.claim.oldRoot, p.claim.newRoot) p.accountTrieRows = (p.old.hash H, p.new.hash H)

theorem AccountReady.finalHashes {leafP : PathType} {p : Proof} (h : AccountReady H leafP p) :
    finalHashes H p = (p.old.hash H, p.new.hash H) := by
  rw [← h.last]
  unfold Mpt.finalHashes endHashes
  rw [h.traces, List.head?_reverse, List.getLast?_map]
  cases hl : p.accountTrieRows.getLast? with
  | none =>
    have := h.last
    unfold endHashes at this
    rw [hl] at this
    simpa using this.symm
  | some r => rfl

/-- The path type of the last row, or `Common`. -/
def endPath (rows : List TrieRow) : PathType := (rows.getLast?.map TrieRow.pathType).getD .Common

theorem AccountReady.finalPathType {leafP : PathType} {p : Proof} (h : AccountReady H leafP p) :
    finalPathType p = some (endPath p.accountTrieRows) := by
  unfold Mpt.finalPathType endPath
  rw [h.traces, List.head?_reverse, List.getLast?_map]
  cases hl : p.accountTrieRows.getLast? with
  | none => rfl
  | some r =>
    have := (rowsHonest_path _ _ h.rows r (List.mem_of_getLast? hl)).1
    simp only [Option.map_some, toHashRow, HashRow.pathType, Option.getD_some]
    cases hp : r.pathType <;> simp_all

/-- The requests of the proof serve its account trie rows. -/
theorem rowsServed_account {ρ : Fr} {p : Proof} (hS : Serves H w U ρ p)
    (htr : p.addressHashTraces = (p.accountTrieRows.map toHashRow).reverse) {ok : Fr}
    (hok : ok = p.old.key ∨ ok = p.new.key)
    (hN : ∀ row ∈ p.accountTrieRows, row.pathType = .ExtensionNew → p.new.key = accountKey H p.claim.address)
    (hO : ∀ row ∈ p.accountTrieRows, row.pathType = .ExtensionOld → p.old.key = accountKey H p.claim.address)
    (hst : ∀ row ∈ p.accountTrieRows, row.pathType ≠ .Start) :
    RowsServed H w U (accountKey H p.claim.address) ok 0 p.accountTrieRows := by
  obtain ⟨es, e1, e2⟩ := hS.hash
  obtain ⟨a, q1, q0⟩ := Option.bind_eq_some_iff.1 e1
  obtain ⟨b, -, q⟩ := Option.bind_eq_some_iff.1 q0
  cases q
  have hP : ∀ e ∈ a, P1 w U e.1 e.2.1 e.2.2.1.toFr e.2.2.2 := fun e he =>
    e2 (toEntry e) (List.mem_append_left _ (List.mem_append_left _ (List.mem_append_left _
      (List.mem_append_left _ (List.mem_append_left _ (List.mem_append_left _
        (List.mem_map.2 ⟨e, he, rfl⟩)))))))
  obtain ⟨bs, b1, b2⟩ := hS.bit
  obtain ⟨c, c1, c2⟩ := Option.bind_eq_some_iff.1 b1
  cases c2
  have hB : ∀ x ∈ c, InKeyBit w U x.1 ((x.2.1 : ℕ) : Fr) (bitFr x.2.2) := fun x hx =>
    b2 x (List.mem_append_left _ hx)
  rw [htr, List.reverse_reverse] at c1
  clear e1 e2 b1 b2 htr q0
  revert c1 q1
  generalize p.accountTrieRows = rows at *
  generalize (0 : ℕ) = i
  intro q1 c1
  induction rows generalizing i a c with
  | nil => trivial
  | cons row rows ih =>
    rw [triePoseidonLookups] at q1
    obtain ⟨a1, x1, q1⟩ := Option.bind_eq_some_iff.1 q1
    obtain ⟨a2, x2, q1⟩ := Option.bind_eq_some_iff.1 q1
    cases q1
    rw [List.map_cons, rowsBits] at c1
    obtain ⟨r1, y1, c1⟩ := Option.bind_eq_some_iff.1 c1
    obtain ⟨r2, y2, c1⟩ := Option.bind_eq_some_iff.1 c1
    cases c1
    have hB1 : ∀ x ∈ r1, InKeyBit w U x.1 ((x.2.1 : ℕ) : Fr) (bitFr x.2.2) := fun x hx =>
      hB x (List.mem_append_left _ hx)
    have hkb : InKeyBit w U (accountKey H p.claim.address) (i : Fr) (bitFr row.direction) ∧
        (row.pathType = .Common → InKeyBit w U ok (i : Fr) (bitFr row.direction)) := by
      cases hp : row.pathType with
      | Start => exact absurd hp (hst row (by simp))
      | Common =>
        simp only [rowBits, toHashRow, hp] at y1
        cases y1
        have u1 := hB1 (p.old.key, i, row.direction) (by simp)
        have u2 := hB1 (p.new.key, i, row.direction) (by simp)
        refine ⟨?_, fun _ => ?_⟩
        · by_cases hk : accountKey H p.claim.address = p.old.key ∨
            accountKey H p.claim.address = p.new.key
          · rcases hk with e | e
            · rw [e]; exact u1
            · rw [e]; exact u2
          · exact hB1 (accountKey H p.claim.address, i, row.direction) (by simp [hk])
        · rcases hok with e | e
          · rw [e]; exact u1
          · rw [e]; exact u2
      | ExtensionNew =>
        simp only [rowBits, toHashRow, hp] at y1
        cases y1
        have u2 := hB1 (p.new.key, i, row.direction) (by simp)
        rw [hN row (by simp) hp] at u2
        exact ⟨u2, fun h => by cases h⟩
      | ExtensionOld =>
        simp only [rowBits, toHashRow, hp] at y1
        cases y1
        have u2 := hB1 (p.old.key, i, row.direction) (by simp)
        rw [hO row (by simp) hp] at u2
        exact ⟨u2, fun h => by cases h⟩
    refine ⟨hkb.1, hkb.2, ?_, ?_⟩
    · intro l hl e he
      rw [x1] at hl
      cases hl
      exact hP e (List.mem_append_left _ he)
    · exact ih a2 (fun e he => hP e (List.mem_append_right _ he)) r2
        (fun x hx => hB x (List.mem_append_right _ hx))
        (fun row' hm => hN row' (List.mem_cons_of_mem _ hm))
        (fun row' hm => hO row' (List.mem_cons_of_mem _ hm))
        (fun row' hm => hst row' (List.mem_cons_of_mem _ hm)) (i + 1) x2 y2

theorem overlay_eq (ρ : Fr) (c : Claim) (l : List URow) :
    overlay ρ c l.length l = l.map (URow.withBase ρ c) := by
  induction l with
  | nil => rfl
  | cons u l ih => rw [List.length_cons, overlay, ih, List.map_cons]

/-- The rows of a proof. -/
theorem assignSingleProof_eq {ρ : Fr} {p : Proof} {run : List URow}
    (hp : p.addressHashTraces = (p.accountTrieRows.map toHashRow).reverse)
    (h : assignSingleProof H ρ p = some run) :
    ∃ body, bodyURows H ρ p = some body ∧ run = body.map (URow.withBase ρ p.claim) := by
  obtain ⟨body, h1, h2⟩ := Option.map_eq_some_iff.1 h
  have hl := bodyURows_length H ρ p (by rw [hp]; simp) body h1
  refine ⟨body, h1, ?_⟩
  rw [← h2, ← hl, overlay_eq]

end Mpt
