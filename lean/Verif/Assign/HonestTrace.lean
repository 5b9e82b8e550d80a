import Verif.Spec.Honest
import Verif.Assign.HonestRows

set_option autoImplicit false

/-!
# The rows of honest paths

`TrieRows::new` on two honest paths gives rows whose hashes fit (`RowsHonest`).
-/

namespace Mpt
open Spec MptUpdate Types Props

variable {H : HashFn}

/-- The path type of the leaf rows. -/
def changePath : Change → PathType
  | .same => .Common
  | .insert => .ExtensionNew
  | .delete => .ExtensionOld

theorem honest_extNew (key bo bn : Fr) (i : ℕ) (ps : List PathNode) (top x : Fr)
    (h : PathOK H key i ps bn top) (ht : Truthful key i ps) (hs : SplitLevels bo ps) (hx : x = bo) :
    RowsHonest H .ExtensionNew (x, top) (extNewRows key bo i ps) := by
  induction ps generalizing i top x with
  | nil => trivial
  | cons p ps ih =>
    obtain ⟨h1, h2⟩ := h
    obtain ⟨t1, t2, t3⟩ := ht
    refine ⟨t1, ?_, ih (i + 1) _ _ h2 t3 hs.2 rfl⟩
    refine ⟨rfl, hx.symm, ?_, ?_⟩
    · rw [h1]; rfl
    · have := hs.1
      cases ps with
      | nil => simpa [extNewRows] using this
      | cons q qs => simpa [extNewRows] using this

theorem honest_extOld (key bo bn : Fr) (i : ℕ) (ps : List PathNode) (top x : Fr)
    (h : PathOK H key i ps bo top) (ht : Truthful key i ps) (hs : SplitLevels bn ps) (hx : x = bn) :
    RowsHonest H .ExtensionOld (top, x) (extOldRows key bn i ps) := by
  induction ps generalizing i top x with
  | nil => trivial
  | cons p ps ih =>
    obtain ⟨h1, h2⟩ := h
    obtain ⟨t1, t2, t3⟩ := ht
    refine ⟨t1, ?_, ih (i + 1) _ _ h2 t3 hs.2 rfl⟩
    refine ⟨rfl, hx.symm, ?_, ?_⟩
    · rw [h1]; rfl
    · have := hs.1
      cases ps with
      | nil => simpa [extOldRows] using this
      | cons q qs => simpa [extOldRows] using this

theorem not_branch3 {d : HashDomain} {b : Bool} (h : ¬ childIsBranch d b = true) : d ≠ .Branch3 := by
  rintro rfl; exact h rfl

/-- Rows of honest paths fit; `leafP` is the path type of what follows, or Start if nothing follows. -/
theorem rowsFrom_honest (key : Fr) (lo ln : ℕ) (bo bn : Fr) (c : Change) (leafP : PathType)
    (hP : leafP = changePath c ∨ (leafP = .Start ∧ c = .same)) (i : ℕ)
    (olds news : List SMTNode) (po pn : List PathNode) (rows : List TrieRow)
    (h1 : List.Forall₂ Denotes olds po) (h2 : List.Forall₂ Denotes news pn)
    (hlo : lo = i + olds.length) (hln : ln = i + news.length)
    (h : trieRowsFrom key lo ln bo bn i olds news = some rows)
    (t1 : Truthful key i po) (t2 : Truthful key i pn) (oldRoot newRoot : Fr)
    (k1 : PathOK H key i po bo oldRoot) (k2 : PathOK H key i pn bn newRoot)
    (hs : PathShape c bo bn po pn) :
    RowsHonest H leafP (oldRoot, newRoot) rows := by
  induction h1 generalizing i news pn rows oldRoot newRoot with
  | nil =>
    rcases rowsFrom_bits _ _ _ _ _ _ _ _ _ h with hb | ⟨_, rfl⟩
    · rw [rowsFrom_right key lo ln bo bn i news pn h2 (by simpa using hb)] at h
      rw [← Option.some.inj h]
      cases pn with
      | nil => trivial
      | cons q qs =>
        obtain ⟨rfl, hs⟩ := hs
        rcases hP with rfl | ⟨-, hP⟩
        · exact honest_extNew key bo bn i _ newRoot oldRoot k2 t2 hs k1
        · cases hP
    · simp only [trieRowsFrom, Option.some.injEq] at h
      subst h
      trivial
  | @cons old p olds ps hp h1 ih =>
    cases h2 with
    | nil =>
      rcases rowsFrom_bits _ _ _ _ _ _ _ _ _ h with hb | ⟨hb, _⟩
      · rw [rowsFrom_left key lo ln bo bn i (old :: olds) (p :: ps) (.cons hp h1)
          (by simpa using hb)] at h
        rw [← Option.some.inj h]
        obtain ⟨rfl, hs⟩ := hs
        rcases hP with rfl | ⟨-, hP⟩
        · exact honest_extOld key bo bn i _ oldRoot newRoot k1 t1 hs k2
        · cases hP
      · simp at hb
    | @cons new q news qs hq h2 =>
      simp only [trieRowsFrom, Option.bind_eq_bind, Option.bind_eq_some_iff, Option.pure_def,
        Option.some.injEq] at h
      obtain ⟨b, hb, row, hr, rest, hrest, rfl⟩ := h
      obtain ⟨hi, hb⟩ := bit_keyBit _ _ _ hb
      obtain ⟨f1, f2, f3, f4, f5, f6, f7⟩ := bothRow_facts hp hq hr
      obtain ⟨t11, t12, t13⟩ := t1
      obtain ⟨t21, t22, t23⟩ := t2
      obtain ⟨k11, k12⟩ := k1
      obtain ⟨k21, k22⟩ := k2
      rw [List.length_cons] at hlo hln
      have hd := common_domains h1 h2 hlo hln t12 t22 f5 f7
      have hbr : branchDomain row.domain := by
        rcases f7 with ⟨_, e⟩ | ⟨_, _, _, ⟨_, e, _⟩ | ⟨_, e, _⟩⟩
        · rw [e]; exact t11
        · rw [e]; exact t11
        · rw [e]; exact t21
      have e1 : row.nodeHash H row.old p.domain = oldRoot := by
        rw [k11, TrieRow.nodeHash, PathNode.hash, f5, hb, f2, f4]; rfl
      have e2 : row.nodeHash H row.new q.domain = newRoot := by
        rw [k21, TrieRow.nodeHash, PathNode.hash, f5, hb, f3, f4, f1]; rfl
      refine ⟨hbr, ?_, ?_⟩
      swap
      · rw [f2, f3]
        exact ih (i + 1) news qs rest h2 (by omega) (by omega) hrest t13 t23 _ _ k12 k22 hs
      · rw [← rowsFrom_head hrest] at hd
        unfold RowHonest
        rw [f6]
        cases hh : rest.head? with
        | some r =>
          rw [hh] at hd
          exact ⟨_, hd, e1, e2⟩
        | none =>
          rw [hh] at hd
          have hrl := rowsFrom_length hrest
          have : rest = [] := List.head?_eq_none_iff.1 hh
          subst this
          simp only [List.length_nil] at hrl
          have l1 : olds = [] := List.length_eq_zero_iff.1 (by omega)
          have l2 : news = [] := List.length_eq_zero_iff.1 (by omega)
          subst l1 l2
          cases h1
          cases h2
          have hdd : row.domain = p.domain ∧ row.domain = q.domain := by
            simpa using hd
          have n3 : row.domain ≠ .Branch3 := by
            rw [hdd.1]
            refine not_branch3 (b := keyBit key i) ?_
            rw [t12]; simp
          refine ⟨hdd.1 ▸ e1, hdd.2 ▸ e2, fun hl => ⟨n3, ?_⟩, fun hl => ⟨n3, ?_⟩⟩
          · rcases hP with rfl | ⟨rfl, -⟩
            · cases c <;> simp [changePath] at hl
              rw [f2, k12]; exact hs.1 rfl
            · cases hl
          · rcases hP with rfl | ⟨rfl, -⟩
            · cases c <;> simp [changePath] at hl
              rw [f3, k22]; exact hs.2 rfl
            · cases hl

/-- Rows of `TrieRows::new` on honest paths. -/
theorem trieRowsNew_honest {key : Fr} {c : Change} {leafP : PathType}
    (hP : leafP = changePath c ∨ (leafP = .Start ∧ c = .same)) {olds news : List SMTNode}
    {oldLeaf newLeaf : Option SMTNode} {po pn : List PathNode} {rows : List TrieRow}
    {bo bn oldRoot newRoot : Fr}
    (h1 : List.Forall₂ Denotes olds po) (h2 : List.Forall₂ Denotes news pn)
    (h : trieRowsNew H key olds news oldLeaf newLeaf = some rows)
    (hh : LevelHonest H key c po pn bo bn oldRoot newRoot)
    (l1 : olds = [] → bottomHash H [] oldLeaf = some bo)
    (l2 : news = [] → bottomHash H [] newLeaf = some bn) :
    RowsHonest H leafP (oldRoot, newRoot) rows ∧
    trieRowsFrom key olds.length news.length bo bn 0 olds news = some rows := by
  have b1 := bottomHash_eq h1 hh.old l1
  have b2 := bottomHash_eq h2 hh.new l2
  simp only [trieRowsNew, b1, b2, Option.bind_eq_bind, Option.bind_some] at h
  exact ⟨rowsFrom_honest key _ _ bo bn c leafP hP 0 olds news po pn rows h1 h2 (by simp) (by simp) h
    hh.oldTypes hh.newTypes _ _ hh.old hh.new hh.shape, h⟩

end Mpt
