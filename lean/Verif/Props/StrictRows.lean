import Verif.Props.StrictPaths
import Verif.Assign.HonestTrace

set_option autoImplicit false

/-!
# The trie rows of strict paths (for C65)
-/

namespace Mpt
open Spec MptUpdate Types Props

variable {H : HashFn}

/-- The rows of levels added by an insertion next to the leaf of the key `ok`. -/
def InsRows (ok : Fr) : ℕ → List TrieRow → Prop
  | _, [] => True
  | i, row :: rest => (row.pathType = .ExtensionNew →
      if rest = [] then row.direction ≠ keyBit ok i ∧ row.domain = .Branch0
      else row.direction = keyBit ok i ∧ row.domain = if row.direction then .Branch1 else .Branch2) ∧
      InsRows ok (i + 1) rest

/-- The rows of a removal. -/
def RemRows : List TrieRow → Prop
  | [] => True
  | row :: rest => (row.pathType = .Common →
      match rest.head? with
      | none => row.domain ≠ .Branch0
      | some r => r.pathType = .ExtensionOld → row.sibling ≠ 0 ∧ (row.domain = .Branch1 → row.direction = false) ∧
          (row.domain = .Branch2 → row.direction = true)) ∧
      RemRows rest

theorem insRows_extNew (key ok bo : Fr) (i : ℕ) (ps : List PathNode) (ht : Truthful key i ps)
    (hs : ExtStrict key ok i ps) : InsRows ok i (extNewRows key bo i ps) := by
  induction ps generalizing i with
  | nil => trivial
  | cons p ps ih =>
    obtain ⟨t1, t2, t3⟩ := ht
    obtain ⟨s1, s2, s3⟩ := hs
    refine ⟨fun _ => ?_, ih (i + 1) t3 s3⟩
    dsimp only
    split
    · rename_i hp
      have hp : ps = [] := by
        cases ps with
        | nil => rfl
        | cons q qs => cases hp
      subst hp
      refine ⟨fun e => absurd (s2.1 e) (by simp), ?_⟩
      have t2 : childIsBranch p.domain (keyBit key i) = false := by simpa using t2
      revert t2 s1
      rcases t1 with h | h | h | h <;> rw [h] <;> cases keyBit key i <;> simp [childIsBranch]
    · rename_i hp
      have hp : ps ≠ [] := by rintro rfl; exact hp rfl
      refine ⟨s2.2 hp, ?_⟩
      have t2 := t2.2 hp
      revert t2 s1
      rcases t1 with h | h | h | h <;> rw [h] <;> cases keyBit key i <;> simp [childIsBranch]

theorem insRows_common {ok : Fr} (i : ℕ) (rows : List TrieRow) (h : ∀ r ∈ rows, r.pathType ≠ .ExtensionNew) :
    InsRows ok i rows := by
  induction rows generalizing i with
  | nil => trivial
  | cons row rows ih =>
    exact ⟨fun hr => absurd hr (h row (by simp)), ih (i + 1) fun r hr => h r (by simp [hr])⟩

theorem extOldRows_path (key bn : Fr) (i : ℕ) (ps : List PathNode) :
    ∀ r ∈ extOldRows key bn i ps, r.pathType = .ExtensionOld := by
  induction ps generalizing i with
  | nil => simp [extOldRows]
  | cons p ps ih => intro r hr; rcases List.mem_cons.1 hr with rfl | hr; exacts [rfl, ih _ _ hr]

theorem extNewRows_path (key bo : Fr) (i : ℕ) (ps : List PathNode) :
    ∀ r ∈ extNewRows key bo i ps, r.pathType = .ExtensionNew := by
  induction ps generalizing i with
  | nil => simp [extNewRows]
  | cons p ps ih => intro r hr; rcases List.mem_cons.1 hr with rfl | hr; exacts [rfl, ih _ _ hr]

theorem remRows_ext (rows : List TrieRow) (h : ∀ r ∈ rows, r.pathType ≠ .Common) : RemRows rows := by
  induction rows with
  | nil => trivial
  | cons row rows ih => exact ⟨fun hr => absurd hr (h row (by simp)), ih fun r hr => h r (by simp [hr])⟩

theorem rowsFrom_ins (key ok : Fr) (lo ln : ℕ) (bo bn : Fr) (i : ℕ)
    (olds news : List SMTNode) (po pn : List PathNode) (rows : List TrieRow)
    (h1 : List.Forall₂ Denotes olds po) (h2 : List.Forall₂ Denotes news pn)
    (h : trieRowsFrom key lo ln bo bn i olds news = some rows)
    (t2 : Truthful key i pn) (hs : InsStrict key ok i po pn) : InsRows ok i rows := by
  induction h1 generalizing i news pn rows with
  | nil =>
    rcases rowsFrom_bits _ _ _ _ _ _ _ _ _ h with hb | ⟨_, rfl⟩
    · rw [rowsFrom_right key lo ln bo bn i news pn h2 (by simpa using hb)] at h
      rw [← Option.some.inj h]
      exact insRows_extNew _ _ _ _ _ t2 (by cases pn <;> exact hs)
    · simp only [trieRowsFrom, Option.some.injEq] at h
      subst h
      trivial
  | @cons old p olds ps hp h1 ih =>
    cases h2 with
    | nil =>
      rcases rowsFrom_bits _ _ _ _ _ _ _ _ _ h with hb | ⟨hb, _⟩
      · rw [rowsFrom_left key lo ln bo bn i (old :: olds) (p :: ps) (.cons hp h1)
          (by simpa using hb)] at h
        rw [← Option.some.inj h]
        exact insRows_common _ _ fun r hr => by rw [extOldRows_path _ _ _ _ r hr]; simp
      · simp at hb
    | @cons new q news qs hq h2 =>
      simp only [trieRowsFrom, Option.bind_eq_bind, Option.bind_eq_some_iff, Option.pure_def,
        Option.some.injEq] at h
      obtain ⟨b, hb, row, hr, rest, hrest, rfl⟩ := h
      obtain ⟨f1, f2, f3, f4, f5, f6, f7⟩ := bothRow_facts hp hq hr
      refine ⟨fun hx => ?_, ih (i + 1) news qs rest h2 hrest t2.2.2 hs⟩
      rw [f6] at hx; cases hx

theorem rowsFrom_rem (key : Fr) (lo ln : ℕ) (bo bn : Fr) (i : ℕ)
    (olds news : List SMTNode) (po pn : List PathNode) (rows : List TrieRow)
    (h1 : List.Forall₂ Denotes olds po) (h2 : List.Forall₂ Denotes news pn)
    (hlo : lo = i + olds.length) (hln : ln = i + news.length)
    (h : trieRowsFrom key lo ln bo bn i olds news = some rows)
    (t1 : Truthful key i po) (t2 : Truthful key i pn) (hs : RemStrict key i po pn)  : RemRows rows := by
  induction h1 generalizing i news pn rows with
  | nil =>
    rcases rowsFrom_bits _ _ _ _ _ _ _ _ _ h with hb | ⟨_, rfl⟩
    · rw [rowsFrom_right key lo ln bo bn i news pn h2 (by simpa using hb)] at h
      rw [← Option.some.inj h]
      exact remRows_ext _ fun r hr => by rw [extNewRows_path _ _ _ _ r hr]; simp
    · simp only [trieRowsFrom, Option.some.injEq] at h
      subst h
      trivial
  | @cons old p olds ps hp h1 ih =>
    cases h2 with
    | nil =>
      rcases rowsFrom_bits _ _ _ _ _ _ _ _ _ h with hb | ⟨hb, _⟩
      · rw [rowsFrom_left key lo ln bo bn i (old :: olds) (p :: ps) (.cons hp h1)
          (by simpa using hb)] at h
        rw [← Option.some.inj h]
        exact remRows_ext _ fun r hr => by rw [extOldRows_path _ _ _ _ r hr]; simp
      · simp at hb
    | @cons new q news qs hq h2 =>
      simp only [trieRowsFrom, Option.bind_eq_bind, Option.bind_eq_some_iff, Option.pure_def,
        Option.some.injEq] at h
      obtain ⟨b, hb, row, hr, rest, hrest, rfl⟩ := h
      obtain ⟨hi, hb⟩ := bit_keyBit _ _ _ hb
      obtain ⟨f1, f2, f3, f4, f5, f6, f7⟩ := bothRow_facts hp hq hr
      obtain ⟨t11, t12, t13⟩ := t1
      obtain ⟨t21, t22, t23⟩ := t2
      obtain ⟨s1, s2⟩ := hs
      rw [List.length_cons] at hlo hln
      refine ⟨fun _ => ?_, ih (i + 1) news qs rest h2 (by omega) (by omega) hrest t13 t23 s2⟩
      cases hh : rest.head? with
      | none =>
        have hrl := rowsFrom_length hrest
        have : rest = [] := List.head?_eq_none_iff.1 hh
        subst this
        simp only [List.length_nil] at hrl
        have l1 : olds = [] := List.length_eq_zero_iff.1 (by omega)
        have l2 : news = [] := List.length_eq_zero_iff.1 (by omega)
        subst l1 l2
        cases h1
        cases h2
        have s1 := s1 rfl
        rw [if_pos rfl] at s1
        have hd : row.domain = q.domain := by
          rcases f7 with ⟨e1, e2⟩ | ⟨_, e2, _⟩
          · rw [e2, e1]
          · exfalso; simp at hlo hln; omega
        rw [hd]
        intro h0
        rw [h0] at s1
        cases hx : keyBit key i <;> simp [childIsBranch] at s1
      | some r =>
        intro hx
        have hq' : qs = [] := by
          cases h2 with
          | nil => rfl
          | @cons a b l l' g1 g2 =>
            exfalso
            cases h1 with
            | nil =>
              have : rest = extNewRows key bo (i + 1) (b :: l') := by
                rcases rowsFrom_bits _ _ _ _ _ _ _ _ _ hrest with hb | ⟨_, hb⟩
                · rw [rowsFrom_right key lo ln bo bn (i + 1) _ _ (.cons g1 g2) (by simpa using hb)] at hrest
                  exact (Option.some.inj hrest).symm
                · cases hb
              rw [this] at hh
              simp only [extNewRows, List.head?_cons, Option.some.injEq] at hh
              rw [← hh] at hx; cases hx
            | @cons c d m m' k1 k2 =>
              simp only [trieRowsFrom, Option.bind_eq_bind, Option.bind_eq_some_iff, Option.pure_def,
                Option.some.injEq] at hrest
              obtain ⟨_, _, row', hr', _, _, rfl⟩ := hrest
              simp only [List.head?_cons, Option.some.injEq] at hh
              subst hh
              have := (bothRow_facts k1 g1 hr').2.2.2.2.2.1
              rw [this] at hx; cases hx
        subst hq'
        cases h2
        have hp' : ps ≠ [] := by
          rintro rfl
          cases h1
          simp only [trieRowsFrom, Option.some.injEq] at hrest
          subst hrest
          cases hh
        have s1 := s1 rfl
        rw [if_neg hp'] at s1
        have c1 := t12.2 hp'
        have c2 : childIsBranch q.domain (keyBit key i) = false := by simpa using t22
        have hol : olds ≠ [] := by rintro rfl; cases h1; exact hp' rfl
        have hpos : 0 < olds.length := List.length_pos_iff.2 hol
        have hd : row.domain = q.domain := by
          rcases f7 with ⟨e1, e2⟩ | ⟨_, _, _, ⟨e2, _⟩ | ⟨_, e2, _⟩⟩
          · rw [e1, c2] at c1; cases c1
          · omega
          · exact e2
        have hbk : row.direction = keyBit key i := by rw [f5, hb]
        refine ⟨by rw [f4, f1]; exact s1, ?_, ?_⟩ <;> intro h0 <;> rw [hbk] <;> rw [hd] at h0 <;> rw [h0] at c2
        · simpa [childIsBranch] using c2
        · simpa [childIsBranch] using c2

end Mpt
