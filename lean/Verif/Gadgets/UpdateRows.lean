import Verif.Gadgets.MptUpdate
import Verif.Gadgets.LookupSound

set_option autoImplicit false

/-!
# Row-level meaning of the MPT update constraints

Every piece of the constraint program of `Verif.Gadgets.MptUpdate` is shown equivalent, on a row
whose one-hot columns are decoded, to an explicit statement about the cells.
-/

namespace Mpt
namespace MptUpdate
open Spec

variable {w : Witness Fr} {U : ℕ} {r : ℤ}

/-- The one-hot columns on row `r` and its neighbours are decoded: segment `σ` (next `σ'`), path
`p` (previous `pp`, next `p'`), proof type `t` (previous `tp`), and the `IsZero` gadgets of the row
hold. The previous row's types are only required on non-Start rows. For /repo/src/gadgets/one_hot.rs:54-65. -/
structure Dec (w : Witness Fr) (r : ℤ) (σ σ' : SegmentType) (pp p p' : PathType)
    (tp t : MPTProofType) : Prop where
  seg : segmentType.Repr w r σ
  segN : segmentType.Repr w (r + 1) σ'
  pthP : p ≠ .Start → pathType.Repr w (r - 1) pp
  pth : pathType.Repr w r p
  pthN : pathType.Repr w (r + 1) p'
  prfP : σ ≠ .Start → proofType.Repr w (r - 1) tp
  prf : proofType.Repr w r t
  iz : ∀ i, w.adv (.izInv i) r = (w.adv (.izVal i) r)⁻¹

variable {σ σ' : SegmentType} {pp p p' : PathType} {tp t : MPTProofType}

theorem Dec.eval_seg (h : Dec w r σ σ' pp p p' tp t) (l : List SegmentType) (hl : l.Nodup) :
    (MptUpdate.seg l).eval w r = if σ ∈ l then 1 else 0 :=
  OneHot.eval_matches _ _ _ _ _ _ hl (by simpa using h.seg)
theorem Dec.eval_segNext (h : Dec w r σ σ' pp p p' tp t) (l : List SegmentType) (hl : l.Nodup) :
    (MptUpdate.segNext l).eval w r = if σ' ∈ l then 1 else 0 :=
  OneHot.eval_matches _ _ _ _ _ _ hl h.segN
theorem Dec.eval_pth (h : Dec w r σ σ' pp p p' tp t) (l : List PathType) (hl : l.Nodup) :
    (MptUpdate.pth l).eval w r = if p ∈ l then 1 else 0 :=
  OneHot.eval_matches _ _ _ _ _ _ hl (by simpa using h.pth)
theorem Dec.eval_pthNext (h : Dec w r σ σ' pp p p' tp t) (l : List PathType) (hl : l.Nodup) :
    (MptUpdate.pthNext l).eval w r = if p' ∈ l then 1 else 0 :=
  OneHot.eval_matches _ _ _ _ _ _ hl h.pthN
theorem Dec.eval_pthPrev (h : Dec w r σ σ' pp p p' tp t) (hp : p ≠ .Start) (l : List PathType)
    (hl : l.Nodup) : (MptUpdate.pthPrev l).eval w r = if pp ∈ l then 1 else 0 :=
  OneHot.eval_matches _ _ _ _ _ _ hl (by simpa [sub_eq_add_neg] using h.pthP hp)
theorem Dec.eval_prf (h : Dec w r σ σ' pp p p' tp t) (l : List MPTProofType) (hl : l.Nodup) :
    (MptUpdate.prf l).eval w r = if t ∈ l then 1 else 0 :=
  OneHot.eval_matches _ _ _ _ _ _ hl (by simpa using h.prf)
theorem Dec.eval_isZero (h : Dec w r σ σ' pp p p' tp t) (i : Fin 4) :
    ((isZero i).current : Query Fr).eval w r = if w.adv (.izVal i) r = 0 then 1 else 0 :=
  IsZeroGadget.eval_current _ _ _ (h.iz i)

theorem ite_ne_zero' {P : Prop} [Decidable P] : (if P then (1 : Fr) else 0) ≠ 0 ↔ P := by
  split <;> simp [*]
theorem ite_eq_one' {P : Prop} [Decidable P] : (if P then (1 : Fr) else 0) = 1 ↔ P := by
  split <;> simp [*]
theorem one_sub_ite {P : Prop} [Decidable P] :
    (1 - if P then (1 : Fr) else 0) = if ¬P then 1 else 0 := by split <;> simp [*]
theorem ite_mul_ite {P Q : Prop} [Decidable P] [Decidable Q] :
    ((if P then (1 : Fr) else 0) * if Q then 1 else 0) = if P ∧ Q then 1 else 0 := by
  by_cases hP : P <;> by_cases hQ : Q <;> simp [*]

/-- The triples `(left, right, domain)` present on enabled, head, control-0 rows of the Poseidon
table. For /repo/src/constraint_builder.rs:89-130. -/
def PosInputs (w : Witness Fr) (U : ℕ) (l rr d : Fr) : Prop :=
  ∃ r', InU U r' ∧ w.fix .posEnable r' = 1 ∧ w.adv .posControl r' = 0 ∧ w.adv .posHead r' = 1 ∧
    w.adv .posLeft r' = l ∧ w.adv .posRight r' = rr ∧ w.adv .posDomain r' = d

/-- Soundness of the external Poseidon table: an enabled row with control 0 and head mark 1 holds a
correct hash. (External: the table is filled and constrained by the `hash-circuit` crate.)
For /repo/src/gadgets/poseidon.rs:12-24. -/
def PosSound (H : HashFn) (w : Witness Fr) (U : ℕ) : Prop :=
  ∀ r, InU U r → w.fix .posEnable r = 1 → w.adv .posControl r = 0 → w.adv .posHead r = 1 →
    w.adv .posHash r = H (w.adv .posLeft r) (w.adv .posRight r) (w.adv .posDomain r)

theorem posRow_sound {H : HashFn} (hp : PosSound H w U) {l rr d h : Fr}
    (h1 : Cmd.PoseidonRow w U 1 l rr d h) : h = H l rr d ∧ PosInputs w U l rr d := by
  obtain ⟨r', hr', h1, h2, h3, h4, h5, h6, h7⟩ := h1
  simp only [mul_one] at h2 h3 h4 h6
  refine ⟨?_, r', hr', h1.symm, h5.symm, h7.symm, h3.symm, h4.symm, h6.symm⟩
  rw [h2, h3, h4, h6]
  exact hp r' hr' h1.symm h5.symm h7.symm

/-- Shorthand for an active Poseidon lookup of the current row. For /repo/src/constraint_builder.rs:89-130. -/
abbrev P1 (w : Witness Fr) (U : ℕ) (l rr d h : Fr) : Prop := Cmd.PoseidonRow w U 1 l rr d h

/-- The hash input pair of a node with child `h` in direction `dir` and sibling `sib`.
/repo/src/gadgets/mpt_update.rs:943-961. -/
def lft (dir sib h : Fr) : Fr := dir * sib + (1 - dir) * h
/-- Right child, /repo/src/gadgets/mpt_update.rs:943-961. -/
def rgt (dir sib h : Fr) : Fr := dir * h + (1 - dir) * sib

theorem eval_oldLeft : oldLeft.eval w r =
    lft (w.adv .direction r) (w.adv .sibling r) (w.adv .oldHash r) := by simp [oldLeft, lft]
theorem eval_oldRight : oldRight.eval w r =
    rgt (w.adv .direction r) (w.adv .sibling r) (w.adv .oldHash r) := by simp [oldRight, rgt]
theorem eval_newLeft : newLeft.eval w r =
    lft (w.adv .direction r) (w.adv .sibling r) (w.adv .newHash r) := by simp [newLeft, lft]
theorem eval_newRight : newRight.eval w r =
    rgt (w.adv .direction r) (w.adv .sibling r) (w.adv .newHash r) := by simp [newRight, rgt]
theorem eval_dom (d : HashDomain) : (dom d).eval w r = d.toFr := by simp [dom, HashDomain.toFr]

/-- The old (new) node of row `r` with domain `d` is on the Poseidon table with the previous row's
old (new) hash as its hash. For /repo/src/gadgets/mpt_update.rs:943-951. -/
def OldNode (w : Witness Fr) (U : ℕ) (r : ℤ) (d : Fr) : Prop :=
  P1 w U (lft (w.adv .direction r) (w.adv .sibling r) (w.adv .oldHash r))
    (rgt (w.adv .direction r) (w.adv .sibling r) (w.adv .oldHash r)) d (w.adv .oldHash (r - 1))
/-- For /repo/src/gadgets/mpt_update.rs:953-961. -/
def NewNode (w : Witness Fr) (U : ℕ) (r : ℤ) (d : Fr) : Prop :=
  P1 w U (lft (w.adv .direction r) (w.adv .sibling r) (w.adv .newHash r))
    (rgt (w.adv .direction r) (w.adv .sibling r) (w.adv .newHash r)) d (w.adv .newHash (r - 1))

theorem holds_oldHashLookup (n : String) (d : Query Fr) :
    Cmd.Holds w U r (oldHashLookup n d) ↔ OldNode w U r (d.eval w r) := by
  simp only [oldHashLookup, Cmd.holds_poseidonLookup, eval_oldLeft, eval_oldRight,
    AdvCol.eval_prev, OldNode]
theorem holds_newHashLookup (n : String) (d : Query Fr) :
    Cmd.Holds w U r (newHashLookup n d) ↔ NewNode w U r (d.eval w r) := by
  simp only [newHashLookup, Cmd.holds_poseidonLookup, eval_newLeft, eval_newRight,
    AdvCol.eval_prev, NewNode]

/-- What the nonexistence gadget says: the value is 0, and the node is either a leaf with another
key (type 1) or empty (type 2). /repo/src/gadgets/mpt_update/nonexistence_proof.rs:9-52. -/
def Nonexist (w : Witness Fr) (U : ℕ) (r : ℤ) (value hash data : AdvCol) : Prop :=
  w.adv value r = 0 ∧
  w.adv (.izVal 2) r = w.adv .key r - w.adv .otherKey r ∧
  w.adv (.izVal 3) r = w.adv hash r ∧
  ((w.adv .key r ≠ w.adv .otherKey r ∧ w.adv hash r ≠ 0 ∧
      P1 w U (w.adv .otherKey r) (w.adv data r) HashDomain.Leaf.toFr (w.adv hash r)) ∨
   (w.adv .key r = w.adv .otherKey r ∧ w.adv hash r = 0))

theorem nonexistence_iff (h : Dec w r σ σ' pp p p' tp t) (value hash data : AdvCol) :
    Cmd.HoldsL w U r (nonexistence value hash data) ↔ Nonexist w U r value hash data := by
  have e2 := h.eval_isZero 2
  have e3 := h.eval_isZero 3
  simp only [nonexistence, Cmd.holdsL_cons, Cmd.holdsL_nil, and_true, Cmd.holds_assertZero,
    Cmd.holds_assertEqual, Cmd.holds_cond, Cmd.holds_poseidonLookup, Query.eval_bnot,
    Query.eval_add, Query.eval_sub, Query.eval_one, AdvCol.eval_cur, keyEqualsOtherKey, hashIsZero,
    eval_dom, e2, e3, Nonexist]
  simp only [isZero]
  constructor
  · rintro ⟨h1, h2, h3, h4, h5⟩
    refine ⟨h1, h2, h3, ?_⟩
    rw [h2, h3] at h4
    rw [h2] at h5
    by_cases hk : w.adv .key r = w.adv .otherKey r
    · right
      refine ⟨hk, ?_⟩
      by_contra hne
      simp [hk, hne] at h4
    · left
      have hk' : w.adv .key r - w.adv .otherKey r ≠ 0 := sub_ne_zero.2 hk
      refine ⟨hk, ?_, ?_⟩
      · intro h0
        simp [hk', h0] at h4
      · apply h5; simp [hk']
  · rintro ⟨h1, h2, h3, h4⟩
    refine ⟨h1, h2, h3, ?_, ?_⟩
    · rw [h2, h3]
      rcases h4 with ⟨ha, hb, _⟩ | ⟨ha, hb⟩
      · simp [sub_ne_zero.2 ha, hb]
      · simp [ha, hb]
    · rw [h2]
      rcases h4 with ⟨ha, hb, hc⟩ | ⟨ha, hb⟩
      · intro _; exact hc
      · simp [ha]

/-! ## Domains -/

theorem natCast_ne_of_lt {a b : ℕ} (ha : a < 2000) (hb : b < 2000) (hab : a ≠ b) :
    (a : Fr) ≠ (b : Fr) := by
  intro h
  have := frModulus_gt
  norm_num at this
  exact hab (natCast_inj_of_lt (by omega) (by omega) h)

theorem toNat_lt (d : HashDomain) : d.toNat < 2000 := by cases d <;> decide

theorem toFr_inj {a b : HashDomain} (h : a.toFr = b.toFr) : a = b := by
  by_contra hne
  refine natCast_ne_of_lt (toNat_lt a) (toNat_lt b) ?_ h
  revert hne
  cases a <;> cases b <;> decide

@[simp] theorem toFr_eq_iff {a b : HashDomain} : a.toFr = b.toFr ↔ a = b :=
  ⟨toFr_inj, fun h => h ▸ rfl⟩

theorem toFr_ne_zero (d : HashDomain) : d.toFr ≠ 0 := by
  have := natCast_ne_of_lt (toNat_lt d) (b := 0) (by norm_num) (by cases d <;> decide)
  simpa [HashDomain.toFr] using this

theorem newDomain_isSome : (lagrangePolynomial AdvCol.domain.cur newDomainPoints).isSome := by
  obtain ⟨q, hq, _⟩ := lagrangePolynomial_spec AdvCol.domain.cur newDomainPoints (by simp [newDomainPoints])
    (by simp [newDomainPoints])
  rw [hq]; rfl

/-- Domain of a node after a child in direction `dir` stops being terminal.
/repo/src/gadgets/mpt_update.rs:1044-1085. -/
def newDomVal (d dir : Fr) : Fr :=
  if d = HashDomain.Branch0.toFr then
    HashDomain.Branch1.toFr * dir + HashDomain.Branch2.toFr * (1 - dir)
  else if d = HashDomain.AccountFields.toFr then HashDomain.AccountFields.toFr
  else HashDomain.Branch3.toFr

/-- The four domains accepted when the path starts to be extended.
For /repo/src/gadgets/mpt_update.rs:1040-1180. -/
def Extendable (d : Fr) : Prop :=
  d = HashDomain.Branch0.toFr ∨ d = HashDomain.Branch1.toFr ∨ d = HashDomain.Branch2.toFr ∨
    d = HashDomain.AccountFields.toFr

theorem eval_domainNotBranch3 : domainNotBranch3.eval w r = 0 ↔ Extendable (w.adv .domain r) := by
  simp only [domainNotBranch3, Query.eval_mul, Query.eval_sub, AdvCol.eval_cur, eval_dom,
    mul_eq_zero, sub_eq_zero, Extendable, or_assoc]

theorem eval_newDomain (hd : Extendable (w.adv .domain r)) :
    newDomain.eval w r = newDomVal (w.adv .domain r) (w.adv .direction r) := by
  obtain ⟨q, hq, hs⟩ := lagrangePolynomial_spec AdvCol.domain.cur newDomainPoints
    (by simp [newDomainPoints]) (by simp [newDomainPoints])
  have hs := hs w r
  simp only [newDomain, hq, Option.getD_some]
  simp only [newDomainPoints, List.forall_mem_cons, List.not_mem_nil, false_imp_iff,
    implies_true, and_true, AdvCol.eval_cur, Query.eval_select, eval_dom] at hs
  obtain ⟨h0, h1, h2, h3⟩ := hs
  rcases hd with h | h | h | h
  · rw [h0 h, h]; simp [newDomVal]
  · rw [h1 h, h]; simp [newDomVal]
  · rw [h2 h, h]; simp [newDomVal]
  · rw [h3 h, h]; simp [newDomVal]

theorem foldl_mul_eval (l : List HashDomain) (q : Query Fr) :
    (l.foldl (fun product d => product * (AdvCol.domain.cur - dom d)) q).eval w r = 0 ↔
      q.eval w r = 0 ∨ ∃ d ∈ l, w.adv .domain r = d.toFr := by
  induction l generalizing q with
  | nil => simp
  | cons a l ih =>
    rw [List.foldl_cons, ih]
    simp only [Query.eval_mul, Query.eval_sub, AdvCol.eval_cur, eval_dom, mul_eq_zero, sub_eq_zero,
      List.mem_cons, exists_eq_or_imp, or_assoc]

/-! ## Loops over enums -/

theorem nodup_singleton' {α : Type} (a : α) : [a].Nodup := List.nodup_singleton a

theorem holdsL_map_cond {α : Type} [DecidableEq α] (l : List α) (a : α) (ha : a ∈ l)
    (c : α → Query Fr) (body : α → List (Cmd Fr))
    (hc : ∀ b, (c b).eval w r = if a ∈ [b] then 1 else 0) :
    Cmd.HoldsL w U r (l.map (fun v => .cond (c v) (body v))) ↔ Cmd.HoldsL w U r (body a) := by
  simp only [Cmd.holdsL_iff, List.mem_map]
  constructor
  · intro h
    have h1 := h _ ⟨a, ha, rfl⟩
    rw [Cmd.holds_cond] at h1
    exact (Cmd.holdsL_iff ..).1 (h1 (by rw [hc]; simp))
  · rintro h _ ⟨v, _, rfl⟩
    rw [Cmd.holds_cond, hc]
    intro hv
    have : a = v := by simpa using hv
    subst this
    exact (Cmd.holdsL_iff ..).2 h

theorem mem_segIter (σ : SegmentType) : σ ∈ SegmentType.iter := by cases σ <;> decide
theorem mem_pathIter (p : PathType) : p ∈ PathType.iter := by cases p <;> decide
theorem mem_prfIter (t : MPTProofType) : t ∈ MPTProofType.iter := by cases t <;> decide

theorem forSegments_iff (h : Dec w r σ σ' pp p p' tp t) (body : SegmentType → List (Cmd Fr)) :
    Cmd.HoldsL w U r (forSegments body) ↔ Cmd.HoldsL w U r (body σ) :=
  holdsL_map_cond _ σ (EnumIter.complete σ) _ _ (fun b => h.eval_seg [b] (nodup_singleton' b))

theorem transitions_nodup (t : MPTProofType) (σ : SegmentType) (l : List SegmentType)
    (h : transitions t σ = some l) : l.Nodup := by
  revert h; cases t <;> cases σ <;> (simp only [transitions]; intro h) <;>
    first | (cases h; decide) | cases h

theorem segmentTransitions_iff (h : Dec w r σ σ' pp p p' tp t) (t' : MPTProofType) :
    Cmd.HoldsL w U r (configureSegmentTransitions t') ↔ ∃ l, transitions t' σ = some l ∧ σ' ∈ l := by
  rw [configureSegmentTransitions, holdsL_map_cond SegmentType.iter σ (mem_segIter σ) _ _
    (fun b => h.eval_seg [b] (nodup_singleton' b))]
  cases ht : transitions t' σ with
  | none => simp
  | some l =>
    simp only [Cmd.holdsL_cons, Cmd.holdsL_nil, and_true, Cmd.holds_assert,
      h.eval_segNext l (transitions_nodup _ _ _ ht), ite_eq_one', Option.some.injEq, exists_eq_left']

theorem domains_iff (h : Dec w r σ σ' pp p p' tp t) :
    Cmd.HoldsL w U r configureDomains ↔ ∃ d ∈ domains σ, w.adv .domain r = d.toFr := by
  rw [configureDomains, holdsL_map_cond SegmentType.iter σ (mem_segIter σ) _ _
    (fun b => h.eval_seg [b] (nodup_singleton' b))]
  simp only [Cmd.holdsL_cons, Cmd.holdsL_nil, and_true, Cmd.holds_assertZero, foldl_mul_eval,
    Query.eval_one, one_ne_zero, false_or]

theorem forwardTransitions_nodup (p : PathType) : (forwardTransitions p).Nodup := by
  cases p <;> decide

theorem paths_iff (h : Dec w r σ σ' pp p p' tp t) :
    Cmd.HoldsL w U r configurePaths ↔
      p' ∈ forwardTransitions p ∧ Cmd.HoldsL w U r (configurePathType p) := by
  rw [configurePaths, holdsL_map_cond PathType.iter p (mem_pathIter p) _ _
    (fun b => h.eval_pth [b] (nodup_singleton' b))]
  simp only [Cmd.holdsL_cons, Cmd.holds_assert, h.eval_pthNext _ (forwardTransitions_nodup p),
    ite_eq_one']

theorem proofTypes_iff (h : Dec w r σ σ' pp p p' tp t) (H : HashFn) :
    Cmd.HoldsL w U r (configureProofTypes H) ↔
      (∃ l, transitions t σ = some l ∧ σ' ∈ l) ∧ Cmd.HoldsL w U r (configureProofType H t) := by
  rw [configureProofTypes, holdsL_map_cond MPTProofType.iter t (mem_prfIter t) _ _
    (fun b => h.eval_prf [b] (nodup_singleton' b)), Cmd.holdsL_append, segmentTransitions_iff h]

/-! ## Lookups into the internal tables -/

/-- `(v, k)` is on an enabled row of the byte-representation table.
For /repo/src/gadgets/byte_representation.rs:47-51. -/
def InBytes (w : Witness Fr) (U : ℕ) (v k : Fr) : Prop :=
  ∃ r', InU U r' ∧ w.fix .selector r' = 1 ∧ v = w.adv .brValue r' ∧ k = w.adv .brIndex r'
/-- `(v, k, x)` is on an enabled row of the byte-representation table.
For /repo/src/gadgets/byte_representation.rs:37-45. -/
def InRlc (w : Witness Fr) (U : ℕ) (v k x : Fr) : Prop :=
  ∃ r', InU U r' ∧ w.fix .selector r' = 1 ∧ v = w.adv .brValue r' ∧ k = w.adv .brIndex r' ∧
    x = w.adv .brRlc r'
/-- `(v, x)` is on an enabled row of the RLC view of the canonical-representation table.
For /repo/src/gadgets/canonical_representation.rs:324-332. -/
def InFrRlc (w : Witness Fr) (U : ℕ) (v x : Fr) : Prop :=
  ∃ r', InU U r' ∧ w.fix .selector r' = 1 ∧ v = w.adv .crValue r' * w.fix .crIndexIs31 r' ∧
    x = w.adv .crRlc r' * w.fix .crIndexIs31 r'
/-- `(v, i, b)` is on an enabled row of the key-bit table. For /repo/src/gadgets/key_bit.rs:169-178. -/
def InKeyBit (w : Witness Fr) (U : ℕ) (v i b : Fr) : Prop :=
  ∃ r', InU U r' ∧ w.fix .selector r' = 1 ∧ v = w.adv .kbValue r' ∧ i = w.adv .kbIndex r' ∧
    b = w.adv .kbBit r'

theorem holds_bytes (n : String) (a b : Query Fr) :
    Cmd.Holds w U r (.lookup n (List.zip [a, b] ByteRep.bytesLookup)) ↔
      InBytes w U (a.eval w r) (b.eval w r) := by
  simp [Cmd.holds_lookup, ByteRep.bytesLookup, InBytes]
theorem holds_rlc (n : String) (a b c : Query Fr) :
    Cmd.Holds w U r (.lookup n (List.zip [a, b, c] ByteRep.rlcLookup)) ↔
      InRlc w U (a.eval w r) (b.eval w r) (c.eval w r) := by
  simp [Cmd.holds_lookup, ByteRep.rlcLookup, InRlc]
theorem holds_frRlc (n : String) (a b : Query Fr) :
    Cmd.Holds w U r (.lookup n (List.zip [a, b] Canonical.frRlcLookup)) ↔
      InFrRlc w U (a.eval w r) (b.eval w r) := by
  simp [Cmd.holds_lookup, Canonical.frRlcLookup, InFrRlc]
theorem holds_keyBit (n : String) (a b c : Query Fr) :
    Cmd.Holds w U r (.lookup n (List.zip [a, b, c] KeyBit.lookup)) ↔
      InKeyBit w U (a.eval w r) (b.eval w r) (c.eval w r) := by
  simp [Cmd.holds_lookup, KeyBit.lookup, InKeyBit]

/-! ## The word gadget -/

/-- Cells of the word gadget: `high` and `low` are in the byte table with index 15, hash (Pair
domain) to `wordHash`, and their RLCs combine to `rlcWord`.
Meaning of /repo/src/gadgets/mpt_update/word_rlc.rs:16-62. -/
def WordRel (w : Witness Fr) (U : ℕ) (r : ℤ) (wordHash high low rlcWord rlcHigh rlcLow : AdvCol) :
    Prop :=
  InBytes w U (w.adv high r) 15 ∧ InBytes w U (w.adv low r) 15 ∧
  P1 w U (w.adv high r) (w.adv low r) HashDomain.Pair.toFr (w.adv wordHash r) ∧
  InRlc w U (w.adv high r) 15 (w.adv rlcHigh r) ∧ InRlc w U (w.adv low r) 15 (w.adv rlcLow r) ∧
  w.adv rlcWord r = w.adv rlcHigh r * w.chal ^ 16 + w.adv rlcLow r

theorem wordRlc_iff (a b c d e f : AdvCol) :
    Cmd.HoldsL w U r (wordRlc a b c d e f) ↔ WordRel w U r a b c d e f := by
  simp only [wordRlc, Cmd.holdsL_cons, Cmd.holdsL_nil, and_true, holds_bytes, holds_rlc,
    Cmd.holds_poseidonLookup, Cmd.holds_assertEqual, AdvCol.eval_cur, eval_dom, Query.eval_add,
    Query.eval_mul, Query.eval_square, Query.eval_challenge, Query.eval_natLit, WordRel]
  have : w.chal * w.chal * (w.chal * w.chal) * (w.chal * w.chal * (w.chal * w.chal)) *
      (w.chal * w.chal * (w.chal * w.chal) * (w.chal * w.chal * (w.chal * w.chal))) =
      w.chal ^ 16 := by ring
  rw [this]
  norm_num

/-! ## Rows by path type -/

/-- Meaning of `configure_common_path` on a row with next path `p'` and next segment `σ'`.
Meaning of /repo/src/gadgets/mpt_update.rs:983-1180. -/
def CommonRel (w : Witness Fr) (U : ℕ) (r : ℤ) (σ' : SegmentType) (p' : PathType) : Prop :=
  match p' with
  | .Common | .Start => OldNode w U r (w.adv .domain r) ∧ NewNode w U r (w.adv .domain r)
  | .ExtensionNew =>
    Extendable (w.adv .domain r) ∧ OldNode w U r (w.adv .domain r) ∧
    (if σ' ∈ [SegmentType.AccountLeaf0, .StorageLeaf0] then
      w.adv .oldHash r = 0 ∧ NewNode w U r (w.adv .domain r)
    else w.adv (.iv 2) r = newDomVal (w.adv .domain r) (w.adv .direction r) ∧
      NewNode w U r (w.adv (.iv 2) r))
  | .ExtensionOld =>
    Extendable (w.adv .domain r) ∧ NewNode w U r (w.adv .domain r) ∧
    (if σ' ∈ [SegmentType.AccountLeaf0, .StorageLeaf0] then
      w.adv .newHash r = 0 ∧ OldNode w U r (w.adv .domain r)
    else w.adv (.iv 2) r = newDomVal (w.adv .domain r) (w.adv .direction r) ∧
      OldNode w U r (w.adv (.iv 2) r))

theorem commonPath_iff (h : Dec w r σ σ' pp p p' tp t) :
    Cmd.HoldsL w U r configureCommonPath ↔ CommonRel w U r σ' p' := by
  simp only [configureCommonPath, Cmd.holdsL_cons, Cmd.holdsL_nil, and_true, Cmd.holds_cond,
    h.eval_pthNext [.Common, .Start] (by decide), h.eval_pthNext [.ExtensionNew] (by decide),
    h.eval_pthNext [.ExtensionOld] (by decide), Query.eval_bnot,
    h.eval_segNext [.AccountLeaf0, .StorageLeaf0] (by decide), one_sub_ite, ite_ne_zero',
    holds_oldHashLookup, holds_newHashLookup, Cmd.holds_assertZero, Cmd.holds_assertEqual,
    eval_domainNotBranch3, AdvCol.eval_cur]
  cases p' with
  | Start => simp [CommonRel]
  | Common => simp [CommonRel]
  | ExtensionOld =>
    simp only [CommonRel]
    by_cases hs : σ' ∈ [SegmentType.AccountLeaf0, .StorageLeaf0]
    · simp [hs]
    · simp only [hs, List.mem_cons, reduceCtorEq, List.not_mem_nil, or_self, false_imp_iff,
        true_and, or_false, true_imp_iff, not_false_eq_true, and_true, if_false]
      constructor
      · rintro ⟨h1, h2, h3, h4⟩
        exact ⟨h1, h2, by rw [h3, eval_newDomain h1], h4⟩
      · rintro ⟨h1, h2, h3, h4⟩
        exact ⟨h1, h2, by rw [h3, eval_newDomain h1], h4⟩
  | ExtensionNew =>
    simp only [CommonRel]
    by_cases hs : σ' ∈ [SegmentType.AccountLeaf0, .StorageLeaf0]
    · simp [hs]
    · simp only [hs, List.mem_cons, reduceCtorEq, List.not_mem_nil, or_self, false_imp_iff,
        true_and, or_false, true_imp_iff, not_false_eq_true, and_true, if_false]
      constructor
      · rintro ⟨h1, h2, h3, h4⟩
        exact ⟨h1, h2, by rw [h3, eval_newDomain h1], h4⟩
      · rintro ⟨h1, h2, h3, h4⟩
        exact ⟨h1, h2, by rw [h3, eval_newDomain h1], h4⟩

/-- Meaning of `configure_extension_old`. Meaning of /repo/src/gadgets/mpt_update.rs:1182-1267. -/
def ExtOldRel (w : Witness Fr) (U : ℕ) (r : ℤ) (σ σ' : SegmentType) (t : MPTProofType) : Prop :=
  t = .StorageChanged ∧ (σ = .StorageTrie ∨ σ = .StorageLeaf0) ∧
  w.adv .newValue r = 0 ∧ w.adv .newHash r = w.adv .newHash (r - 1) ∧
  OldNode w U r (w.adv .domain r) ∧
  (σ = .StorageTrie → w.adv .sibling r =
    if σ' = .StorageLeaf0 then w.adv .newHash (r - 1) else 0) ∧
  (σ = .StorageLeaf0 → Nonexist w U r .newValue .newHash (.iv 9))

theorem extOld_iff (h : Dec w r σ σ' pp p p' tp t) (hp : p ≠ .Start) :
    Cmd.HoldsL w U r configureExtensionOld ↔ ExtOldRel w U r σ σ' t := by
  simp only [configureExtensionOld, Cmd.holdsL_cons, Cmd.holdsL_nil, and_true, Cmd.holds_cond,
    Cmd.holds_assert, Query.eval_band, Query.eval_bor, h.eval_prf [.StorageChanged] (by decide),
    h.eval_seg [.StorageTrie, .StorageLeaf0] (by decide), h.eval_seg [.StorageTrie] (by decide),
    h.eval_seg [.StorageLeaf0] (by decide), h.eval_segNext [.StorageLeaf0] (by decide),
    h.eval_pthPrev hp [.ExtensionOld] (by decide), Query.eval_bnot, one_sub_ite, ite_mul_ite,
    ite_ne_zero', ite_eq_one', Cmd.holds_assertZero, Cmd.holds_assertEqual, AdvCol.eval_cur,
    AdvCol.eval_prev, holds_oldHashLookup, nonexistence_iff h, ExtOldRel, List.mem_cons,
    List.not_mem_nil, or_false]
  constructor
  · rintro ⟨⟨h1, h2⟩, h3, h4, h5, h6, h7, h8⟩
    refine ⟨h1, h2, h3, h4, h5, fun hs => ?_, h8⟩
    obtain ⟨ha, hb⟩ := h7 hs
    split
    · exact hb ‹_›
    · exact ha ‹_›
  · rintro ⟨h1, h2, h3, h4, h5, h6, h7⟩
    refine ⟨⟨h1, h2⟩, h3, h4, h5, ?_, fun hs => ⟨fun hn => ?_, fun hn => ?_⟩, h7⟩
    · simp [h2]
    · rw [h6 hs, if_neg hn]
    · rw [h6 hs, if_pos hn]

/-- Meaning of `configure_extension_new`. Meaning of /repo/src/gadgets/mpt_update.rs:1269-1354. -/
def ExtNewRel (w : Witness Fr) (U : ℕ) (r : ℤ) (σ σ' : SegmentType) (pp : PathType)
    (t : MPTProofType) : Prop :=
  t ∈ [MPTProofType.NonceChanged, .BalanceChanged, .StorageChanged] ∧
  w.adv .oldValue r = 0 ∧ w.adv .oldHash r = w.adv .oldHash (r - 1) ∧
  NewNode w U r (w.adv .domain r) ∧
  (pp ∈ [PathType.ExtensionNew] ∨ σ ∈ [SegmentType.AccountTrie, .AccountLeaf0, .StorageTrie, .StorageLeaf0]) ∧
  (σ ∈ [SegmentType.AccountTrie, .StorageTrie] → w.adv .sibling r =
    if σ' ∈ [SegmentType.AccountTrie, .StorageTrie] then 0 else w.adv .oldHash r) ∧
  (σ ∈ [SegmentType.AccountLeaf0, .StorageLeaf0] → Nonexist w U r .oldValue .oldHash (.iv 9))

theorem extNew_iff (h : Dec w r σ σ' pp p p' tp t) (hp : p ≠ .Start) :
    Cmd.HoldsL w U r configureExtensionNew ↔ ExtNewRel w U r σ σ' pp t := by
  simp only [configureExtensionNew, Cmd.holdsL_cons, Cmd.holdsL_nil, and_true, Cmd.holds_cond,
    Cmd.holds_assert, Query.eval_bor,
    h.eval_prf [.NonceChanged, .BalanceChanged, .StorageChanged] (by decide),
    h.eval_seg [.AccountTrie, .AccountLeaf0, .StorageTrie, .StorageLeaf0] (by decide),
    h.eval_seg [.AccountTrie, .StorageTrie] (by decide),
    h.eval_seg [.AccountLeaf0, .StorageLeaf0] (by decide),
    h.eval_segNext [.AccountTrie, .StorageTrie] (by decide),
    h.eval_pthPrev hp [.ExtensionNew] (by decide), Query.eval_bnot, one_sub_ite, ite_mul_ite,
    ite_ne_zero', ite_eq_one', Cmd.holds_assertZero, Cmd.holds_assertEqual, AdvCol.eval_cur,
    AdvCol.eval_prev, holds_newHashLookup, nonexistence_iff h, ExtNewRel, not_not,
    not_and_or]
  constructor
  · rintro ⟨h1, h3, h4, h5, h6, h7, h8⟩
    refine ⟨h1, h3, h4, h5, h6, fun hs => ?_, h8⟩
    obtain ⟨ha, hb⟩ := h7 hs
    split
    · exact ha ‹_›
    · exact hb ‹_›
  · rintro ⟨h1, h3, h4, h5, h6, h7, h8⟩
    refine ⟨h1, h3, h4, h5, h6, fun hs => ⟨fun hn => ?_, fun hn => ?_⟩, h8⟩
    · rw [h7 hs, if_pos hn]
    · rw [h7 hs, if_neg hn]

/-- Meaning of the per-path constraints. Meaning of /repo/src/gadgets/mpt_update.rs:983-1354. -/
def PathRel (w : Witness Fr) (U : ℕ) (r : ℤ) (σ σ' : SegmentType) (pp p p' : PathType)
    (t : MPTProofType) : Prop :=
  match p with
  | .Start => True
  | .Common => CommonRel w U r σ' p'
  | .ExtensionOld => ExtOldRel w U r σ σ' t
  | .ExtensionNew => ExtNewRel w U r σ σ' pp t

theorem pathType_iff (h : Dec w r σ σ' pp p p' tp t) :
    Cmd.HoldsL w U r (configurePathType p) ↔ PathRel w U r σ σ' pp p p' t := by
  cases p with
  | Start => simp [configurePathType, PathRel]
  | Common => exact commonPath_iff h
  | ExtensionOld => exact extOld_iff h (by decide)
  | ExtensionNew => exact extNew_iff h (by decide)

end MptUpdate
end Mpt
