import Verif.Gadgets.OneHot
import Mathlib.Algebra.BigOperators.Group.List.Basic
import Mathlib.Data.List.Nodup

set_option autoImplicit false

/-!
# `Query::from(Fr)` (query.rs:56-67) and `lagrange_polynomial` (util.rs:115-146)
-/

namespace Mpt

theorem mapM_eq_some_map {α β : Type} (l : List α) (f : α → Option β) (g : α → β)
    (h : ∀ a ∈ l, f a = some (g a)) : l.mapM f = some (l.map g) := by
  induction l with
  | nil => rfl
  | cons a l ih =>
    rw [List.mapM_cons, h a (by simp), ih (fun b hb => h b (by simp [hb]))]
    rfl

theorem mapM_eq_none {α β : Type} (l : List α) (f : α → Option β) (a : α) (ha : a ∈ l)
    (h : f a = none) : l.mapM f = none := by
  induction l with
  | nil => simp at ha
  | cons b l ih =>
    rw [List.mapM_cons]
    rcases List.mem_cons.1 ha with rfl | h2
    · rw [h]; rfl
    · cases hb : f b with
      | none => rfl
      | some v => rw [ih h2]; rfl

theorem getD_eq_getElem' {α : Type} {l : List α} {i : ℕ} {d : α} (h : i < l.length) :
    l.getD i d = l[i] := by
  rw [List.getD_eq_getElem?_getD, List.getElem?_eq_getElem h, Option.getD_some]

/-! ## Conversion of field constants -/

/-- `Query::two_to_the_64th`, query.rs:29-31. -/
def Query.twoToThe64th : Query Fr := Query.square (Query.ofNat (2 ^ 32))

/-- The little-endian 64-bit limbs of a field element:
`x.to_repr().chunks_exact(8).map(u64::from_le_bytes)`, query.rs:58-62 (`to_repr` is the canonical
32-byte little-endian representation). -/
def Query.limbs (x : Fr) : List ℕ :=
  (List.range 4).map (fun i => x.val / 2 ^ (64 * i) % 2 ^ 64)

/-- `From<Fr> for Query`, query.rs:56-67 (`rfold` consumes the last limb first). -/
def Query.fromFr (x : Fr) : Query Fr :=
  (Query.limbs x).foldr (fun limb result => result * Query.twoToThe64th + Query.ofNat limb) 0

@[simp] theorem Query.eval_fromFr (x : Fr) (w : Witness Fr) (r : ℤ) :
    (Query.fromFr x).eval w r = x := by
  have hlt : x.val < 2 ^ 256 := lt_trans (lt_trans (ZMod.val_lt x) frModulus_lt) (by norm_num)
  simp only [fromFr, limbs, List.range, List.range.loop, List.map_cons, List.map_nil,
    List.foldr_cons, List.foldr_nil, eval_add, eval_mul, eval_zero, eval_ofNat, twoToThe64th,
    eval_square]
  have key : x.val = ((((x.val / 2 ^ (64 * 3) % 2 ^ 64) * 2 ^ 64 + x.val / 2 ^ (64 * 2) % 2 ^ 64)
      * 2 ^ 64 + x.val / 2 ^ (64 * 1) % 2 ^ 64) * 2 ^ 64 + x.val / 2 ^ (64 * 0) % 2 ^ 64) := by
    norm_num at hlt ⊢
    omega
  conv_rhs => rw [← ZMod.natCast_zmod_val x, key]
  push_cast
  ring

/-! ## Lagrange interpolation -/

/-- One basis polynomial: numerator query and denominator, util.rs:121-134. `others` are the
`(xi, xj)`-filtered coordinates in order; `none` models the panics `assert_ne!(xi, xj)` and
`.expect("points.len() < 2")`. -/
def lagrangeBasis (arg : Query Fr) (xi : Fr) (others : List Fr) : Option (Query Fr) :=
  if xi ∈ others then none else
  match others.map (fun xj => (arg - Query.fromFr xj, xi - xj)) with
  | [] => none
  | p :: ps =>
    let nd := ps.foldl (fun a b => (a.1 * b.1, a.2 * b.2)) p
    some (nd.1 * Query.fromFr nd.2⁻¹)

/-- `lagrange_polynomial`, util.rs:115-146; `none` = panic. `x_coordinates.enumerate()` with
`filter_map (i ≠ j)` is `eraseIdx i`. -/
def lagrangePolynomial (arg : Query Fr) (points : List (Fr × Query Fr)) : Option (Query Fr) := do
  let xs := points.map (·.1)
  let basis ← (List.range xs.length).mapM (fun i => lagrangeBasis arg (xs.getD i 0) (xs.eraseIdx i))
  match List.zipWith (fun b y => b * y) basis (points.map (·.2)) with
  | [] => none
  | q :: qs => some (qs.foldl (· + ·) q)

theorem lagrange_fold (arg : Query Fr) (xi : Fr) (l : List Fr) (p : Query Fr × Fr)
    (w : Witness Fr) (r : ℤ) :
    (((l.map (fun xj => (arg - Query.fromFr xj, xi - xj))).foldl
      (fun a b => (a.1 * b.1, a.2 * b.2)) p).1).eval w r =
        p.1.eval w r * (l.map (fun xj => arg.eval w r - xj)).prod ∧
    ((l.map (fun xj => (arg - Query.fromFr xj, xi - xj))).foldl
      (fun a b => (a.1 * b.1, a.2 * b.2)) p).2 = p.2 * (l.map (fun xj => xi - xj)).prod := by
  induction l generalizing p with
  | nil => simp
  | cons x l ih =>
    simp only [List.map_cons, List.foldl_cons, List.prod_cons]
    refine ⟨?_, ?_⟩
    · rw [(ih _).1]; simp [mul_assoc]
    · rw [(ih _).2]; simp [mul_assoc]

/-- A basis polynomial exists for a coordinate distinct from a non-empty list of others, and
evaluates to 1 at its own coordinate and 0 at the others. -/
theorem lagrangeBasis_spec (arg : Query Fr) (xi : Fr) (others : List Fr) (hne : others ≠ [])
    (hd : xi ∉ others) : ∃ q, lagrangeBasis arg xi others = some q ∧ ∀ w r,
      (arg.eval w r = xi → q.eval w r = 1) ∧ (arg.eval w r ∈ others → q.eval w r = 0) := by
  cases others with
  | nil => exact absurd rfl hne
  | cons x l =>
    refine ⟨_, by simp only [lagrangeBasis, hd, if_false, List.map_cons]; rfl, ?_⟩
    intro w r
    have h := lagrange_fold arg xi l (arg - Query.fromFr x, xi - x) w r
    simp only [Query.eval_mul, Query.eval_fromFr]
    rw [h.1, h.2]
    have e1 : (arg - Query.fromFr x).eval w r * (l.map (fun xj => arg.eval w r - xj)).prod =
        ((x :: l).map (fun xj => arg.eval w r - xj)).prod := by simp
    have e2 : (xi - x) * (l.map (fun xj => xi - xj)).prod =
        ((x :: l).map (fun xj => xi - xj)).prod := by simp
    rw [e1]
    show (_ → _ * ((xi - x) * (l.map (fun xj => xi - xj)).prod)⁻¹ = _) ∧
      (_ → _ * ((xi - x) * (l.map (fun xj => xi - xj)).prod)⁻¹ = _)
    rw [e2]
    constructor
    · intro ha
      rw [ha]
      apply mul_inv_cancel₀
      intro h0
      rw [List.prod_eq_zero_iff, List.mem_map] at h0
      obtain ⟨y, hy, hy2⟩ := h0
      rw [sub_eq_zero] at hy2
      exact hd (hy2 ▸ hy)
    · intro ha
      have : ((x :: l).map (fun xj => arg.eval w r - xj)).prod = 0 := by
        rw [List.prod_eq_zero_iff, List.mem_map]
        exact ⟨_, ha, sub_self _⟩
      rw [this, zero_mul]

theorem foldl_add_eval (l : List (Query Fr)) (q : Query Fr) (w : Witness Fr) (r : ℤ) :
    (l.foldl (· + ·) q).eval w r = q.eval w r + (l.map (fun a => a.eval w r)).sum := by
  induction l generalizing q with
  | nil => simp
  | cons a l ih => simp [ih, add_assoc]

theorem sum_zipWith_indicator (bs : List (Query Fr)) (ys : List (Query Fr)) (i : ℕ)
    (w : Witness Fr) (r : ℤ) (hlen : bs.length = ys.length) (hi : i < bs.length)
    (h1 : (bs[i]).eval w r = 1) (h0 : ∀ j (hj : j < bs.length), j ≠ i → (bs[j]).eval w r = 0) :
    ((List.zipWith (fun b y => b * y) bs ys).map (fun a => a.eval w r)).sum =
      (ys[i]'(hlen ▸ hi)).eval w r := by
  induction bs generalizing ys i with
  | nil => simp at hi
  | cons b bs ih =>
    cases ys with
    | nil => simp at hlen
    | cons y ys =>
      simp only [List.length_cons, add_left_inj] at hlen
      simp only [List.zipWith_cons_cons, List.map_cons, List.sum_cons, Query.eval_mul]
      cases i with
      | zero =>
        simp only [List.getElem_cons_zero] at h1 ⊢
        have : ((List.zipWith (fun b y => b * y) bs ys).map (fun a => a.eval w r)).sum = 0 := by
          apply List.sum_eq_zero
          intro v hv
          rw [List.mem_map] at hv
          obtain ⟨a, ha, rfl⟩ := hv
          obtain ⟨j, hj, rfl⟩ := List.getElem_of_mem ha
          rw [List.getElem_zipWith, Query.eval_mul]
          have hj2 : j < bs.length := by simp at hj; omega
          have := h0 (j + 1) (by simpa using hj2) (by omega)
          simp only [List.getElem_cons_succ] at this
          rw [this, zero_mul]
        rw [h1, this]; ring
      | succ i =>
        have hb : b.eval w r = 0 := h0 0 (by simp) (by omega)
        rw [hb, zero_mul, zero_add]
        simp only [List.getElem_cons_succ] at h1 ⊢
        apply ih ys i hlen (by simpa using hi) h1
        intro j hj hji
        exact h0 (j + 1) (by simpa using hj) (by omega)

/-- `lagrange_polynomial` on at least two points with distinct x coordinates does not panic, and
the query it returns takes the value `y_i` on every row of every witness on which the argument
takes the value `x_i`. -/
theorem lagrangePolynomial_spec (arg : Query Fr) (points : List (Fr × Query Fr))
    (hlen : 2 ≤ points.length) (hd : (points.map (·.1)).Nodup) :
    ∃ q, lagrangePolynomial arg points = some q ∧
      ∀ (w : Witness Fr) (r : ℤ), ∀ p ∈ points, arg.eval w r = p.1 → q.eval w r = p.2.eval w r := by
  have hnot : ∀ i (hi : i < (points.map (·.1)).length),
      (points.map (·.1))[i] ∉ (points.map (·.1)).eraseIdx i := by
    intro i hi hmem
    have := hd.erase_getElem i hi
    rw [← this] at hmem
    exact (hd.not_mem_erase) hmem
  have hb : ∀ i, i < points.length → ∃ q, lagrangeBasis arg ((points.map (·.1)).getD i 0)
      ((points.map (·.1)).eraseIdx i) = some q ∧ ∀ w r,
      (arg.eval w r = (points.map (·.1)).getD i 0 → q.eval w r = 1) ∧
      (arg.eval w r ∈ (points.map (·.1)).eraseIdx i → q.eval w r = 0) := by
    intro i hi
    have hi' : i < (points.map (·.1)).length := by simpa using hi
    apply lagrangeBasis_spec
    · intro h0
      have : ((points.map (·.1)).eraseIdx i).length = points.length - 1 := by
        rw [List.length_eraseIdx]; simp [hi]
      rw [h0] at this
      simp at this; omega
    · rw [getD_eq_getElem' hi']
      exact hnot i hi'
  choose! f hf1 hf2 using hb
  have hm : (List.range points.length).mapM (fun i => lagrangeBasis arg
      ((points.map (·.1)).getD i 0) ((points.map (·.1)).eraseIdx i)) =
      some ((List.range points.length).map f) := by
    apply mapM_eq_some_map
    intro i hi
    exact hf1 i (List.mem_range.1 hi)
  obtain ⟨q, qs, hz⟩ : ∃ q qs, List.zipWith (fun b y => b * y)
      ((List.range points.length).map f) (points.map (·.2)) = q :: qs := by
    rw [← List.ne_nil_iff_exists_cons]
    intro h0
    have := congrArg List.length h0
    simp at this
    subst this; simp at hlen
  refine ⟨qs.foldl (· + ·) q, ?_, ?_⟩
  · unfold lagrangePolynomial
    simp only [List.length_map]
    rw [hm]
    simp only [Option.bind_eq_bind, Option.bind_some]
    rw [hz]
  · intro w r p hp ha
    obtain ⟨i, hi, rfl⟩ := List.getElem_of_mem hp
    rw [foldl_add_eval]
    have e : q.eval w r + (qs.map (fun a => a.eval w r)).sum =
        ((List.zipWith (fun b y => b * y) ((List.range points.length).map f)
          (points.map (·.2))).map (fun a => a.eval w r)).sum := by rw [hz]; simp
    rw [e, sum_zipWith_indicator _ _ i w r (by simp) (by simpa using hi)]
    · simp
    · simp only [List.getElem_map, List.getElem_range]
      apply (hf2 i hi w r).1
      rw [getD_eq_getElem' (by simpa using hi)]
      simpa using ha
    · intro j hj hji
      simp only [List.getElem_map, List.getElem_range]
      have hj' : j < points.length := by simpa using hj
      apply (hf2 j hj' w r).2
      rw [ha, ← hd.erase_getElem j (by simpa using hj')]
      rw [hd.mem_erase_iff]
      refine ⟨?_, List.mem_map_of_mem (List.getElem_mem hi)⟩
      intro heq
      apply hji
      have h3 : (points.map (·.1))[i]'(by simpa using hi) = (points.map (·.1))[j]'(by simpa using hj') := by
        simpa using heq
      exact ((List.Nodup.getElem_inj_iff hd).1 h3).symm

/-- The two panics: fewer than two points, or a repeated x coordinate. -/
theorem lagrangePolynomial_panics (arg : Query Fr) (points : List (Fr × Query Fr))
    (h : points.length < 2 ∨ ¬ (points.map (·.1)).Nodup) : lagrangePolynomial arg points = none := by
  rcases h with h | h
  · match points, h with
    | [], _ => rfl
    | [p], _ => rfl
    | _ :: _ :: _, h => simp at h
  · rw [List.nodup_iff_getElem?_ne_getElem?] at h
    push Not at h
    obtain ⟨i, j, hij, hj, heq⟩ := h
    have hi : i < (points.map (·.1)).length := by omega
    rw [List.getElem?_eq_getElem hi, List.getElem?_eq_getElem hj, Option.some_inj] at heq
    have hbad : lagrangeBasis arg ((points.map (·.1)).getD i 0) ((points.map (·.1)).eraseIdx i)
        = none := by
      rw [getD_eq_getElem' hi]
      unfold lagrangeBasis
      rw [if_pos]
      rw [List.mem_eraseIdx_iff_getElem]
      exact ⟨j, hj, by omega, heq.symm⟩
    have hm : (List.range points.length).mapM (fun i => lagrangeBasis arg
        ((points.map (·.1)).getD i 0) ((points.map (·.1)).eraseIdx i)) = none :=
      mapM_eq_none _ _ i (by simpa using hi) hbad
    unfold lagrangePolynomial
    simp only [List.length_map]
    rw [hm]; rfl

end Mpt
