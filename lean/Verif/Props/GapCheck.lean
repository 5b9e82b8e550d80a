import Verif.Props.Gaps
import Verif.Props.WorldSoundDemo
import Verif.Assign.RowCheck

set_option autoImplicit false

/-!
# Checking gaps and claims of concrete runs by evaluation

Boolean checks for the counterexamples of C66: which missing constraints a run of given cells satisfies, whether a
claim describes an operation on a given state, whether hash inputs collide.
-/

namespace Mpt
open Spec MptUpdate

namespace Tab

def isTrie (u : URow) : Bool := decide (u.seg = .AccountTrie) || decide (u.seg = .StorageTrie)

/-- `x` for some word of the list `x` is hashed to `h` and has the RLC `v`. -/
def isWord (T : Tab) (words : List ℕ) (h v : Fr) : Bool :=
  words.any fun x => decide (x < 2 ^ 256) && T.p1 ((x / 2 ^ 128 : ℕ) : Fr) ((x % 2 ^ 128 : ℕ) : Fr) HashDomain.Pair.toFr h &&
    decide (v = Spec.rlc T.ρ (beBytes 32 x))

/-- The row `u`, followed by `v`, satisfies the missing constraint. The depth is at most 8 in the examples. -/
def gapRow (T : Tab) (words : List ℕ) (u v : URow) : Gap → Bool
  | .accountKey => decide (u.seg ≠ .AccountLeaf0) || decide (u.sibling = u.key)
  | .slotKey => decide (u.seg ≠ .StorageLeaf0) || decide (u.sibling = u.key)
  | .emptyRoot => !(decide (u.seg = .Start) && decide (v.seg = .AccountLeaf0) && decide (v.path = .ExtensionNew)) ||
      decide (u.oldHash = 0)
  | .levelBits => !(isTrie u && decide (u.path = .ExtensionNew) && isTrie v) ||
      (List.range 8).any fun i => decide (u.depth = ((i + 1 : ℕ) : Fr)) && decide (u.direction = bitFr (Spec.keyBit u.otherKey i))
  | .lastLevel => !(isTrie u && decide (u.path = .ExtensionNew) && !isTrie v) ||
      (List.range 8).any fun i => decide (u.depth = ((i + 1 : ℕ) : Fr)) && decide (u.direction ≠ bitFr (Spec.keyBit u.otherKey i))
  | .levelDomain => !(isTrie u && decide (u.path = .ExtensionNew) && isTrie v) ||
      decide (u.domain = if u.direction = 1 then HashDomain.Branch1.toFr else HashDomain.Branch2.toFr)
  | .lastDomain => !(isTrie u && decide (u.path = .ExtensionNew) && !isTrie v) ||
      decide (u.domain = HashDomain.Branch0.toFr)
  | .storageAccount => !(decide (u.seg = .AccountLeaf0) && decide (u.proof = .StorageChanged)) || decide (u.path = .Common)
  | .newWord => !(decide (u.seg = .StorageLeaf0) && decide (u.path = .ExtensionNew)) || T.isWord words u.newHash u.newValue
  | .oldWord => !(decide (u.seg = .StorageLeaf0) && decide (u.path = .ExtensionOld)) || T.isWord words u.oldHash u.oldValue
  | .leafFollows => !(decide (u.seg = .AccountTrie) && decide (u.path = .ExtensionNew)) || decide (v.seg ≠ .Start)
  | .newAccount => !(decide (u.seg = .AccountLeaf3) && decide (u.path = .ExtensionNew)) || decide (u.newHash ≠ 0)
  | .removalPair => !(decide (u.seg = .StorageTrie) && decide (u.path = .Common) && decide (v.path = .ExtensionOld) &&
      decide (v.seg = .StorageLeaf0)) || decide (u.domain ≠ HashDomain.Branch0.toFr)
  | .removalSibling => !(decide (u.seg = .StorageTrie) && decide (u.path = .Common) && decide (v.path = .ExtensionOld) &&
      decide (v.seg ≠ .StorageLeaf0)) || decide (u.sibling ≠ 0)
  | .removalDomain => !(decide (u.seg = .StorageTrie) && decide (u.path = .Common) && decide (v.path = .ExtensionOld) &&
      decide (v.seg ≠ .StorageLeaf0)) ||
      ((decide (u.domain ≠ HashDomain.Branch1.toFr) || decide (u.direction = 0)) &&
        (decide (u.domain ≠ HashDomain.Branch2.toFr) || decide (u.direction = 1)))

def gapRows (T : Tab) (words : List ℕ) (g : Gap) : List URow → Bool
  | [] => true
  | u :: l => T.gapRow words u (l.headD .blank) g && gapRows T words g l

variable {T : Tab} {words : List ℕ} {g : Gap}

theorem gapRow_congr {u v v' : URow} (h1 : v.seg = v'.seg) (h2 : v.path = v'.path) :
    T.gapRow words u v g = T.gapRow words u v' g := by
  cases g <;> simp only [gapRow, h1, h2, isTrie]

theorem gapRow_padding {v : URow} (h : v.seg = .Start) : T.gapRow words (.padding T.H) v g = true := by
  cases g <;> simp [gapRow, URow.padding, isTrie, h]

theorem gapRows_pairs {l : List URow} : T.gapRows words g l = true ↔
    Pairs (fun u v => T.gapRow words u v g = true) .blank l := by
  induction l with
  | nil => simp [gapRows, Pairs]
  | cons u l ih => simp only [gapRows, Bool.and_eq_true, Pairs, ih]

theorem gapRow_rows {l : List URow} (hf : T.fits l = true) (h : T.gapRows words g l = true) (r : ℤ)
    (hr : Enabled 2049 r) :
    T.gapRow words (rowAt (T.circuit l).rows r) (rowAt (T.circuit l).rows (r + 1)) g = true := by
  set Q := fun u v => T.gapRow words u v g = true with hQ
  have hpad : ∀ m, Pairs Q .blank (List.replicate m (.padding T.H)) := by
    intro m
    induction m with
    | zero => trivial
    | succ m ih =>
      refine ⟨gapRow_padding ?_, ih⟩
      cases m <;> rfl
  have hrows : (T.circuit l).rows = l ++ List.replicate (2048 - l.length) (.padding T.H) := by
    simp [circuit, demo]
  have hlen : l.length < 2048 := by
    simp only [fits, Bool.and_eq_true, decide_eq_true_eq] at hf
    exact hf.1.1.1.1.1.1
  have hall : Pairs Q .blank (T.circuit l).rows := by
    rw [hrows]
    refine (pairs_append _ _ _ _).2 ⟨?_, hpad _⟩
    refine pairs_head _ (fun u => ?_) (gapRows_pairs.1 h)
    obtain ⟨m, hm⟩ : ∃ m, 2048 - l.length = m + 1 := ⟨2048 - l.length - 1, by omega⟩
    rw [hm]
    intro hx
    exact (gapRow_congr rfl rfl).symm.trans hx
  obtain ⟨h1, h2⟩ := hr
  obtain ⟨k, rfl⟩ : ∃ k : ℕ, r = (k : ℤ) + 1 := ⟨(r - 1).toNat, by omega⟩
  have hk : k < (T.circuit l).rows.length := by
    rw [hrows, List.length_append, List.length_replicate]; omega
  have := pairs_get Q .blank _ hall k hk
  rw [rowAt_succ, show (k : ℤ) + 1 + 1 = ((k + 1 : ℕ) : ℤ) + 1 by push_cast; ring, rowAt_succ]
  exact this

theorem isWord_sound {l : List URow} (hf : T.fits l = true) {h v : Fr} (hw : T.isWord words h v = true) :
    ∃ x, IsWord (PR T.H (T.circuit l).witness 2049) x h ∧ v = Spec.rlc (T.circuit l).witness.chal (beBytes 32 x) := by
  simp only [isWord, List.any_eq_true, Bool.and_eq_true, decide_eq_true_eq] at hw
  obtain ⟨x, -, ⟨h1, h2⟩, h3⟩ := hw
  refine ⟨x, ⟨h1, ?_, posInputs_of (p1_sound (serves hf) h2)⟩, h3⟩
  simp only [p1, Bool.and_eq_true, decide_eq_true_eq] at h2
  exact h2.1

theorem depth_unique {i j : ℕ} (hi : i < 256) (hj : j < 8) {d : Fr} (h1 : d = ((i + 1 : ℕ) : Fr))
    (h2 : d = ((j + 1 : ℕ) : Fr)) : i = j := by
  have hb := frModulus_big
  have : i + 1 = j + 1 := natCast_inj_of_lt (by omega) (by omega) (h1.symm.trans h2)
  omega

/-- A gap that the check finds closed is closed. -/
theorem closed_of_gapRows {l : List URow} (hf : T.fits l = true) (h : T.gapRows words g l = true) :
    g.Closed T.H 2049 2049 (T.circuit l).witness := by
  have hget := gapRow_rows hf h
  have hat := (T.circuit l).atRow
  have hseg : ∀ r, segAt (T.circuit l).witness r = (rowAt (T.circuit l).rows r).seg :=
    fun r => OneHot.repr_unique _ _ _ _ (hat r).seg
  have hpath : ∀ r, pathAt (T.circuit l).witness r = (rowAt (T.circuit l).rows r).path :=
    fun r => OneHot.repr_unique _ _ _ _ (hat r).path
  have hproof : ∀ r, proofAt (T.circuit l).witness r = (rowAt (T.circuit l).rows r).proof :=
    fun r => OneHot.repr_unique _ _ _ _ (hat r).proof
  have htrie : ∀ r, IsTrieRow (T.circuit l).witness r ↔ isTrie (rowAt (T.circuit l).rows r) = true := fun r => by
    unfold IsTrieRow; rw [hseg]; simp [isTrie]
  cases g with
  | accountKey =>
    intro r hr hs
    have := hget r hr
    rw [hseg] at hs
    simp only [gapRow, hs, ne_eq, not_true_eq_false, decide_false, Bool.false_or, decide_eq_true_eq] at this
    rw [(hat r).sibling, (hat r).key, this]
  | slotKey =>
    intro r hr hs
    have := hget r hr
    rw [hseg] at hs
    simp only [gapRow, hs, ne_eq, not_true_eq_false, decide_false, Bool.false_or, decide_eq_true_eq] at this
    rw [(hat r).sibling, (hat r).key, this]
  | emptyRoot =>
    intro r hr _ h1 h2 h3
    have := hget r hr
    rw [hseg] at h1 h2
    rw [hpath] at h3
    simpa [gapRow, h1, h2, h3, (hat r).oldHash] using this
  | levelBits =>
    intro r hr h1 h2 h3 i hi hd
    have := hget r hr
    rw [htrie] at h1 h3
    rw [hpath] at h2
    simp only [gapRow, h1, h2, h3, decide_true, Bool.and_self, Bool.not_true, Bool.false_or, List.any_eq_true,
      List.mem_range, Bool.and_eq_true, decide_eq_true_eq] at this
    obtain ⟨j, hj, e1, e2⟩ := this
    rw [(hat r).depth] at hd
    obtain rfl := depth_unique hi hj hd e1
    rw [(hat r).direction, (hat r).otherKey, e2]
  | lastLevel =>
    intro r hr h1 h2 h3 i hi hd
    have := hget r hr
    rw [htrie] at h1 h3
    rw [hpath] at h2
    simp only [gapRow, h1, h2, Bool.not_eq_true] at this h3
    simp only [h3, decide_true, Bool.not_false, Bool.and_self, Bool.not_true, Bool.false_or, List.any_eq_true,
      List.mem_range, Bool.and_eq_true, decide_eq_true_eq] at this
    obtain ⟨j, hj, e1, e2⟩ := this
    rw [(hat r).depth] at hd
    obtain rfl := depth_unique hi hj hd e1
    rw [(hat r).direction, (hat r).otherKey]
    exact e2
  | levelDomain =>
    intro r hr h1 h2 h3 i hi hd
    have := hget r hr
    rw [htrie] at h1 h3
    rw [hpath] at h2
    simp only [gapRow, h1, h2, h3, decide_true, Bool.and_self, Bool.not_true, Bool.false_or, decide_eq_true_eq] at this
    rw [(hat r).domain, (hat r).direction, this]
  | lastDomain =>
    intro r hr h1 h2 h3 i hi hd
    have := hget r hr
    rw [htrie] at h1 h3
    rw [hpath] at h2
    simp only [gapRow, h1, h2, Bool.not_eq_true] at this h3
    simp only [h3, decide_true, Bool.not_false, Bool.and_self, Bool.not_true, Bool.false_or, decide_eq_true_eq] at this
    rw [(hat r).domain, this]
  | storageAccount =>
    intro r hr h1 h2
    have := hget r hr
    rw [hseg] at h1
    rw [hproof] at h2
    rw [hpath]
    simpa [gapRow, h1, h2] using this
  | newWord =>
    intro r hr h1 h2
    have := hget r hr
    rw [hseg] at h1
    rw [hpath] at h2
    rw [(hat r).newHash, (hat r).newValue]
    refine isWord_sound (words := words) hf ?_
    simpa [gapRow, h1, h2] using this
  | oldWord =>
    intro r hr h1 h2
    have := hget r hr
    rw [hseg] at h1
    rw [hpath] at h2
    rw [(hat r).oldHash, (hat r).oldValue]
    refine isWord_sound (words := words) hf ?_
    simpa [gapRow, h1, h2] using this
  | leafFollows =>
    intro r hr _ h1 h2
    have := hget r hr
    rw [hseg] at h1
    rw [hpath] at h2
    rw [hseg]
    simpa [gapRow, h1, h2] using this
  | newAccount =>
    intro r hr h1 h2 _
    have := hget r hr
    rw [hseg] at h1
    rw [hpath] at h2
    rw [(hat r).newHash]
    simpa [gapRow, h1, h2] using this
  | removalPair =>
    intro r hr h1 h2 h3 h4
    have := hget r hr
    rw [hseg] at h1 h4
    rw [hpath] at h2 h3
    rw [(hat r).domain]
    simpa [gapRow, h1, h2, h3, h4] using this
  | removalSibling =>
    intro r hr h1 h2 h3 h4
    have := hget r hr
    rw [hseg] at h1 h4
    rw [hpath] at h2 h3
    rw [(hat r).sibling]
    simpa [gapRow, h1, h2, h3, h4] using this
  | removalDomain =>
    intro r hr h1 h2 h3 h4
    have := hget r hr
    rw [hseg] at h1 h4
    rw [hpath] at h2 h3
    rw [(hat r).domain, (hat r).direction]
    simp only [gapRow, h1, h2, h3, h4, ne_eq, not_false_eq_true, decide_true, Bool.and_self, Bool.not_true,
      Bool.false_or, Bool.and_eq_true, Bool.or_eq_true, decide_eq_true_eq] at this
    exact ⟨fun e => this.1.resolve_left fun h' => h' e, fun e => this.2.resolve_left fun h' => h' e⟩

end Tab
end Mpt
