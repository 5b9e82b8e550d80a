import Verif.Assign.Demo
import Verif.Assign.DemoRuns

set_option autoImplicit false

/-!
# Checking concrete runs by evaluation

A boolean check of the row relations of a run of given cells against given table contents, and its soundness: a
run that passes satisfies the relations in the demo circuit with these tables. The kernel can evaluate the check
on concrete rows. Used for the counterexamples of C66; nothing here models code of its own.
-/

namespace Mpt
open Spec MptUpdate

/-- Table contents. Simplification for examples; not code of /repo. -/
structure Tab where
  H : HashFn
  ρ : Fr
  strings : List (List ℕ)
  keys : List Fr
  reqs : List KeyBit.Req
  pos : List (Fr × Fr × Fr)

namespace Tab
variable (T : Tab)

def p1 (l r d h : Fr) : Bool := decide (h = T.H l r d) && T.pos.contains (l, r, d)
def rlc (v : Fr) (k : ℕ) (x : Fr) : Bool :=
  T.strings.any fun s => decide (s.length = k + 1) && decide (v = ((beVal s : ℕ) : Fr)) && decide (x = Spec.rlc T.ρ s)
def bytes (v : Fr) (k : ℕ) : Bool :=
  T.strings.any fun s => decide (s.length = k + 1) && decide (v = ((beVal s : ℕ) : Fr))
def frRlc (v x : Fr) : Bool := decide (x = rootRlc T.ρ v) && T.keys.contains v
def keyBit (v i b : Fr) : Bool :=
  T.reqs.any fun q => decide (v = q.1) && decide (i = ((q.2.1 : ℕ) : Fr)) && decide (b = bitFr q.2.2)

def oldNode (prev u : URow) (d : Fr) : Bool :=
  T.p1 (lft u.direction u.sibling u.oldHash) (rgt u.direction u.sibling u.oldHash) d prev.oldHash
def newNode (prev u : URow) (d : Fr) : Bool :=
  T.p1 (lft u.direction u.sibling u.newHash) (rgt u.direction u.sibling u.newHash) d prev.newHash

/-- `MptUpdate.Nonexist` on given cells. -/
def nonexist (u : URow) (value hash data : Fr) : Bool :=
  decide (value = 0) && decide (u.iz 2 = u.key - u.otherKey) && decide (u.iz 3 = hash) &&
  ((decide (u.key ≠ u.otherKey) && decide (hash ≠ 0) && T.p1 u.otherKey data HashDomain.Leaf.toFr hash) ||
    (decide (u.key = u.otherKey) && decide (hash = 0)))

/-- `MptUpdate.WordRel` on given cells. -/
def word (hash high low rlcWord rlcHigh rlcLow : Fr) : Bool :=
  T.p1 high low HashDomain.Pair.toFr hash && T.rlc high 15 rlcHigh && T.rlc low 15 rlcLow &&
  decide (rlcWord = rlcHigh * T.ρ ^ 16 + rlcLow)

def oldNewWord (u : URow) : Bool :=
  T.word u.oldHash (u.iv 0) (u.iv 1) u.oldValue (u.sp 0) (u.sp 1) &&
  T.word u.newHash (u.iv 2) (u.iv 3) u.newValue (u.sp 2) (u.sp 3)
def keyWord (u : URow) : Bool := T.word u.key (u.iv 0) (u.iv 1) u.storageKeyRlc (u.sp 0) (u.sp 1)

def extendable (d : Fr) : Bool :=
  decide (d = HashDomain.Branch0.toFr) || decide (d = HashDomain.Branch1.toFr) ||
  decide (d = HashDomain.Branch2.toFr) || decide (d = HashDomain.AccountFields.toFr)

/-- `MptUpdate.CommonRel` on given cells. -/
def common (prev u : URow) (σ' : SegmentType) (p' : PathType) : Bool :=
  match p' with
  | .Common | .Start => T.oldNode prev u u.domain && T.newNode prev u u.domain
  | .ExtensionNew =>
    extendable u.domain && T.oldNode prev u u.domain &&
    (if σ' ∈ [SegmentType.AccountLeaf0, .StorageLeaf0] then
      decide (u.oldHash = 0) && T.newNode prev u u.domain
    else decide (u.iv 2 = newDomVal u.domain u.direction) && T.newNode prev u (u.iv 2))
  | .ExtensionOld =>
    extendable u.domain && T.newNode prev u u.domain &&
    (if σ' ∈ [SegmentType.AccountLeaf0, .StorageLeaf0] then
      decide (u.newHash = 0) && T.oldNode prev u u.domain
    else decide (u.iv 2 = newDomVal u.domain u.direction) && T.oldNode prev u (u.iv 2))

/-- `MptUpdate.ExtOldRel` on given cells. -/
def extOld (prev u : URow) (σ' : SegmentType) : Bool :=
  decide (u.proof = .StorageChanged) && (decide (u.seg = .StorageTrie) || decide (u.seg = .StorageLeaf0)) &&
  decide (u.newValue = 0) && decide (u.newHash = prev.newHash) && T.oldNode prev u u.domain &&
  (decide (u.seg ≠ .StorageTrie) || decide (u.sibling = if σ' = .StorageLeaf0 then prev.newHash else 0)) &&
  (decide (u.seg ≠ .StorageLeaf0) || T.nonexist u u.newValue u.newHash (u.iv 9))

/-- `MptUpdate.ExtNewRel` on given cells. -/
def extNew (prev u : URow) (σ' : SegmentType) : Bool :=
  decide (u.proof ∈ [MPTProofType.NonceChanged, .BalanceChanged, .StorageChanged]) &&
  decide (u.oldValue = 0) && decide (u.oldHash = prev.oldHash) && T.newNode prev u u.domain &&
  (decide (prev.path ∈ [PathType.ExtensionNew]) ||
    decide (u.seg ∈ [SegmentType.AccountTrie, .AccountLeaf0, .StorageTrie, .StorageLeaf0])) &&
  (decide (u.seg ∉ [SegmentType.AccountTrie, .StorageTrie]) ||
    decide (u.sibling = if σ' ∈ [SegmentType.AccountTrie, .StorageTrie] then 0 else u.oldHash)) &&
  (decide (u.seg ∉ [SegmentType.AccountLeaf0, .StorageLeaf0]) || T.nonexist u u.oldValue u.oldHash (u.iv 9))

def path (prev u : URow) (σ' : SegmentType) (p' : PathType) : Bool :=
  match u.path with
  | .Start => true
  | .Common => T.common prev u σ' p'
  | .ExtensionOld => T.extOld prev u σ'
  | .ExtensionNew => T.extNew prev u σ'

def emptyEnd (u : URow) (σ' : SegmentType) : Bool :=
  decide (σ' ≠ .Start) ||
    (decide (u.oldHash = u.newHash) && decide (u.oldValue = u.newValue) && T.nonexist u u.oldValue u.oldHash (u.iv 3))

/-- The last row of a nonce claim: `MptUpdate.NonceRel`, without division. -/
def nonceEnd (u : URow) : Bool :=
  decide (u.direction = 0) && T.bytes u.newValue 7 &&
  (decide (u.path ≠ .Common) || (T.bytes u.oldValue 7 &&
    T.strings.any fun s => decide (s.length = 8) &&
      decide (u.oldHash - u.oldValue = ((beVal s : ℕ) : Fr) * two64) &&
      decide (u.newHash - u.newValue = ((beVal s : ℕ) : Fr) * two64))) &&
  (decide (u.path ≠ .ExtensionNew) || (decide (u.oldValue = 0) && decide (u.newHash - u.newValue = 0) &&
    decide (u.sibling = 0)))

def nonce (u : URow) (σ' : SegmentType) : Bool :=
  decide (u.path ≠ .ExtensionOld) &&
  match u.seg with
  | .Start | .AccountTrie => T.emptyEnd u σ'
  | .AccountLeaf0 => decide (u.direction = 1)
  | .AccountLeaf1 => decide (u.direction = 0) && (decide (u.path ≠ .ExtensionNew) || decide (u.sibling = 0))
  | .AccountLeaf2 => decide (u.direction = 0) &&
      (decide (u.path ≠ .ExtensionNew) || decide (u.sibling = zeroStorageRootKeccakCodehashHash T.H))
  | .AccountLeaf3 => T.nonceEnd u
  | _ => true

/-- `MptUpdate.StorageRel` on given cells. -/
def storage (u : URow) : Bool :=
  match u.seg with
  | .AccountLeaf0 => decide (u.direction = 1)
  | .AccountLeaf1 => decide (u.direction = 0)
  | .AccountLeaf2 => decide (u.direction = 1)
  | .AccountLeaf3 => decide (u.direction = 0) && T.keyWord u
  | .StorageLeaf0 => decide (u.direction = 1) && (decide (u.path ≠ .Common) || T.oldNewWord u) &&
      decide (u.iz 0 = u.oldHash - zeroPairHash T.H) && decide (u.iz 1 = u.newHash - zeroPairHash T.H) &&
      decide (u.oldHash ≠ zeroPairHash T.H) && decide (u.newHash ≠ zeroPairHash T.H)
  | _ => true

/-- Only nonce and storage claims are needed. -/
def proof (u : URow) (σ' : SegmentType) : Bool :=
  match u.proof with
  | .NonceChanged => T.nonce u σ'
  | .StorageChanged => T.storage u
  | _ => false

def start (u : URow) : Bool :=
  decide (u.seg ≠ .Start) ||
  (T.p1 (u.iv 0) (u.iv 1 * ((2 ^ 96 : ℕ) : Fr)) HashDomain.Pair.toFr u.key && T.bytes (u.iv 0) 15 &&
    T.bytes (u.iv 1) 3 && T.frRlc u.oldHash (u.sp 0) && T.frRlc u.newHash (u.sp 1))

/-- `MptUpdate.CommonRowRel` on given cells. -/
def keep (prev u : URow) : Bool :=
  (decide (u.seg = .Start) || (decide (u.proof = prev.proof) && decide (u.storageKeyRlc = prev.storageKeyRlc) &&
    decide (u.oldValue = prev.oldValue) && decide (u.newValue = prev.newValue))) &&
  (decide (u.seg = .Start) || decide (u.seg = .AccountLeaf3) ||
    (decide (u.key = prev.key) && decide (u.otherKey = prev.otherKey))) &&
  (if u.seg = .AccountTrie ∨ u.seg = .StorageTrie then
    T.keyBit u.key (u.depth - 1) u.direction && decide (u.depth = prev.depth + 1) &&
    (decide (u.path ≠ .Common) || T.keyBit u.otherKey (u.depth - 1) u.direction)
  else decide (u.depth = 0))

def segNext (u : URow) (σ' : SegmentType) : Bool :=
  match transitions u.proof u.seg with
  | some l => decide (σ' ∈ l)
  | none => false

/-- All relations of a row. -/
def row (prev u : URow) (σ' : SegmentType) (p' : PathType) : Bool :=
  decide (u.seg = .Start ↔ u.path = .Start) && T.start u && T.keep prev u &&
  decide (p' ∈ forwardTransitions u.path) && T.path prev u σ' p' &&
  (domains u.seg).any (fun d => decide (u.domain = d.toFr)) && segNext u σ' && T.proof u σ'

/-- All relations of a run, which is followed by a Start row. -/
def rows : URow → List URow → Bool
  | _, [] => true
  | prev, u :: l => T.row prev u (l.headD .blank).seg (l.headD .blank).path && rows u l

/-- A run that starts an update. The row before it does not matter. -/
def run (l : List URow) : Bool :=
  match l with
  | [] => false
  | u :: l => decide (u.seg = .Start) && T.rows .blank (u :: l)

end Tab

/-- A witness serves what the tables contain. -/
structure Tab.Serves (T : Tab) (w : Witness Fr) (U : ℕ) : Prop where
  chal : w.chal = T.ρ
  p1 : ∀ l r d, (l, r, d) ∈ T.pos → P1 w U l r d (T.H l r d)
  rlc : ∀ s ∈ T.strings, ∀ k, s.length = k + 1 → InRlc w U ((beVal s : ℕ) : Fr) (k : Fr) (Spec.rlc T.ρ s)
  frRlc : ∀ v ∈ T.keys, InFrRlc w U v (rootRlc T.ρ v)
  keyBit : ∀ q ∈ T.reqs, InKeyBit w U q.1 ((q.2.1 : ℕ) : Fr) (bitFr q.2.2)

namespace Tab
variable {T : Tab} {w : Witness Fr} {U : ℕ} {r : ℤ} {prev u : URow} {σ' : SegmentType} {p' : PathType}

theorem p1_sound (S : T.Serves w U) {l r d h : Fr} (hc : T.p1 l r d h = true) : P1 w U l r d h := by
  simp only [p1, Bool.and_eq_true, decide_eq_true_eq, List.contains_iff_mem] at hc
  rw [hc.1]; exact S.p1 _ _ _ hc.2
theorem rlc_sound (S : T.Serves w U) {v x : Fr} {k : ℕ} (hc : T.rlc v k x = true) : InRlc w U v (k : Fr) x := by
  simp only [rlc, List.any_eq_true, Bool.and_eq_true, decide_eq_true_eq] at hc
  obtain ⟨s, h1, ⟨h2, rfl⟩, rfl⟩ := hc
  exact S.rlc s h1 k h2
theorem bytes_sound (S : T.Serves w U) {v : Fr} {k : ℕ} (hc : T.bytes v k = true) : InBytes w U v (k : Fr) := by
  simp only [bytes, List.any_eq_true, Bool.and_eq_true, decide_eq_true_eq] at hc
  obtain ⟨s, h1, h2, rfl⟩ := hc
  exact bytes_of_rlc (S.rlc s h1 k h2)
theorem frRlc_sound (S : T.Serves w U) {v x : Fr} (hc : T.frRlc v x = true) : InFrRlc w U v x := by
  simp only [frRlc, Bool.and_eq_true, decide_eq_true_eq, List.contains_iff_mem] at hc
  rw [hc.1]; exact S.frRlc _ hc.2
theorem keyBit_sound (S : T.Serves w U) {v i b : Fr} (hc : T.keyBit v i b = true) : InKeyBit w U v i b := by
  simp only [keyBit, List.any_eq_true, Bool.and_eq_true, decide_eq_true_eq] at hc
  obtain ⟨q, h1, ⟨rfl, rfl⟩, rfl⟩ := hc
  exact S.keyBit q h1

theorem oldNode_sound (S : T.Serves w U) (hu : AtRow w r u) (hp : AtRow w (r - 1) prev) {d : Fr}
    (hc : T.oldNode prev u d = true) : OldNode w U r d := by
  rw [OldNode, hu.direction, hu.sibling, hu.oldHash, hp.oldHash]; exact p1_sound S hc
theorem newNode_sound (S : T.Serves w U) (hu : AtRow w r u) (hp : AtRow w (r - 1) prev) {d : Fr}
    (hc : T.newNode prev u d = true) : NewNode w U r d := by
  rw [NewNode, hu.direction, hu.sibling, hu.newHash, hp.newHash]; exact p1_sound S hc

theorem nonexist_sound (S : T.Serves w U) (hu : AtRow w r u) {value hash data : AdvCol} {v h d : Fr}
    (h1 : w.adv value r = v) (h2 : w.adv hash r = h) (h3 : w.adv data r = d) (hc : T.nonexist u v h d = true) :
    Nonexist w U r value hash data := by
  simp only [nonexist, Bool.and_eq_true, Bool.or_eq_true, decide_eq_true_eq] at hc
  obtain ⟨⟨⟨a, b⟩, c⟩, e⟩ := hc
  refine ⟨by rw [h1, a], by rw [hu.iz, hu.key, hu.otherKey, b], by rw [hu.iz, h2, c], ?_⟩
  rw [hu.key, hu.otherKey, h2, h3]
  rcases e with ⟨⟨e1, e2⟩, e3⟩ | ⟨e1, e2⟩
  · exact .inl ⟨e1, e2, p1_sound S e3⟩
  · exact .inr ⟨e1, e2⟩

theorem word_sound (S : T.Serves w U) {c1 c2 c3 c4 c5 c6 : AdvCol} {v1 v2 v3 v4 v5 v6 : Fr}
    (h1 : w.adv c1 r = v1) (h2 : w.adv c2 r = v2) (h3 : w.adv c3 r = v3) (h4 : w.adv c4 r = v4)
    (h5 : w.adv c5 r = v5) (h6 : w.adv c6 r = v6) (hc : T.word v1 v2 v3 v4 v5 v6 = true) :
    WordRel w U r c1 c2 c3 c4 c5 c6 := by
  simp only [word, Bool.and_eq_true, decide_eq_true_eq] at hc
  obtain ⟨⟨⟨a, b⟩, c⟩, d⟩ := hc
  have b' := rlc_sound S b
  have c' := rlc_sound S c
  simp only [Nat.cast_ofNat] at b' c'
  unfold WordRel
  rw [h1, h2, h3, h4, h5, h6, S.chal]
  exact ⟨bytes_of_rlc b', bytes_of_rlc c', p1_sound S a, b', c', d⟩

theorem extendable_sound {d : Fr} (hc : extendable d = true) : Extendable d := by
  simp only [extendable, Bool.or_eq_true, decide_eq_true_eq] at hc
  unfold Extendable
  tauto

theorem common_sound (S : T.Serves w U) (hu : AtRow w r u) (hp : AtRow w (r - 1) prev)
    (hc : T.common prev u σ' p' = true) : CommonRel w U r σ' p' := by
  have o := fun {d} => oldNode_sound (d := d) S hu hp
  have n := fun {d} => newNode_sound (d := d) S hu hp
  unfold CommonRel
  rw [hu.domain, hu.oldHash, hu.newHash, hu.iv, hu.direction]
  cases p' with
  | Start | Common =>
    simp only [common, Bool.and_eq_true] at hc
    exact ⟨o hc.1, n hc.2⟩
  | ExtensionNew =>
    simp only [common, Bool.and_eq_true] at hc
    refine ⟨extendable_sound hc.1.1, o hc.1.2, ?_⟩
    have h := hc.2
    split at h
    · rename_i hs
      simp only [Bool.and_eq_true, decide_eq_true_eq] at h
      rw [if_pos hs]; exact ⟨h.1, n h.2⟩
    · rename_i hs
      simp only [Bool.and_eq_true, decide_eq_true_eq] at h
      rw [if_neg hs]; exact ⟨h.1, n h.2⟩
  | ExtensionOld =>
    simp only [common, Bool.and_eq_true] at hc
    refine ⟨extendable_sound hc.1.1, n hc.1.2, ?_⟩
    have h := hc.2
    split at h
    · rename_i hs
      simp only [Bool.and_eq_true, decide_eq_true_eq] at h
      rw [if_pos hs]; exact ⟨h.1, o h.2⟩
    · rename_i hs
      simp only [Bool.and_eq_true, decide_eq_true_eq] at h
      rw [if_neg hs]; exact ⟨h.1, o h.2⟩

theorem extOld_sound (S : T.Serves w U) (hu : AtRow w r u) (hp : AtRow w (r - 1) prev)
    (hc : T.extOld prev u σ' = true) : ExtOldRel w U r u.seg σ' u.proof := by
  simp only [extOld, Bool.and_eq_true, Bool.or_eq_true, decide_eq_true_eq] at hc
  obtain ⟨⟨⟨⟨⟨⟨a, b⟩, c⟩, d⟩, e⟩, f⟩, g⟩ := hc
  refine ⟨a, b, by rw [hu.newValue, c], by rw [hu.newHash, hp.newHash, d], ?_, fun h => ?_, fun h => ?_⟩
  · rw [hu.domain]; exact oldNode_sound S hu hp e
  · rw [hu.sibling, hp.newHash]; exact f.resolve_left (fun h' => h' h)
  · exact nonexist_sound S hu hu.newValue hu.newHash (hu.iv 9) (g.resolve_left (fun h' => h' h))

theorem extNew_sound (S : T.Serves w U) (hu : AtRow w r u) (hp : AtRow w (r - 1) prev)
    (hc : T.extNew prev u σ' = true) : ExtNewRel w U r u.seg σ' prev.path u.proof := by
  simp only [extNew, Bool.and_eq_true, Bool.or_eq_true, decide_eq_true_eq] at hc
  obtain ⟨⟨⟨⟨⟨⟨a, b⟩, c⟩, d⟩, e⟩, f⟩, g⟩ := hc
  refine ⟨a, by rw [hu.oldValue, b], by rw [hu.oldHash, hp.oldHash, c], ?_, e, fun h => ?_, fun h => ?_⟩
  · rw [hu.domain]; exact newNode_sound S hu hp d
  · rw [hu.sibling, hu.oldHash]; exact f.resolve_left (fun h' => h' h)
  · exact nonexist_sound S hu hu.oldValue hu.oldHash (hu.iv 9) (g.resolve_left (fun h' => h' h))

theorem emptyEnd_sound (S : T.Serves w U) (hu : AtRow w r u) (hc : T.emptyEnd u σ' = true) : EmptyEnd w U r σ' := by
  intro hs
  simp only [emptyEnd, hs, ne_eq, not_true_eq_false, decide_false, Bool.false_or, Bool.and_eq_true,
    decide_eq_true_eq] at hc
  refine ⟨by rw [hu.oldHash, hu.newHash, hc.1.1], by rw [hu.oldValue, hu.newValue, hc.1.2], ?_⟩
  exact nonexist_sound S hu hu.oldValue hu.oldHash (hu.iv 3) hc.2

theorem nonce_sound (S : T.Serves w U) (hu : AtRow w r u) (hc : T.nonce u σ' = true) :
    NonceRel T.H w U r u.seg σ' u.path := by
  simp only [nonce, Bool.and_eq_true, decide_eq_true_eq] at hc
  refine ⟨hc.1, ?_⟩
  have h := hc.2
  have h64 : ∀ c : Fr, c * two64 * two64⁻¹ = c := fun c => by
    rw [mul_assoc, mul_inv_cancel₀ two64_ne_zero, mul_one]
  cases hs : u.seg <;> rw [hs] at h <;> simp only at h ⊢
  · exact emptyEnd_sound S hu h
  · exact emptyEnd_sound S hu h
  · rw [hu.direction]; simpa using h
  · simp only [Bool.and_eq_true, Bool.or_eq_true, decide_eq_true_eq] at h
    rw [hu.direction, hu.sibling]
    exact ⟨h.1, fun hp => h.2.resolve_left (fun h' => h' hp)⟩
  · simp only [Bool.and_eq_true, Bool.or_eq_true, decide_eq_true_eq] at h
    rw [hu.direction, hu.sibling]
    exact ⟨h.1, fun hp => h.2.resolve_left (fun h' => h' hp)⟩
  · simp only [nonceEnd, Bool.and_eq_true, Bool.or_eq_true, decide_eq_true_eq, List.any_eq_true] at h
    rw [hu.direction, hu.sibling, hu.oldHash, hu.newHash, hu.oldValue, hu.newValue]
    obtain ⟨⟨⟨a, b⟩, c⟩, d⟩ := h
    have b' := bytes_sound S b
    simp only [Nat.cast_ofNat] at b'
    refine ⟨a, b', fun hp => ?_, fun hp => ?_⟩
    · obtain ⟨c1, s, c2, ⟨c3, c4⟩, c5⟩ := c.resolve_left (fun h' => h' hp)
      have c1' := bytes_sound S c1
      have c6 := bytes_of_rlc (S.rlc s c2 7 c3)
      simp only [Nat.cast_ofNat] at c1' c6
      rw [c4, c5, h64]
      exact ⟨c1', rfl, c6⟩
    · obtain ⟨⟨d1, d2⟩, d3⟩ := d.resolve_left (fun h' => h' hp)
      exact ⟨d1, by rw [d2, zero_mul], d3⟩

theorem storage_sound (S : T.Serves w U) (hu : AtRow w r u) (hc : T.storage u = true) :
    StorageRel T.H w U r u.seg u.path := by
  unfold StorageRel
  cases hs : u.seg <;> simp only [storage, hs] at hc ⊢
  · rw [hu.direction]; simpa using hc
  · rw [hu.direction]; simpa using hc
  · rw [hu.direction]; simpa using hc
  · simp only [Bool.and_eq_true, decide_eq_true_eq] at hc
    rw [hu.direction]
    exact ⟨hc.1, word_sound S hu.key (hu.iv _) (hu.iv _) hu.storageKeyRlc (hu.sp _) (hu.sp _) hc.2⟩
  · simp only [Bool.and_eq_true, Bool.or_eq_true, decide_eq_true_eq] at hc
    rw [hu.direction, hu.iz, hu.iz, hu.oldHash, hu.newHash]
    obtain ⟨⟨⟨⟨⟨a, b⟩, c⟩, d⟩, e⟩, f⟩ := hc
    refine ⟨a, fun hp => ?_, c, d, e, f⟩
    have h := b.resolve_left (fun h' => h' hp)
    simp only [oldNewWord, Bool.and_eq_true] at h
    exact ⟨word_sound S hu.oldHash (hu.iv _) (hu.iv _) hu.oldValue (hu.sp _) (hu.sp _) h.1,
      word_sound S hu.newHash (hu.iv _) (hu.iv _) hu.newValue (hu.sp _) (hu.sp _) h.2⟩

theorem proof_sound (S : T.Serves w U) (hu : AtRow w r u) (hc : T.proof u σ' = true) :
    ProofRel T.H w U r u.seg σ' u.path u.proof := by
  unfold proof at hc
  cases ht : u.proof <;> rw [ht] at hc <;> simp only [Bool.false_eq_true] at hc
  · exact nonce_sound S hu hc
  · exact storage_sound S hu hc

theorem row_sound (S : T.Serves w U) (hu : AtRow w r u) (hp : AtRow w (r - 1) prev)
    (hc : T.row prev u σ' p' = true) : RowRel T.H w U r u.seg σ' prev.path u.path p' prev.proof u.proof := by
  simp only [row, Bool.and_eq_true, decide_eq_true_eq, List.any_eq_true] at hc
  obtain ⟨⟨⟨⟨⟨⟨⟨a, b⟩, c⟩, d⟩, e⟩, f⟩, g⟩, h⟩ := hc
  refine ⟨a, fun hs => ?_, ?_, d, ?_, ?_, ?_, proof_sound S hu h⟩
  · simp only [start, hs, ne_eq, not_true_eq_false, decide_false, Bool.false_or, Bool.and_eq_true] at b
    obtain ⟨⟨⟨⟨b1, b2⟩, b3⟩, b4⟩, b5⟩ := b
    have b2 := bytes_sound S b2
    have b3 := bytes_sound S b3
    simp only [Nat.cast_ofNat] at b2 b3
    unfold StartRel
    rw [hu.iv, hu.iv, hu.key, hu.oldHash, hu.newHash, hu.sp, hu.sp]
    exact ⟨p1_sound S b1, b2, b3, frRlc_sound S b4, frRlc_sound S b5⟩
  · simp only [keep, Bool.and_eq_true, Bool.or_eq_true, decide_eq_true_eq] at c
    obtain ⟨⟨c1, c2⟩, c3⟩ := c
    refine ⟨fun hs => ?_, fun hs h3 => ?_, fun ht => ?_, fun h1 h2 => ?_⟩
    · rw [hu.storageKeyRlc, hu.oldValue, hu.newValue, hp.storageKeyRlc, hp.oldValue, hp.newValue]
      obtain ⟨⟨⟨x1, x2⟩, x3⟩, x4⟩ := c1.resolve_left hs
      exact ⟨x1, x2, x3, x4⟩
    · rw [hu.key, hu.otherKey, hp.key, hp.otherKey]
      exact c2.resolve_left (fun h => h.elim hs h3)
    · rw [if_pos ht] at c3
      simp only [Bool.and_eq_true, Bool.or_eq_true, decide_eq_true_eq] at c3
      rw [hu.key, hu.otherKey, hu.depth, hu.direction, hp.depth]
      exact ⟨keyBit_sound S c3.1.1, c3.1.2, fun h => keyBit_sound S (c3.2.resolve_left (fun h' => h' h))⟩
    · rw [if_neg (fun h => h.elim h1 h2)] at c3
      rw [hu.depth]; simpa using c3
  · unfold PathRel
    unfold path at e
    cases hpt : u.path <;> rw [hpt] at e <;> simp only at e ⊢
    · exact common_sound S hu hp e
    · exact extOld_sound S hu hp e
    · exact extNew_sound S hu hp e
  · obtain ⟨d, h1, h2⟩ := f
    exact ⟨d, h1, by rw [hu.domain, h2]⟩
  · unfold segNext at g
    split at g
    · rename_i l hl
      exact ⟨l, hl, by simpa using g⟩
    · cases g

theorem rows_sound (S : T.Serves w U) (l : List URow) (r : ℤ) (prev : URow) (hp : AtRow w (r - 1) prev)
    (ha : AtRows w r l) (hc : T.rows prev l = true) : RowsOK T.H w U r prev l := by
  induction l generalizing r prev with
  | nil => trivial
  | cons u l ih =>
    simp only [rows, Bool.and_eq_true] at hc
    exact ⟨row_sound S ha.1 hp hc.1, ih (r + 1) u ha.1.shift ha.2 hc.2⟩

theorem row_start {prev' : URow} (hs : u.seg = .Start) (hc : T.row prev u σ' p' = true) :
    T.row prev' u σ' p' = true := by
  simp only [row, Bool.and_eq_true] at hc ⊢
  obtain ⟨⟨⟨⟨⟨⟨⟨a, b⟩, c⟩, d⟩, e⟩, f⟩, g⟩, h⟩ := hc
  refine ⟨⟨⟨⟨⟨⟨⟨a, b⟩, ?_⟩, d⟩, ?_⟩, f⟩, g⟩, h⟩
  · simpa [keep, hs] using c
  · have hp : u.path = .Start := (of_decide_eq_true a).1 hs
    simp [path, hp]

theorem run_sound (S : T.Serves w U) {l : List URow} (hc : T.run l = true) : RunSat T.H w U l := by
  unfold run at hc
  split at hc
  · cases hc
  · rename_i u l
    simp only [Bool.and_eq_true, decide_eq_true_eq] at hc
    obtain ⟨hs, hc⟩ := hc
    simp only [rows, Bool.and_eq_true] at hc
    have hp : u.path = .Start := by
      have := hc.1
      simp only [row, Bool.and_eq_true, decide_eq_true_eq] at this
      exact this.1.1.1.1.1.1.1.1 hs
    refine ⟨by simp, ⟨hs, hp⟩, fun r prev h1 h2 => ?_⟩
    refine rows_sound S _ r prev h1 h2 ?_
    simp only [rows, Bool.and_eq_true]
    exact ⟨row_start hs hc.1, hc.2⟩

/-- The demo circuit with these tables and one run. -/
def circuit (T : Tab) (l : List URow) : Assembly := demo T.H T.ρ [l] T.strings T.keys T.reqs T.pos

/-- The table contents are admissible. -/
def fits (T : Tab) (l : List URow) : Bool :=
  decide (l.length < 2048) && T.strings.all (fun s => s.all (· < 256) && decide (s ≠ []) && decide (s.length < 2 ^ 64)) &&
  decide (ByteRep.total T.strings ≤ 2032) && decide (T.keys.length ≤ 62) &&
  T.reqs.all (fun q => decide (q.2.1 < 256) && decide (q.2.2 = Spec.keyBit q.1 q.2.1) && T.keys.contains q.1) &&
  decide (T.reqs.length ≤ 2048) && decide (T.pos.length ≤ 2047)

theorem fits_sound {l : List URow} (hc : T.fits l = true) : DemoFits [l] T.strings T.keys T.reqs T.pos := by
  simp only [fits, Bool.and_eq_true, decide_eq_true_eq, List.all_eq_true, List.contains_iff_mem] at hc
  obtain ⟨⟨⟨⟨⟨⟨a, b⟩, c⟩, d⟩, e⟩, f⟩, g⟩ := hc
  refine ⟨by simpa using a, fun s hs => ⟨fun x hx => (b s hs).1.1 x hx, (b s hs).1.2, (b s hs).2⟩, c, d, fun q hq => ?_, f, g⟩
  obtain ⟨⟨h1, h2⟩, h3⟩ := e q hq
  exact ⟨⟨h1, h2⟩, h3⟩

theorem serves {l : List URow} (hc : T.fits l = true) : T.Serves (T.circuit l).witness 2049 where
  chal := rfl
  p1 _ _ _ h := (fits_sound hc).hash h
  rlc _ hs _ hk := (fits_sound hc).string hs hk
  frRlc _ hv := (fits_sound hc).key hv
  keyBit _ hq := (fits_sound hc).bit hq

/-- A circuit that passes the checks is accepted and has sound tables. -/
theorem accepted {l : List URow} (hf : T.fits l = true) (hc : T.run l = true) :
    Accepted T.H 2049 2049 (T.circuit l).witness ∧ TablesOK (T.circuit l).witness 2049 :=
  (fits_sound hf).accepted fun run hr => by
    rw [List.mem_singleton] at hr
    subst hr
    exact run_sound (serves hf) hc

end Tab
end Mpt
