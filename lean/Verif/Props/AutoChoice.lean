import Verif.Props.ClusterExact

/-!
# C101: what `AutoGaussianMixture` returns as `c_bic` and the memberships vary
-/

set_option linter.unusedSectionVars false

namespace GChop
open Pd Ext

variable {F : Type} [Num F] {V σ M : Type}

/-- the scaled BICs of the fourteen candidates, for a seed and an order of the workers -/
def bicTable (sk : GmmLib V σ M F) (p : GmmParams V) (sched : List Nat) (s : σ) (X : List (List F)) :
    Py (List F) :=
  parallel (List.zipWith (tryComponents sk p X) componentsToTry
    (sk.randint s componentsToTry.length).1) sched

/-- fit `n` gaussians with the generator as it is after the candidates' seeds are drawn, and classify -/
def fitAndClassify (sk : GmmLib V σ M F) (p : GmmParams V) (s : σ) (X : List (List F)) (n : Nat) :
    Py ((List Int × Option (Mat F)) × σ) := do
  let (gmm, s2) ← sk.fitState (gmmKwargs (sk.int n) p) (sk.randint s componentsToTry.length).2 X
  let proba ← sk.predictProba gmm X
  let res ← classify X.length (sk.nComponents gmm) (sk.means gmm) proba
  return (res, s2)

theorem autoSplit_eq (sk : GmmLib V σ M F) (c : F) (p : GmmParams V) (sched : List Nat) (s : σ)
    (X : List (List F)) : autoSplit sk c p sched s X
      = bicTable sk p sched s X >>= fun b =>
        selectComponents c componentsToTry b >>= fitAndClassify sk p s X := rfl

theorem selectComponents_mono [NumOrd F] {c c' : F} (hc : (c <=. c') = true) {ctt : List Nat}
    {bics : List F} {n : Nat} (h : selectComponents c ctt bics = .ok n) :
    ∃ n' ≤ n, selectComponents c' ctt bics = .ok n' := by
  obtain ⟨⟨i, b, h1, h2, h3⟩, -⟩ := (C44_choice c ctt bics).1 n |>.1 h
  have hok : ((b -. lastFiveMean bics) <=. c') = true := NumOrd.le_trans h3 hc
  cases h' : selectComponents c' ctt bics with
  | error e =>
    exact absurd ⟨n, i, b, h1, h2, hok⟩ ((C44_choice c' ctt bics).2 e |>.1 h').2
  | ok n' =>
    exact ⟨n', ((C44_choice c' ctt bics).1 n' |>.1 h').2 n ⟨i, b, h1, h2, hok⟩, rfl⟩

theorem selectComponents_mem {c : F} {ctt : List Nat} {bics : List F} {n : Nat}
    (h : selectComponents c ctt bics = .ok n) : n ∈ ctt := by
  obtain ⟨⟨i, b, h1, -⟩, -⟩ := (C44_choice c ctt bics).1 n |>.1 h
  exact List.mem_of_getElem? h1

theorem autoSplit_parts (sk : GmmLib V σ M F) (c : F) (p : GmmParams V) (sched : List Nat) (s : σ)
    (X : List (List F)) (r : (List Int × Option (Mat F)) × σ)
    (h : autoSplit sk c p sched s X = .ok r) :
    ∃ bics n, bicTable sk p sched s X = .ok bics ∧
      selectComponents c componentsToTry bics = .ok n ∧ fitAndClassify sk p s X n = .ok r := by
  rw [autoSplit_eq] at h
  cases hb : bicTable sk p sched s X with
  | error e => rw [hb] at h; cases h
  | ok bics =>
    rw [hb] at h
    simp only [Py.ok_bind] at h
    cases hn : selectComponents c componentsToTry bics with
    | error e => rw [hn] at h; cases h
    | ok n =>
      rw [hn] at h
      exact ⟨bics, n, rfl, hn, h⟩

theorem selectComponents_range {c : F} {bics : List F} {n : Nat}
    (h : selectComponents c componentsToTry bics = .ok n) : 2 ≤ n ∧ n ≤ 15 := by
  have h1 := selectComponents_mem h
  unfold componentsToTry at h1
  rw [List.mem_range'] at h1
  omega

/-- C101: whatever the fits give, a larger `c_bic` never raises the number of gaussians that is
fitted, and never makes a choice fail that succeeded before.  Any arithmetic. -/
theorem C101_monotone [NumOrd F] (sk : GmmLib V σ M F) {c c' : F} (hc : (c <=. c') = true)
    (p : GmmParams V) (sched : List Nat) (s : σ) (X : List (List F))
    (r : (List Int × Option (Mat F)) × σ) (h : autoSplit sk c p sched s X = .ok r) :
    ∃ bics n n', bicTable sk p sched s X = .ok bics ∧
      selectComponents c componentsToTry bics = .ok n ∧
      selectComponents c' componentsToTry bics = .ok n' ∧
      2 ≤ n' ∧ n' ≤ n ∧ n ≤ 15 ∧
      fitAndClassify sk p s X n = .ok r ∧
      autoSplit sk c' p sched s X = fitAndClassify sk p s X n' := by
  obtain ⟨bics, n, hb, hn, hf⟩ := autoSplit_parts sk c p sched s X r h
  obtain ⟨n', hle, hn'⟩ := selectComponents_mono hc hn
  refine ⟨bics, n, n', hb, hn, hn', (selectComponents_range hn').1, hle,
    (selectComponents_range hn).2, hf, ?_⟩
  rw [autoSplit_eq, hb]
  simp only [Py.ok_bind]
  rw [hn']
  rfl

/-- C101: between two values of `c_bic` that choose the same number of gaussians, labels,
probabilities and the state of the generator do not depend on `c_bic`. -/
theorem C101_between [NumOrd F] (sk : GmmLib V σ M F) {c d c' : F} (h1 : (c <=. d) = true)
    (h2 : (d <=. c') = true) (p : GmmParams V) (sched : List Nat) (s : σ) (X : List (List F))
    (bics : List F) (n : Nat) (hb : bicTable sk p sched s X = .ok bics)
    (hc : selectComponents c componentsToTry bics = .ok n)
    (hc' : selectComponents c' componentsToTry bics = .ok n) :
    autoSplit sk d p sched s X = autoSplit sk c p sched s X ∧
    autoSplit sk c' p sched s X = autoSplit sk c p sched s X := by
  obtain ⟨m, hm, hd⟩ := selectComponents_mono h1 hc
  obtain ⟨m', hm', hd'⟩ := selectComponents_mono h2 hd
  rw [hc'] at hd'
  injection hd' with hd'
  have : m = n := by omega
  subst this
  rw [autoSplit_eq, autoSplit_eq, autoSplit_eq, hb]
  simp only [Py.ok_bind]
  rw [hc, hd, hc']
  exact ⟨rfl, rfl⟩

/-! ### labels and memberships -/

section exact
variable {K : Type} [Field K] [LinearOrder K] [IsStrictOrderedRing K] [FloorRing K] [HasSqrt K]

/-- the structure of gaussian `i` -/
abbrev structureAt (center : Mat (Ext K)) (i : Nat) : Option Nat :=
  structureOf ((center.rows.getD i []).getD 0 Num.nan) ((center.rows.getD i []).getD 1 Num.nan)

theorem structureSum_exact (center : Mat (Ext K)) (n k : Nat) (xs : List K) (hx : xs.length = n) :
    structureSum center n k (xs.map fin)
      = fin (((List.range n).filter fun i => structureAt center i = some k).map
          (fun i => xs.getD i 0)).sum := by
  unfold structureSum
  have := foldl_add_exact xs ((List.range n).filter fun i => structureAt center i = some k)
    (by
      intro i hi
      have := (List.mem_filter.1 hi).1
      rw [List.mem_range] at this
      omega) 0
  rw [zero_add] at this
  have h0 : (Num.zero : Ext K) = fin 0 := by
    show (fin ((0 : ℚ) : K) : Ext K) = fin 0
    simp
  rw [h0]
  exact this

/-- a star's label from its memberships -/
theorem label_of_memberships (center : Mat (Ext K)) (n : Nat)
    (hm : ∀ i < n, ∀ k < 2, Num.isNaN ((center.rows.getD i []).getD k Num.nan) = false)
    (xs : List K) (hx : xs.length = n) (hpos : ∀ x ∈ xs, 0 ≤ x) (l : Nat)
    (hl : Np.argmax ((List.range 4).map fun k => structureSum center n k (xs.map fin)) = .ok l) :
    xs.sum ≤ 4 * (((List.range n).filter fun i => structureAt center i = some l).map
      (fun i => xs.getD i 0)).sum ∧
    ∀ i x, xs[i]? = some x → xs.sum < 2 * x → structureAt center i = some l := by
  set P : Nat → K := fun k => (((List.range n).filter fun i => structureAt center i = some k).map
      (fun i => xs.getD i 0)).sum with hP
  have e : (fun k => structureSum center n k (xs.map fin)) = fun k => (fin (P k) : Ext K) :=
    funext fun k => structureSum_exact center n k xs hx
  rw [e] at hl
  obtain ⟨h4, hmax, -⟩ := C45_label P l hl
  have hcls : ∀ i ∈ List.range n, ∃ k < 4, structureAt center i = some k := fun i hi =>
    C45_structure _ _ (hm i (List.mem_range.1 hi) 0 (by omega)) (hm i (List.mem_range.1 hi) 1 (by omega))
  have htot : P 0 + P 1 + P 2 + P 3 = xs.sum := by
    have := sum_by_class (structureAt center) (fun i => xs.getD i 0) (List.range n) hcls
    rw [hP]
    refine this.trans (congrArg _ ?_)
    apply List.ext_getElem?
    intro i
    rw [List.getElem?_map]
    by_cases hi : i < n
    · rw [List.getElem?_range hi, Option.map_some, List.getD_eq_getElem?_getD,
        List.getElem?_eq_getElem (by omega : i < xs.length)]
      rfl
    · rw [List.getElem?_eq_none (by simpa using hi), List.getElem?_eq_none (by omega)]
      rfl
  have hg : ∀ i, 0 ≤ xs.getD i 0 := by
    intro i
    rw [List.getD_eq_getElem?_getD]
    cases hg : xs[i]? with
    | none => simp
    | some x => exact hpos x (List.mem_of_getElem? hg)
  have hnn : ∀ k, 0 ≤ P k := by
    intro k
    apply List.sum_nonneg
    intro y hy
    rw [List.mem_map] at hy
    obtain ⟨i, _, rfl⟩ := hy
    exact hg i
  have m0 := hmax 0 (by omega)
  have m1 := hmax 1 (by omega)
  have m2 := hmax 2 (by omega)
  have m3 := hmax 3 (by omega)
  refine ⟨by linarith, fun i x hi hlt => ?_⟩
  have hin : i < n := by rw [← hx]; exact (List.getElem?_eq_some_iff.1 hi).1
  obtain ⟨k, hk, hk'⟩ := hcls i (List.mem_range.2 hin)
  rw [hk']
  by_contra hne
  have hkl : k ≠ l := fun h => hne (by rw [h])
  have hx : x ≤ P k := by
    have : xs.getD i 0 = x := by rw [List.getD_eq_getElem?_getD, hi]; rfl
    rw [← this]
    refine List.single_le_sum ?_ _ (List.mem_map.2 ⟨i, List.mem_filter.2
      ⟨List.mem_range.2 hin, by simpa using hk'⟩, rfl⟩)
    intro y hy
    rw [List.mem_map] at hy
    obtain ⟨i, _, rfl⟩ := hy
    exact hg i
  have := hmax k hk
  have h2 : P k + P l ≤ xs.sum := by
    rw [← htot]
    have n0 := hnn 0
    have n1 := hnn 1
    have n2 := hnn 2
    have n3 := hnn 3
    have hk4 : k = 0 ∨ k = 1 ∨ k = 2 ∨ k = 3 := by omega
    have hl4 : l = 0 ∨ l = 1 ∨ l = 2 ∨ l = 3 := by omega
    rcases hk4 with rfl | rfl | rfl | rfl <;> rcases hl4 with rfl | rfl | rfl | rfl <;>
      first | exact absurd rfl hkl | linarith
  linarith

/-- C101: the label of a star has at least a quarter of the star's memberships behind it: they belong
to gaussians of the mixture that was fitted whose means lie in the region of that label.  So a label
appears only if some gaussian has its mean in the region, and a gaussian with more than half of the
memberships decides the label. -/
theorem C101_label (sk : GmmLib V σ M (Ext K)) (hsk : sk.Shapes) (c : Ext K) (p : GmmParams V)
    (sched : List Nat) (s : σ) (X : List (List (Ext K))) (labels : List Int)
    (probs : Option (Mat (Ext K))) (s' : σ)
    (h : autoSplit sk c p sched s X = .ok ((labels, probs), s')) :
    ∃ n gmm proba, 2 ≤ n ∧ n ≤ 15 ∧
      sk.fitState (gmmKwargs (sk.int n) p) (sk.randint s 14).2 X = .ok (gmm, s') ∧
      sk.predictProba gmm X = .ok proba ∧
      ∀ (t : Nat) (l : Int) (xs : List K), labels[t]? = some l →
        proba.rows[t]? = some (xs.map fin) → xs.length = sk.nComponents gmm →
        (∀ x ∈ xs, 0 ≤ x) →
        (∀ i < sk.nComponents gmm, ∀ k < 2,
          Num.isNaN (((sk.means gmm).rows.getD i []).getD k Num.nan) = false) →
        ∃ k < 4, l = (k : Nat) ∧
          xs.sum ≤ 4 * (((List.range (sk.nComponents gmm)).filter fun i =>
            structureAt (sk.means gmm) i = some k).map fun i => xs.getD i 0).sum ∧
          (0 < xs.sum → ∃ i x, xs[i]? = some x ∧ 0 < x ∧
            structureAt (sk.means gmm) i = some k) ∧
          ∀ i x, xs[i]? = some x → xs.sum < 2 * x → structureAt (sk.means gmm) i = some k := by
  obtain ⟨bics, n, -, hn, h⟩ := autoSplit_parts sk c p sched s X _ h
  obtain ⟨hn2, hn15⟩ := selectComponents_range hn
  unfold fitAndClassify at h
  have h14 : componentsToTry.length = 14 := by decide
  rw [h14] at h
  cases hf : sk.fitState (gmmKwargs (sk.int n) p) (sk.randint s 14).2 X with
  | error e => rw [hf] at h; cases h
  | ok gs =>
    obtain ⟨gmm, s2⟩ := gs
    rw [hf] at h
    simp only [Py.ok_bind] at h
    cases hp : sk.predictProba gmm X with
    | error e => rw [hp] at h; cases h
    | ok proba =>
      rw [hp] at h
      simp only [Py.ok_bind] at h
      obtain ⟨hp1, hp2⟩ := hsk.proba gmm X proba hp
      obtain ⟨hm1, hm2⟩ := hsk.means gmm
      obtain ⟨ls, h1, h2, h3⟩ := C45_classify (sk.nComponents gmm) (sk.means gmm) proba hm1 hm2 hp2
      rw [← hp1, h1] at h
      simp only [Py.ok_bind, Py.pure_eq] at h
      injection h with h
      injection h with h h'
      injection h with ha hb
      subst ha h'
      refine ⟨n, gmm, proba, hn2, hn15, hf, hp, ?_⟩
      intro t l xs hl hrow hx hpos hm
      obtain ⟨row, k, a1, a2, a3, a4⟩ := h3 t l hl
      rw [hrow] at a1
      injection a1 with a1
      subst a1
      obtain ⟨b1, b2⟩ := label_of_memberships (sk.means gmm) _ hm xs hx hpos k a4
      refine ⟨k, a3, a2, b1, fun hsum => ?_, b2⟩
      by_contra hno
      have hz : (((List.range (sk.nComponents gmm)).filter fun i =>
          structureAt (sk.means gmm) i = some k).map fun i => xs.getD i 0).sum ≤ 0 := by
        refine (List.sum_le_card_nsmul _ 0 ?_).trans (by simp)
        intro y hy
        rw [List.mem_map] at hy
        obtain ⟨i, hi, rfl⟩ := hy
        rw [List.mem_filter, List.mem_range] at hi
        rw [List.getD_eq_getElem?_getD, List.getElem?_eq_getElem (by omega : i < xs.length)]
        rw [← not_lt]
        intro hlt
        exact hno ⟨i, _, List.getElem?_eq_getElem (by omega : i < xs.length), hlt,
          by simpa using hi.2⟩
      linarith

end exact

/-! ### non-vacuity -/

section examples

private abbrev qa (x : ℚ) : Ext ℚ := .fin x

/-- a larger `c_bic` takes fewer gaussians: BICs 18, 17, ..., 5, mean of the last five 7 -/
example : (List.map (fun c => selectComponents (qa c) componentsToTry
      ((List.range 14).map fun i : Nat => qa (18 - i))) [0, 1, 3/2, 2, 11])
    = [.ok 13, .ok 12, .ok 12, .ok 11, .ok 2] := by decide +kernel

/-- the label of two stars, with the mixture of `exLib` -/
example : (autoSplit exLib (qa 11) exGmmParams (List.range 14) () [[qa 0, qa 0, qa 0]]).map (·.1.1)
    = .ok [2] := by decide +kernel
example : structureAt (exLib.means 0) 2 = some 2 := by decide +kernel

end examples

end GChop
