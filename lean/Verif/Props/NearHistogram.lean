import Verif.Props.NearCirc
import Verif.Props.HistogramDouble

/-! # Histogram models in doubles and in exact arithmetic, with a margin

C111: a galaxy in doubles and a galaxy of real numbers whose energies and angular momenta are near, as in
C109.  The same stars have a circularity, it is ±1 in both for the stars of the profile, and JHistogram and
JEHistogram give the same labels when no star is close to an edge of the histograms. -/

namespace GChop

open Flt

variable {R : Ref}

/-- The circularities of a star in doubles and in real numbers: both are missing, or both are there and
`Q` holds of the number. -/
def EpsPair (e : Float64) (x : Ext ℝ) (Q : ℝ → Prop) : Prop :=
  (Num.isFinite e = false ∧ Num.isFinite x = false) ∨
  (Num.isFinite e = true ∧ ∃ w : ℝ, x = .fin w ∧ |w| ≤ 1 ∧ Q w)

theorem not_finite_nan {F : Type} [Num F] [NumOrd F] : Num.isFinite (Num.nan : F) = false := by
  rw [Bool.eq_false_iff]
  intro h
  have := NumOrd.finite_not_nan h
  rw [NumOrd.nan_isNaN] at this
  cases this

theorem starLabel_none {F : Type} [Num F] {cut e : F} (h : starLabel cut e = none) :
    Num.isFinite e = false := by
  unfold starLabel at h
  split at h
  · cases h
  · rename_i h'; simpa using h'

theorem starLabel_some {F : Type} [Num F] {cut e : F} {l : Int} (h : starLabel cut e = some l) :
    Num.isFinite e = true ∧ ((cut <. e) = true ↔ l = 1) := by
  unfold starLabel at h
  split at h
  · rename_i hf
    refine ⟨hf, ?_⟩
    split at h
    · rename_i hc; cases h; simp [hc]
    · rename_i hc; cases h; simp [hc]
  · cases h

/-- the circularity of a bound star in real numbers -/
theorem exact_kept {env' : CircEnv (Ext ℝ)} {n' : CircNorm (Ext ℝ)} {a : Body (Ext ℝ)} {z P : ℝ}
    (hb : isBound a.energy = true) (hz : n'.jz a = .fin z) (hP : n'.jc env' a = .fin P) (hP0 : 0 ≤ P) :
    (P = 0 ∨ P < |z| → Num.isFinite (keptEps env' n' a) = false) ∧
    (0 < P → |z| ≤ P → keptEps env' n' a = .fin (z / P)) := by
  have hl := fun c => exact_label (c := c) hb hz hP hP0
  constructor
  · intro h
    have := hl 0
    rw [if_pos h] at this
    exact starLabel_none this
  · intro h0 h1
    have := hl 0
    rw [if_neg (by push Not; exact ⟨h0.ne', h1⟩)] at this
    have hf := (starLabel_some this).1
    unfold keptEps at hf ⊢
    split at hf
    · rename_i hk
      rw [if_pos hk]
      unfold CircNorm.eps
      rw [hz, hP, Ext.num_div _ _ h0.ne']
    · rw [not_finite_nan] at hf; cases hf

/-- a star of the profile has circularity 1 or -1 in both, or none in both if it does not rotate -/
theorem corner_pair {env : CircEnv Float64} (henv : env.OK) {env' : CircEnv (Ext ℝ)} (henv' : env'.OK)
    {b : BGalaxy Float64} {M J θ δ γ : ℝ}
    (hr : NearRef R b M J θ) (hθ : θ ≤ 1 / 4) (hδ : 3 * θ + 1 / 2 ^ 49 ≤ δ)
    (hc : Clear (R.boundOf b) (fun a => R.E a / M) (fun a => R.Jz a / J) defaultEdges δ)
    {n : CircNorm Float64} {n' : CircNorm (Ext ℝ)}
    (h1 : Np.amin (b.bound.map Body.energy) = .ok n.eMin)
    (h2 : Np.amax (b.bound.map fun a => Num.abs a.jz) = .ok n.jzMax)
    (hinc : (n.pts.map (·.1)).Pairwise fun u v => (u <. v) = true)
    (hE : ∀ a, n'.e (R.body a) = .fin (R.E a / M)) (hJ : ∀ a, n'.jz (R.body a) = .fin (R.Jz a / J))
    {a0 : Body Float64} {L : List (Body Float64)} (ha0 : a0 ∈ b.bound) (hM : R.E a0 = -M)
    (hL : ∀ a ∈ L, a ∈ b.bound)
    (hp : n.pts = (Num.ofRat (-1), Num.abs (n.jz a0)) :: L.map (fun a => (n.e a, Num.abs (n.jz a))))
    (hp' : n'.pts = (a0 :: L).map fun a => (.fin (R.E a / M), .fin |R.Jz a / J|))
    (hgap : ((a0 :: L).map fun a => R.E a / M).Pairwise fun u v => γ ≤ v - u) (hγ : 0 < γ)
    {a : Body Float64} (ha : a ∈ b.bound)
    (hcor : (R.E a / M, |R.Jz a / J|) ∈
      ((a0 :: L).map fun a => R.E a / M).zip ((a0 :: L).map fun a => |R.Jz a / J|)) {P : ℝ}
    (hP : n'.jc env' (R.body a) = .fin P) :
    EpsPair (keptEps env n a) (keptEps env' n' (R.body a))
      fun w => (value (keptEps env n a) : ℝ) = w ∧ |w| = 1 := by
  obtain ⟨hall, hneg⟩ := (mem_bound' hr).1 ha
  obtain ⟨b1, b2⟩ := bound_iff hr hall
  have hb := b1.2 hneg
  have hb' := b2.2 hneg
  have hkept : keptEps env n a = if keepEps (n.eps env a) then n.eps env a else Num.nan := by
    unfold keptEps
    rw [hb, Bool.true_and]
  have hlab := fun cut (fcut : Num.isFinite cut = true) => corner_label henv henv' hr hθ hδ hc h1 h2 hinc hE ha0 hM hL hp
    hp' hgap hγ (cut := cut) fcut ha hcor hP
  rw [← hkept] at hlab
  -- the interpolation at a corner
  have hPz : P = |R.Jz a / J| := by
    obtain ⟨k, hk⟩ := List.mem_iff_getElem?.1 hcor
    rw [List.getElem?_zip_eq_some, List.getElem?_map, List.getElem?_map, Option.map_eq_some_iff,
      Option.map_eq_some_iff] at hk
    obtain ⟨⟨c, hck, hcE⟩, ⟨c', hck', hcJ⟩⟩ := hk
    rw [hck] at hck'
    cases hck'
    simp only at hcE hcJ
    have hP' : n'.jc env' (R.body a) = .fin |R.Jz c / J| := by
      unfold CircNorm.jc
      refine interp1_corner henv'.locate ?_ (k := k) (u := .fin (R.E c / M)) ?_ ?_ ?_
      · rw [hp', List.map_map, List.pairwise_map]
        rw [List.pairwise_map] at hgap
        refine hgap.imp fun {u v} huv => ?_
        simp only [Function.comp, Ext.num_lt, decide_eq_true_eq]
        linarith
      · rw [hp', List.map_map, List.getElem?_map, hck]; rfl
      · rw [hp', List.map_map, List.getElem?_map, hck]; rfl
      · rw [hE, Ext.num_eq, hcE]; simp
    rw [hP', hcJ] at hP
    injection hP with hP
    exact hP.symm
  have hex := exact_kept hb' (hJ a) hP (by rw [hPz]; exact abs_nonneg _)
  by_cases h0 : R.Jz a / J = 0
  · left
    have hz0 : P = 0 := by rw [hPz, h0, abs_zero]
    refine ⟨?_, hex.1 (Or.inl hz0)⟩
    have := hlab (Num.ofRat 0) real_zero.1
    rw [if_pos (Or.inl hz0)] at this
    exact starLabel_none this
  · right
    have habs : 0 < |R.Jz a / J| := abs_pos.2 h0
    have hx := hex.2 (hPz ▸ habs) hPz.ge
    rw [hPz] at hx hlab
    have hl2 : ∀ cut : Float64, Num.isFinite cut = true → starLabel cut (keptEps env n a)
        = some (if value cut * |R.Jz a / J| < R.Jz a / J then 1 else 0) := by
      intro cut fcut
      rw [hlab cut fcut, if_neg (by push Not; exact ⟨habs.ne', le_rfl⟩)]
    have fe := (starLabel_some (hl2 _ real_zero.1)).1
    have hcmp : ∀ cut : Float64, Num.isFinite cut = true → ((value cut : ℝ) < value (keptEps env n a) ↔
        value cut * |R.Jz a / J| < R.Jz a / J) := by
      intro cut fcut
      rw [← real_lt fcut fe, (starLabel_some (hl2 cut fcut)).2]
      split <;> simp [*]
    have hle : |(value (keptEps env n a) : ℝ)| ≤ 1 := by
      have hk : keepEps (n.eps env a) = true := by
        by_contra hk
        rw [hkept, if_neg hk, not_finite_nan] at fe
        cases fe
      rw [hkept, if_pos hk] at fe ⊢
      exact kept_abs hk fe
    have hle := abs_le.1 hle
    refine ⟨fe, _, hx, ?_, ?_, ?_⟩
    · rw [abs_div, abs_abs, div_self habs.ne']
    · rcases lt_or_gt_of_ne h0 with hz | hz
      · rw [abs_of_neg hz] at hcmp ⊢
        have v1 : value (Num.ofRat (-1) : Float64) = -1 := value_eq toExt_neg_one
        have := (hcmp (Num.ofRat (-1)) (isFinite_of toExt_neg_one)).not.2 (by
          rw [v1]; push_cast; linarith)
        rw [v1] at this
        push_cast at this
        rw [div_neg, div_self hz.ne]
        linarith
      · rw [abs_of_pos hz] at hcmp ⊢
        have := (hcmp _ fe).not.1 (lt_irrefl _)
        rw [div_self hz.ne']
        by_contra hne
        have : (value (keptEps env n a) : ℝ) < 1 := lt_of_le_of_ne hle.2 hne
        nlinarith
    · rw [abs_div, abs_abs, div_self habs.ne']

/-- a star clear of the circular orbit has a circularity in both or in none -/
theorem clear_pair {env : CircEnv Float64} {env' : CircEnv (Ext ℝ)}
    {b : BGalaxy Float64} {M J θ δ γ : ℝ}
    (hr : NearRef R b M J θ) (hθ : θ ≤ 1 / 4) (hδ : 3 * θ + 1 / 2 ^ 49 ≤ δ)
    {n : CircNorm Float64} {n' : CircNorm (Ext ℝ)}
    (h1 : Np.amin (b.bound.map Body.energy) = .ok n.eMin)
    (h2 : Np.amax (b.bound.map fun a => Num.abs a.jz) = .ok n.jzMax)
    (hJ : ∀ a, n'.jz (R.body a) = .fin (R.Jz a / J)) (hγ : 0 < γ)
    {a : Body Float64} (hab : a ∈ b.bound) {l P : ℝ}
    (q1 : n'.jc env' (R.body a) = .fin P) (q3 : 0 ≤ P ∧ P ≤ 1) (q4 : 0 ≤ l ∧ l ≤ 1)
    (q5 : Num.isFinite (n.jc env a) = true) (q6 : |(value (n.jc env a) : ℝ) - l| ≤ 8 * (1 / 2 ^ 53))
    (q7 : |l - P| ≤ δ + 2 * δ / γ) (m1 : 2 * δ + 2 * δ / γ < |(|R.Jz a / J| - P)|) :
    EpsPair (keptEps env n a) (keptEps env' n' (R.body a))
      fun w => 0 < P ∧ w * P = R.Jz a / J ∧
        |(value (keptEps env n a) : ℝ) * P - R.Jz a / J| ≤ 2 * δ + 2 * δ / γ := by
  obtain ⟨hall, hneg⟩ := (mem_bound' hr).1 hab
  obtain ⟨b1, b2⟩ := bound_iff hr hall
  have hb := b1.2 hneg
  have hb' := b2.2 hneg
  have hkept : keptEps env n a = if keepEps (n.eps env a) then n.eps env a else Num.nan := by
    unfold keptEps
    rw [hb, Bool.true_and]
  obtain ⟨-, -, hz, -⟩ := columns_near hr hθ h1 h2
  obtain ⟨fq, hq, -, hq0, -⟩ := hz a hab
  have ht := tiny_small
  have hθ0 := resolved_nonneg hr
  have hδ0 : 0 < δ := lt_of_lt_of_le (by positivity) hδ
  have hB : 0 < 2 * δ + 2 * δ / γ := by positivity
  have hex := exact_kept hb' (hJ a) q1 q3.1
  rcases le_or_gt |R.Jz a / J| P with hle | hgt
  · right
    rw [abs_of_nonpos (by linarith)] at m1
    have hP0 : 0 < P := by linarith [abs_nonneg (R.Jz a / J)]
    have hq' : |(value (n.jz a) : ℝ)| ≤ |R.Jz a / J| + (3 * θ + (1 / 2 ^ 53 + tiny)) := by
      have := abs_sub_abs_le_abs_sub (value (n.jz a) : ℝ) (R.Jz a / J)
      linarith
    have hc' : P - (δ + 2 * δ / γ) - 8 * (1 / 2 ^ 53) ≤ value (n.jc env a) := by
      have := (abs_le.1 q6).1
      have := (abs_le.1 q7).1
      linarith
    have hsum : 3 * θ + (1 / 2 ^ 53 + (tiny : ℝ)) + 8 * (1 / 2 ^ 53) ≤ δ := by
      refine le_trans ?_ hδ
      have : (1 : ℝ) / 2 ^ 53 + 1 / 2 ^ 53 / 1000 + 8 * (1 / 2 ^ 53) ≤ 1 / 2 ^ 49 := by norm_num
      linarith
    have hlt : |(value (n.jz a) : ℝ)| < value (n.jc env a) := by linarith
    obtain ⟨fe, hkeep⟩ := kept_quotient fq q5 hlt.le (lt_of_le_of_lt (abs_nonneg _) hlt)
    have hclose := star_close hr hθ hδ h1 h2 hab q4 q5 q6 q7 fe hkeep
    have hkeep' : keepEps (n.eps env a) = true := hkeep
    rw [if_pos hkeep'] at hkept
    rw [hkept]
    refine ⟨fe, _, hex.2 hP0 hle, ?_, hP0, ?_, hclose⟩
    · rw [abs_div, abs_of_pos hP0, div_le_one hP0]
      exact hle
    · field_simp
  · left
    rw [abs_of_pos (by linarith)] at m1
    refine ⟨?_, hex.1 (Or.inr hgt)⟩
    rw [hkept]
    split
    · rename_i hkeep
      rw [Bool.eq_false_iff]
      intro fe
      have hclose := star_close hr hθ hδ h1 h2 hab q4 q5 q6 q7 fe hkeep
      have k1 := kept_abs hkeep fe
      have k2 : |(value (n.eps env a) : ℝ) * P| ≤ P := by
        rw [abs_mul, abs_of_nonneg q3.1]
        calc _ ≤ 1 * P := mul_le_mul_of_nonneg_right k1 q3.1
          _ = P := one_mul P
      have k3 := abs_sub_abs_le_abs_sub (R.Jz a / J) ((value (n.eps env a) : ℝ) * P)
      rw [abs_sub_comm] at k3
      linarith
    · exact not_finite_nan

/-- C111: a star has a circularity in doubles exactly if it has one in exact arithmetic, when every bound
star is a corner of the profile or clear of the circular orbit by `2 δ + 2 δ / γ`.  The circularity of a
corner is 1 or -1 in both; the others agree up to `2 δ + 2 δ / γ` relative to the circular orbit `P`. -/
theorem C111_eps (env : CircEnv Float64) (henv : env.OK) (env' : CircEnv (Ext ℝ)) (henv' : env'.OK)
    (b : BGalaxy Float64) (j : JCirc Float64)
    (h : jcirc env (Galaxy.ofBodies b) defaultCbin.1 defaultCbin.2 = .ok j) (M J θ δ γ : ℝ)
    (hr : NearRef R b M J θ) (hθ : θ ≤ 1 / 4) (hδ : 3 * θ + 1 / 2 ^ 49 ≤ δ)
    (hc : Clear (R.boundOf b) (fun a => R.E a / M) (fun a => R.Jz a / J) defaultEdges δ)
    (j' : JCirc (Ext ℝ))
    (h' : jcirc env' (Galaxy.ofBodies (R.galaxy b)) defaultCbin.1 defaultCbin.2 = .ok j')
    (xs ys : List ℝ) (hx : j'.x = xs.map .fin) (hy : j'.y = ys.map .fin) (hγ : 0 < γ)
    (hgap : xs.Pairwise fun u v => γ ≤ v - u)
    (hstar : ∀ a ∈ b.stars, R.E a < 0 → (R.E a / M, |R.Jz a / J|) ∈ xs.zip ys ∨
      ∀ P, OnPolygon xs ys (R.E a / M) P → 2 * δ + 2 * δ / γ < |(|R.Jz a / J| - P)|)
    (i : Nat) (a : Body Float64) (ha : b.stars[i]? = some a) (e : Float64) (he : j.eps[i]? = some e)
    (x : Ext ℝ) (hxe : j'.eps[i]? = some x) (k : Float64) (hk : j.normalizedStarEnergy[i]? = some k)
    (u : Ext ℝ) (hu : j'.normalizedStarEnergy[i]? = some u) :
    EpsPair e x fun w => (R.E a < 0 ∧ Num.isFinite k = true ∧ |(value k : ℝ) - R.E a / M| ≤ δ ∧
        u = .fin (R.E a / M)) ∧
      (((R.E a / M, |R.Jz a / J|) ∈ xs.zip ys ∧ (value e : ℝ) = w ∧ |w| = 1) ∨
      ((R.E a / M, |R.Jz a / J|) ∉ xs.zip ys ∧ ∃ P, OnPolygon xs ys (R.E a / M) P ∧ 0 < P ∧ P ≤ 1 ∧
        w * P = R.Jz a / J ∧ |(value e : ℝ) * P - R.Jz a / J| ≤ 2 * δ + 2 * δ / γ)) := by
  obtain ⟨n, n', hn, hj, hj', hE, hJ, a0, L, ha0, hM, hL, hp, hp'⟩ := pair_circ henv henv' h hr hθ hδ hc
  rw [hj'] at h'
  have h' := Except.ok.inj h'
  subst h'
  obtain ⟨rfl, rfl⟩ := exact_tables hp' hx hy
  obtain ⟨hbne, h1, h2, -⟩ := circNorm_inv hn
  obtain ⟨hJ0, hcol, -, -⟩ := columns_near hr hθ h1 h2
  have hT := (farTable henv C65_default_bins h (fun c hc _ => (hr.jz c hc).1) hn hj hJ0).1
  have hjx : j.x = n.pts.map (·.1) := by rw [hj]; rfl
  rw [hjx] at hT
  have ht := tiny_small
  have hη : 3 * θ + (1 / 2 ^ 53 + (tiny : ℝ)) ≤ δ := by
    refine le_trans ?_ hδ
    have : (1 : ℝ) / 2 ^ 53 + 1 / 2 ^ 53 / 1000 ≤ 1 / 2 ^ 49 := by norm_num
    linarith
  have hst : (R.galaxy b).stars = b.stars.map R.body := rfl
  have he' : keptEps env n a = e := by
    rw [hj] at he
    simp only [circResult, List.getElem?_map, ha, Option.map_some, Option.some.injEq] at he
    exact he
  have hxe' : keptEps env' n' (R.body a) = x := by
    simp only [circResult, List.getElem?_map, hst, ha, Option.map_some, Option.some.injEq] at hxe
    exact hxe
  have hk' : (if isBound a.energy && keepEps (n.eps env a) then n.e a else Num.nan) = k := by
    rw [hj] at hk
    simp only [circResult, List.getElem?_map, ha, Option.map_some, Option.some.injEq] at hk
    exact hk
  have hu' : (if isBound (R.body a).energy && keepEps (n'.eps env' (R.body a)) then n'.e (R.body a)
      else Num.nan) = u := by
    simp only [circResult, List.getElem?_map, hst, ha, Option.map_some, Option.some.injEq] at hu
    exact hu
  have hall : a ∈ b.all := by unfold BGalaxy.all; simp [List.mem_of_getElem? ha]
  obtain ⟨b1, b2⟩ := bound_iff hr hall
  by_cases hneg : R.E a < 0
  swap
  · left
    have k1 : isBound a.energy = false := Bool.eq_false_iff.2 fun hb => hneg (b1.1 hb)
    have k2 : isBound (R.body a).energy = false := Bool.eq_false_iff.2 fun hb => hneg (b2.1 hb)
    rw [← he', ← hxe']
    unfold keptEps
    rw [k1, k2, Bool.false_and, Bool.false_and, if_neg (by simp), if_neg (by simp)]
    exact ⟨not_finite_nan, not_finite_nan⟩
  have hab : a ∈ b.bound := (mem_bound' hr).2 ⟨hall, hneg⟩
  -- the energies of a star with a circularity
  have hen : Num.isFinite (keptEps env n a) = true → ∀ w : ℝ, keptEps env' n' (R.body a) = .fin w →
      R.E a < 0 ∧ Num.isFinite k = true ∧ |(value k : ℝ) - R.E a / M| ≤ δ ∧ u = .fin (R.E a / M) := by
    intro fe w hw
    have c1 : (isBound a.energy && keepEps (n.eps env a)) = true := by
      by_contra hcon
      unfold keptEps at fe
      rw [if_neg hcon, not_finite_nan] at fe
      cases fe
    have c2 : (isBound (R.body a).energy && keepEps (n'.eps env' (R.body a))) = true := by
      by_contra hcon
      unfold keptEps at hw
      rw [if_neg hcon] at hw
      cases hw
    rw [if_pos c1] at hk'
    rw [if_pos c2] at hu'
    rw [← hk', ← hu', hE]
    exact ⟨hneg, (hcol a hab).1, (hcol a hab).2.trans hη, rfl⟩
  obtain ⟨l, P, q1, q2, q3, q4, q5, q6, q7⟩ :=
    pair_star henv henv' h hr hθ hδ hγ hn hj hE ha0 hM hL hp hp' hgap hab
  by_cases hcor : (R.E a / M, |R.Jz a / J|) ∈
      ((a0 :: L).map fun a => R.E a / M).zip ((a0 :: L).map fun a => |R.Jz a / J|)
  · have hpair := corner_pair henv henv' hr hθ hδ hc h1 h2 hT.inc hE hJ ha0 hM hL hp hp' hgap hγ hab
      hcor q1
    rw [he', hxe'] at hpair hen
    rcases hpair with hp | ⟨fe, w, hw, hw1, hq⟩
    · exact Or.inl hp
    · exact Or.inr ⟨fe, w, hw, hw1, hen fe w hw, Or.inl ⟨hcor, hq⟩⟩
  · have hmar := (hstar a (List.mem_of_getElem? ha) hneg).resolve_left hcor P q2
    have hpair := clear_pair hr hθ hδ h1 h2 hJ hγ hab q1 q3 q4 q5 q6 q7 hmar
    rw [he', hxe'] at hpair hen
    rcases hpair with hp | ⟨fe, w, hw, hw1, hq⟩
    · exact Or.inl hp
    · exact Or.inr ⟨fe, w, hw, hw1, hen fe w hw, Or.inr ⟨hcor, P, q2, hq.1, q3.2, hq.2⟩⟩

/-! ## Bins -/

theorem clamp_of_abs {w : ℝ} (h : |w| ≤ 1) : clamp w = w := by
  obtain ⟨h1, h2⟩ := abs_le.1 h
  unfold clamp
  rw [min_eq_right h2, max_eq_right h1]

/-- circularities 1 or -1 are clear of the inner edges -/
theorem sides_unit {m d : Nat} (hm : 0 < m) (hmd : m ∣ 10 ^ d) (hd : d ≤ 14) {v w : ℝ} (hv : v = w)
    (hw : |w| = 1) : ∀ k, 0 < k → k < 2 * m →
      ((1 : ℝ) / 2 ^ 53 < v - (edgeQ m k : ℚ) ∧ ((edgeQ m k : ℚ) : ℝ) < w) ∨
      ((1 : ℝ) / 2 ^ 53 < (edgeQ m k : ℚ) - v ∧ w < ((edgeQ m k : ℚ) : ℝ)) := by
  intro k h0 h1
  have hm' : (0 : ℝ) < m := by exact_mod_cast hm
  have hm14 : (m : ℝ) ≤ 10 ^ 14 := by
    have : m ≤ 10 ^ 14 := (Nat.le_of_dvd (by positivity) hmd).trans (Nat.pow_le_pow_right (by norm_num) hd)
    exact_mod_cast this
  have hs : (1 : ℝ) / 2 ^ 53 < 1 / m := by
    rw [div_lt_div_iff₀ (by positivity) hm']
    have : (10 : ℝ) ^ 14 < 2 ^ 53 := by norm_num
    linarith
  have a1 : (-1 : ℝ) + 1 / m ≤ ((edgeQ m k : ℚ) : ℝ) := by
    have := edgeQ_lt hm h0
    rw [edgeQ_zero] at this
    have : (((-1 + 1 / m : ℚ)) : ℝ) ≤ ((edgeQ m k : ℚ) : ℝ) := Rat.cast_le.2 this
    push_cast at this
    exact this
  have a2 : ((edgeQ m k : ℚ) : ℝ) + 1 / m ≤ 1 := by
    have := edgeQ_lt hm h1
    rw [edgeQ_last hm] at this
    have : (((edgeQ m k + 1 / m : ℚ)) : ℝ) ≤ ((1 : ℚ) : ℝ) := Rat.cast_le.2 this
    push_cast at this
    exact this
  have hpos : (0 : ℝ) < 1 / m := by positivity
  rcases abs_eq (by norm_num : (0 : ℝ) ≤ 1) |>.1 hw with hw | hw
  · left
    rw [hv, hw]
    exact ⟨by linarith, by linarith⟩
  · right
    rw [hv, hw]
    exact ⟨by linarith, by linarith⟩

/-- from the error of the circularity to the sides of the edges -/
theorem sides_margin {m : Nat} {v w P z B δ : ℝ} (hP : 0 < P) (hP1 : P ≤ 1) (hw : w * P = z)
    (hv : |v * P - z| ≤ B) (hδ : 1 / 2 ^ 49 ≤ δ)
    (hmar : ∀ k : Nat, 0 < k → k < 2 * m → B + δ < |z - ((k : ℝ) / m - 1) * P|) :
    ∀ k, 0 < k → k < 2 * m →
      ((1 : ℝ) / 2 ^ 53 < v - (edgeQ m k : ℚ) ∧ ((edgeQ m k : ℚ) : ℝ) < w) ∨
      ((1 : ℝ) / 2 ^ 53 < (edgeQ m k : ℚ) - v ∧ w < ((edgeQ m k : ℚ) : ℝ)) := by
  intro k h0 h1
  have hq : ((edgeQ m k : ℚ) : ℝ) = (k : ℝ) / m - 1 := by unfold edgeQ; push_cast; rfl
  have hm := hmar k h0 h1
  rw [← hq] at hm
  set q : ℝ := ((edgeQ m k : ℚ) : ℝ)
  have hs : (1 : ℝ) / 2 ^ 53 < 1 / 2 ^ 49 := by norm_num
  have hδ0 : 0 < δ := lt_of_lt_of_le (by positivity) hδ
  have hB : 0 ≤ B := (abs_nonneg _).trans hv
  have hv := abs_le.1 hv
  have key : ∀ t : ℝ, δ < t * P → 1 / 2 ^ 53 < t := by
    intro t ht
    have h0 : 0 < t := by
      by_contra hcon
      have := mul_nonpos_of_nonpos_of_nonneg (not_lt.1 hcon) hP.le
      linarith
    have : t * P ≤ t := by nlinarith
    linarith
  rcases lt_trichotomy (z - q * P) 0 with hs | hs | hs
  · right
    rw [abs_of_neg hs] at hm
    refine ⟨key _ (by nlinarith [hv.2]), ?_⟩
    by_contra hcon
    have := mul_le_mul_of_nonneg_right (not_lt.1 hcon) hP.le
    linarith
  · rw [hs, abs_zero] at hm
    linarith
  · left
    rw [abs_of_pos hs] at hm
    refine ⟨key _ (by nlinarith [hv.1]), ?_⟩
    by_contra hcon
    have := mul_le_mul_of_nonneg_right (not_lt.1 hcon) hP.le
    linarith

/-- an energy in doubles and one in real numbers, clear of the edges above -1, are in the same energy
bins -/
theorem inBin_energy_near {nE : Nat} (h53 : nE ≤ 2 ^ 53) {k : Float64} (hk : Num.isFinite k = true)
    (hlo : (-1 : ℝ) ≤ value k) {u δ : ℝ} (hu : -1 ≤ u) (hku : |(value k : ℝ) - u| ≤ δ)
    (hδ : 1 / 2 ^ 49 ≤ δ) (hmar : ∀ i : Nat, 0 < i → i ≤ nE → 2 * δ < |u - ((i : ℝ) / nE - 1)|)
    {n : Nat} (hn : n < nE) :
    inBinI (energyEdges nE : List Float64) nE n k = inBinI (energyEdges nE : List (Ext ℝ)) nE n (.fin u) ∧
    halfOpen (energyEdges nE : List Float64) n k
      = halfOpen (energyEdges nE : List (Ext ℝ)) n (.fin u) := by
  have hE : 0 < nE := by omega
  have hs : (1 : ℝ) / 2 ^ 52 < 1 / 2 ^ 49 := by norm_num
  have hku := abs_le.1 hku
  have hc : ClearEnergy nE (toExt k) := by
    intro v hv i h0 h1
    have hm := hmar i h0 h1.le
    have hvk : value k = v := value_eq hv
    have : (((1 : ℚ) / 2 ^ 52 : ℚ) : ℝ) < ((|v - ((i : ℚ) / nE - 1)| : ℚ) : ℝ) := by
      push_cast
      rw [← hvk]
      rcases abs_cases (u - ((i : ℝ) / nE - 1)) with ⟨h, _⟩ | ⟨h, _⟩
      · rw [h] at hm
        refine lt_of_lt_of_le ?_ (le_abs_self _)
        linarith
      · rw [h] at hm
        refine lt_of_lt_of_le ?_ (neg_le_abs _)
        linarith
    exact Rat.cast_lt.1 this
  obtain ⟨e1, e2⟩ := inBin_energy h53 hk hc hn
  rw [e1, e2]
  have key : ∀ i ≤ nE, (edge (energyEdges nE : List (Ext ℝ)) i <=. (.fin ((value k : ℚ) : ℝ) : Ext ℝ))
        = (edge (energyEdges nE : List (Ext ℝ)) i <=. (.fin u : Ext ℝ)) ∧
      (0 < i → ((.fin ((value k : ℚ) : ℝ) : Ext ℝ) <=. edge (energyEdges nE : List (Ext ℝ)) i)
        = ((.fin u : Ext ℝ) <=. edge (energyEdges nE : List (Ext ℝ)) i)) := by
    intro i hi
    rw [energyEdges_get nE hE i hi]
    rcases Nat.eq_zero_or_pos i with rfl | h0
    · refine ⟨?_, fun h => absurd h (lt_irrefl 0)⟩
      refine decide_eq_decide.2 ?_
      simp only [Nat.cast_zero, zero_div, add_zero]
      exact ⟨fun _ => hu, fun _ => hlo⟩
    · have hm := hmar i h0 hi
      have hδ0 : 0 < δ := lt_of_lt_of_le (by positivity) hδ
      rcases abs_cases (u - ((i : ℝ) / nE - 1)) with ⟨h, _⟩ | ⟨h, _⟩
      · rw [h] at hm
        refine ⟨decide_eq_decide.2 ⟨fun _ => by linarith, fun _ => by linarith⟩,
          fun _ => decide_eq_decide.2 ⟨fun _ => by linarith, fun _ => by linarith⟩⟩
      · rw [h] at hm
        refine ⟨decide_eq_decide.2 ⟨fun _ => by linarith, fun _ => by linarith⟩,
          fun _ => decide_eq_decide.2 ⟨fun _ => by linarith, fun _ => by linarith⟩⟩
  have lt : ((.fin ((value k : ℚ) : ℝ) : Ext ℝ) <. edge (energyEdges nE : List (Ext ℝ)) (n + 1))
      = ((.fin u : Ext ℝ) <. edge (energyEdges nE : List (Ext ℝ)) (n + 1)) := by
    rw [NumOrd.lt_def, NumOrd.lt_def, (key (n + 1) hn).1, (key (n + 1) hn).2 (by omega)]
  constructor
  · have a1 := (key n hn.le).1
    have a2 := (key (n + 1) hn).2 (by omega)
    unfold inBinI
    unfold edge at a1 a2 lt
    rw [a1, a2, lt]
  · unfold halfOpen
    rw [(key n hn.le).1, lt]

/-! ## Labels -/

/-- two galaxies of the same shape whose splits get the same rows and give the same labels -/
theorem decompose_same {F G : Type} [Num F] [NumOrd F] [Num G] [NumOrd G] (env : CircEnv F)
    (env' : CircEnv G) (cbins : F × F) (cbins' : G × G) (b : BGalaxy F) (b' : BGalaxy G) (j : JCirc F)
    (j' : JCirc G) (hj : jcirc env (Galaxy.ofBodies b) cbins.1 cbins.2 = .ok j)
    (hj' : jcirc env' (Galaxy.ofBodies b') cbins'.1 cbins'.2 = .ok j') (attrs : List String)
    (hne : attrs ≠ []) (hc : ∀ a ∈ attrs, a ∈ circularityAttributes)
    (hz : "normalized_star_Jz" ∉ attrs)
    (split : List (List F) → List (Pd.Cell F) → Py (List Int × Option (Mat F)))
    (split' : List (List G) → List (Pd.Cell G) → Py (List Int × Option (Mat G)))
    (h1 : b.stars.length = b'.stars.length) (h2 : b.dm.length = b'.dm.length)
    (h3 : b.gas.length = b'.gas.length) (hS : splitStars b j attrs = splitStars b' j' attrs)
    (labels : List Int)
    (hs : split ((splitStars b j attrs).map (starRow j attrs))
      ((splitStars b j attrs).map fun _ => .int PType.stars.value) = .ok (labels, none))
    (hs' : split' ((splitStars b' j' attrs).map (starRow j' attrs))
      ((splitStars b' j' attrs).map fun _ => .int PType.stars.value) = .ok (labels, none))
    (hlen : labels.length = (splitStars b j attrs).length) :
    ∃ c c', decompose env cbins ⟨attrs, starsRowsMask, split⟩ (Galaxy.ofBodies b) = .ok c ∧
      decompose env' cbins' ⟨attrs, starsRowsMask, split'⟩ (Galaxy.ofBodies b') = .ok c' ∧
      c.labels = c'.labels := by
  obtain ⟨c, c1, c2, c3, c4⟩ := decompose_rows env cbins b j hj attrs hne hc hz split labels hs hlen
  obtain ⟨c', d1, d2, d3, d4⟩ := decompose_rows env' cbins' b' j' hj' attrs hne hc hz split' labels hs'
    (hS ▸ hlen)
  refine ⟨c, c', c1, d1, ?_⟩
  apply List.ext_getElem?
  intro i
  rcases lt_or_ge i (b.stars.length + b.dm.length + b.gas.length) with hi | hi
  · by_cases hm : i ∈ splitStars b j attrs
    · obtain ⟨p, hp⟩ := List.mem_iff_getElem?.1 hm
      rw [c3 p i hp, d3 p i (hS ▸ hp)]
    · rw [c4 i hi hm, d4 i (by omega) (hS ▸ hm)]
  · rw [List.getElem?_eq_none (by omega), List.getElem?_eq_none (by omega)]

theorem getD_of_lt {α : Type} {l : List α} {i : Nat} (h : i < l.length) (d : α) :
    l[i]? = some (l.getD i d) := by
  rw [List.getD_eq_getElem?_getD, List.getElem?_eq_getElem h]
  rfl

/-- the lengths of the columns -/
theorem eps_lengths {F : Type} [Num F] [NumOrd F] {env : CircEnv F} {b : BGalaxy F} {bin0 bin1 : F}
    {j : JCirc F} (hj : jcirc env (Galaxy.ofBodies b) bin0 bin1 = .ok j) :
    j.eps.length = b.stars.length ∧ j.normalizedStarEnergy.length = b.stars.length := by
  have hal : CircAligned env (bin0, bin1) b ["eps", "normalized_star_energy"] j :=
    circAligned_of_ok hj (by decide)
  have := (hal ⟨"eps", by simp, by decide⟩).2
  exact ⟨this "eps" (by simp) (by decide), this "normalized_star_energy" (by simp) (by decide)⟩

variable {σ : Type}

/-- C111: JHistogram with `2 m` bins, `m` a divisor of a power of ten, gives in doubles the labels of exact
arithmetic, with the same generator, if every bound star is a corner of the profile or is clear of the
circular orbit by `2 δ + 2 δ / γ` and of the inner edges by `3 δ + 2 δ / γ`. -/
theorem C111_jhistogram (env : CircEnv Float64) (henv : env.OK) (env' : CircEnv (Ext ℝ)) (henv' : env'.OK)
    (b : BGalaxy Float64) (j : JCirc Float64)
    (h : jcirc env (Galaxy.ofBodies b) defaultCbin.1 defaultCbin.2 = .ok j) (M J θ δ γ : ℝ)
    (hr : NearRef R b M J θ) (hθ : θ ≤ 1 / 4) (hδ : 3 * θ + 1 / 2 ^ 49 ≤ δ)
    (hc : Clear (R.boundOf b) (fun a => R.E a / M) (fun a => R.Jz a / J) defaultEdges δ)
    (j' : JCirc (Ext ℝ))
    (h' : jcirc env' (Galaxy.ofBodies (R.galaxy b)) defaultCbin.1 defaultCbin.2 = .ok j')
    (xs ys : List ℝ) (hx : j'.x = xs.map .fin) (hy : j'.y = ys.map .fin) (hγ : 0 < γ)
    (hgap : xs.Pairwise fun u v => γ ≤ v - u)
    (junk : Nat → Int) (rng : Rng σ) (hrng : rng.OK) {m d : Nat} (hm : 0 < m) (hmd : m ∣ 10 ^ d)
    (hd : d ≤ 14) (s : σ)
    (hstar : ∀ a ∈ b.stars, R.E a < 0 → (R.E a / M, |R.Jz a / J|) ∈ xs.zip ys ∨
      ∀ P, OnPolygon xs ys (R.E a / M) P → 2 * δ + 2 * δ / γ < |(|R.Jz a / J| - P)| ∧
        ∀ k : Nat, 0 < k → k < 2 * m → 3 * δ + 2 * δ / γ < |R.Jz a / J - ((k : ℝ) / m - 1) * P|) :
    ∃ c c', decompose env defaultCbin (jHistogram junk rng (2 * m : ℤ) d s) (Galaxy.ofBodies b) = .ok c ∧
      decompose env' defaultCbin (jHistogram junk rng (2 * m : ℤ) d s) (Galaxy.ofBodies (R.galaxy b))
        = .ok c' ∧
      c.labels = c'.labels := by
  have hθ0 := resolved_nonneg hr
  have hδ49 : 1 / 2 ^ 49 ≤ δ := by linarith
  obtain ⟨l1, l2⟩ := eps_lengths h
  obtain ⟨l1', l2'⟩ := eps_lengths h'
  have hst : (R.galaxy b).stars.length = b.stars.length := by simp [Ref.galaxy]
  rw [hst] at l1' l2'
  have hto : (2 * m : ℤ).toNat = 2 * m := by omega
  have hle : m ≤ 10 ^ d := Nat.le_of_dvd (by positivity) hmd
  have hpair := fun i (hi : i < b.stars.length) =>
    C111_eps env henv env' henv' b j h M J θ δ γ hr hθ hδ hc j' h' xs ys hx hy hγ hgap
      (fun a ha h0 => (hstar a ha h0).imp_right fun hP P hon => (hP P hon).1) i b.stars[i]
      (List.getElem?_eq_getElem hi) _ (getD_of_lt (by omega) Num.nan) _ (getD_of_lt (by omega) Num.nan) _
      (getD_of_lt (by omega) Num.nan) _ (getD_of_lt (by omega) Num.nan)
  have hS : splitStars b j ["eps"] = splitStars (R.galaxy b) j' ["eps"] := by
    unfold splitStars
    rw [hst]
    apply List.filter_congr
    intro i hi
    rw [List.mem_range] at hi
    have e1 : rowFinite j ["eps"] i = Num.isFinite (j.eps.getD i Num.nan) := by
      simp [rowFinite, starRow, JCirc.attr]
    have e2 : rowFinite j' ["eps"] i = Num.isFinite (j'.eps.getD i Num.nan) := by
      simp [rowFinite, starRow, JCirc.attr]
    rw [e1, e2]
    rcases hpair i hi with ⟨f1, f2⟩ | ⟨f1, w, f2, -⟩
    · rw [f1, f2]
    · rw [f1, f2]; rfl
  have hmem : ∀ i ∈ splitStars b j ["eps"], i < b.stars.length ∧
      Num.isFinite (j.eps.getD i Num.nan) = true := by
    intro i hi
    unfold splitStars at hi
    rw [List.mem_filter, List.mem_range] at hi
    refine ⟨hi.1, ?_⟩
    simpa [rowFinite, starRow, JCirc.attr] using hi.2
  have hunit : ∀ e ∈ (splitStars b j ["eps"]).map fun i => j.eps.getD i Num.nan, InUnit e := by
    intro e he
    rw [List.mem_map] at he
    obtain ⟨i, hi, rfl⟩ := he
    obtain ⟨h1, h2⟩ := hmem i hi
    rcases C23_eps_range env b _ _ j h _ (List.mem_of_getElem?
      (getD_of_lt (l := j.eps) (i := i) (by omega) Num.nan)) with hn | hu
    · rw [NumOrd.finite_not_nan h2] at hn; cases hn
    · exact hu
  obtain ⟨hh, hso, hco⟩ := histogram64 hm hle (by omega : d ≤ 15)
  obtain ⟨labels, s', hl1, hl2, -⟩ := C37_labels junk rng hrng hh hso hco _ hunit s
  have hex : (m : ℝ) < 2 * (10 : ℝ) ^ (d : ℤ) := by
    have : (m : ℝ) ≤ (10 : ℝ) ^ (d : ℤ) := by rw [zpow_natCast]; exact_mod_cast hle
    have h0 : (0 : ℝ) < (10 : ℝ) ^ (d : ℤ) := zpow_pos (by norm_num) _
    linarith
  have htr := C102_jhistogram junk rng hh (C40_exact_even (K := ℝ) m hm d hex)
    ((splitStars b j ["eps"]).map fun i => j.eps.getD i Num.nan)
    ((splitStars b j ["eps"]).map fun i => j'.eps.getD i Num.nan) (by
      intro k hk
      rw [hto] at hk ⊢
      rw [List.map_map, List.map_map]
      apply List.map_congr_left
      intro i hi
      obtain ⟨h1, h2⟩ := hmem i hi
      rcases hpair i h1 with ⟨f1, -⟩ | ⟨-, w, f2, hw, ⟨hneg, -⟩, hq⟩
      · rw [h2] at f1; cases f1
      · rw [Function.comp_apply, Function.comp_apply, f2, ← clamp_of_abs hw]
        refine inBin_near hm hmd hd h2 (hunit _ (List.mem_map_of_mem hi)) ?_ hk
        rcases hq with ⟨-, hv, hw1⟩ | ⟨hcor, P, hon, hP, hP1, hwP, hvP⟩
        · exact sides_unit hm hmd hd hv hw1
        · have hm2 := ((hstar _ (List.getElem_mem h1) hneg).resolve_left hcor P hon).2
          exact sides_margin hP hP1 hwP hvP hδ49 fun k h0 h1 => by linarith [hm2 k h0 h1]) s
  have hl3 := hl1
  rw [htr, List.map_map] at hl3
  rw [List.map_map] at hl1
  refine decompose_same env env' defaultCbin defaultCbin b (R.galaxy b) j j' h h' ["eps"] (by simp)
    (by decide) (by decide) _ _ (by simp [Ref.galaxy]) (by simp [Ref.galaxy]) (by simp [Ref.galaxy]) hS
    labels ?_ ?_ (by rw [hl2, List.length_map])
  · have hrow : (splitStars b j ["eps"]).map (starRow j ["eps"])
        = (splitStars b j ["eps"]).map ((fun e => [e]) ∘ fun i => j.eps.getD i Num.nan) :=
      List.map_congr_left fun i _ => rfl
    simp only [hrow, hl1]
    rfl
  · rw [← hS]
    have hrow : (splitStars b j ["eps"]).map (starRow j' ["eps"])
        = (splitStars b j ["eps"]).map ((fun e => [e]) ∘ fun i => j'.eps.getD i Num.nan) :=
      List.map_congr_left fun i _ => rfl
    simp only [hrow, hl3]
    rfl

/-- C111: JEHistogram, for stars whose energies are also clear of the energy edges above -1 by `2 δ`. -/
theorem C111_jehistogram (env : CircEnv Float64) (henv : env.OK) (env' : CircEnv (Ext ℝ)) (henv' : env'.OK)
    (b : BGalaxy Float64) (j : JCirc Float64)
    (h : jcirc env (Galaxy.ofBodies b) defaultCbin.1 defaultCbin.2 = .ok j) (M J θ δ γ : ℝ)
    (hr : NearRef R b M J θ) (hθ : θ ≤ 1 / 4) (hδ : 3 * θ + 1 / 2 ^ 49 ≤ δ)
    (hc : Clear (R.boundOf b) (fun a => R.E a / M) (fun a => R.Jz a / J) defaultEdges δ)
    (j' : JCirc (Ext ℝ))
    (h' : jcirc env' (Galaxy.ofBodies (R.galaxy b)) defaultCbin.1 defaultCbin.2 = .ok j')
    (xs ys : List ℝ) (hx : j'.x = xs.map .fin) (hy : j'.y = ys.map .fin) (hγ : 0 < γ)
    (hgap : xs.Pairwise fun u v => γ ≤ v - u)
    (junk : Nat → Int) (rng : Rng σ) (hrng : rng.OK) {m d nE : Nat} (hm : 0 < m) (hmd : m ∣ 10 ^ d)
    (hd : d ≤ 14) (hE0 : 0 < nE) (hE : nE ≤ 2 ^ 53) (s : σ)
    (hstar : ∀ a ∈ b.stars, R.E a < 0 → (R.E a / M, |R.Jz a / J|) ∈ xs.zip ys ∨
      ∀ P, OnPolygon xs ys (R.E a / M) P → 2 * δ + 2 * δ / γ < |(|R.Jz a / J| - P)| ∧
        ∀ k : Nat, 0 < k → k < 2 * m → 3 * δ + 2 * δ / γ < |R.Jz a / J - ((k : ℝ) / m - 1) * P|)
    (henergy : ∀ a ∈ b.stars, R.E a < 0 → ∀ k : Nat, 0 < k → k ≤ nE →
      2 * δ < |R.E a / M - ((k : ℝ) / nE - 1)|) :
    ∃ c c', decompose env defaultCbin (jeHistogram junk rng (2 * m : ℤ) d nE s) (Galaxy.ofBodies b)
        = .ok c ∧
      decompose env' defaultCbin (jeHistogram junk rng (2 * m : ℤ) d nE s) (Galaxy.ofBodies (R.galaxy b))
        = .ok c' ∧
      c.labels = c'.labels := by
  have hθ0 := resolved_nonneg hr
  have hδ49 : 1 / 2 ^ 49 ≤ δ := by linarith
  have hδ0 : 0 < δ := lt_of_lt_of_le (by positivity) hδ49
  obtain ⟨l1, l2⟩ := eps_lengths h
  obtain ⟨l1', l2'⟩ := eps_lengths h'
  have hst : (R.galaxy b).stars.length = b.stars.length := by simp [Ref.galaxy]
  rw [hst] at l1' l2'
  have hto : (2 * m : ℤ).toNat = 2 * m := by omega
  have hto' : (nE : ℤ).toNat = nE := by omega
  have hle : m ≤ 10 ^ d := Nat.le_of_dvd (by positivity) hmd
  have hpair := fun i (hi : i < b.stars.length) =>
    C111_eps env henv env' henv' b j h M J θ δ γ hr hθ hδ hc j' h' xs ys hx hy hγ hgap
      (fun a ha h0 => (hstar a ha h0).imp_right fun hP P hon => (hP P hon).1) i b.stars[i]
      (List.getElem?_eq_getElem hi) _ (getD_of_lt (by omega) Num.nan) _ (getD_of_lt (by omega) Num.nan) _
      (getD_of_lt (by omega) Num.nan) _ (getD_of_lt (by omega) Num.nan)
  have hS : splitStars b j ["normalized_star_energy", "eps"]
      = splitStars (R.galaxy b) j' ["normalized_star_energy", "eps"] := by
    unfold splitStars
    rw [hst]
    apply List.filter_congr
    intro i hi
    rw [List.mem_range] at hi
    have e1 : rowFinite j ["normalized_star_energy", "eps"] i
        = (Num.isFinite (j.normalizedStarEnergy.getD i Num.nan) &&
          Num.isFinite (j.eps.getD i Num.nan)) := by
      simp [rowFinite, starRow, JCirc.attr]
    have e2 : rowFinite j' ["normalized_star_energy", "eps"] i
        = (Num.isFinite (j'.normalizedStarEnergy.getD i Num.nan) &&
          Num.isFinite (j'.eps.getD i Num.nan)) := by
      simp [rowFinite, starRow, JCirc.attr]
    rw [e1, e2]
    rcases hpair i hi with ⟨f1, f2⟩ | ⟨f1, w, f2, -, ⟨-, f3, -, f4⟩, -⟩
    · rw [f1, f2, Bool.and_false, Bool.and_false]
    · rw [f1, f2, f3, f4]; rfl
  set S := splitStars b j ["normalized_star_energy", "eps"] with hSdef
  have hmem : ∀ i ∈ S, i < b.stars.length ∧ Num.isFinite (j.eps.getD i Num.nan) = true ∧
      Num.isFinite (j.normalizedStarEnergy.getD i Num.nan) = true := by
    intro i hi
    rw [hSdef] at hi
    unfold splitStars at hi
    rw [List.mem_filter, List.mem_range] at hi
    have := hi.2
    simp [rowFinite, starRow, JCirc.attr] at this
    exact ⟨hi.1, this.2, this.1⟩
  set rows : List (Float64 × Float64) := S.map fun i =>
    (j.normalizedStarEnergy.getD i Num.nan, j.eps.getD i Num.nan) with hrows
  set rows' : List (Ext ℝ × Ext ℝ) := S.map fun i =>
    (j'.normalizedStarEnergy.getD i Num.nan, j'.eps.getD i Num.nan) with hrows'
  have hunit : ∀ i ∈ S, InUnit (j.eps.getD i Num.nan) := by
    intro i hi
    obtain ⟨h1, h2, -⟩ := hmem i hi
    rcases C23_eps_range env b _ _ j h _ (List.mem_of_getElem?
      (getD_of_lt (l := j.eps) (i := i) (by omega) Num.nan)) with hn | hu
    · rw [NumOrd.finite_not_nan h2] at hn; cases hn
    · exact hu
  obtain ⟨hh, hso, hco⟩ := histogram64 hm hle (by omega : d ≤ 15)
  have hEs : EdgesSorted (energyEdges (nE : ℤ).toNat : List Float64) (nE : ℤ).toNat := by
    rw [Int.toNat_natCast]
    exact C66_energy_edges nE hE
  have hex : (m : ℝ) < 2 * (10 : ℝ) ^ (d : ℤ) := by
    have : (m : ℝ) ≤ (10 : ℝ) ^ (d : ℤ) := by rw [zpow_natCast]; exact_mod_cast hle
    have h0 : (0 : ℝ) < (10 : ℝ) ^ (d : ℤ) := zpow_pos (by norm_num) _
    linarith
  have hen : ∀ i ∈ S, ∀ n < nE,
      inBinI (energyEdges nE : List Float64) nE n (j.normalizedStarEnergy.getD i Num.nan)
        = inBinI (energyEdges nE : List (Ext ℝ)) nE n (j'.normalizedStarEnergy.getD i Num.nan) ∧
      halfOpen (energyEdges nE : List Float64) n (j.normalizedStarEnergy.getD i Num.nan)
        = halfOpen (energyEdges nE : List (Ext ℝ)) n (j'.normalizedStarEnergy.getD i Num.nan) := by
    intro i hi n hn
    obtain ⟨h1, h2, h3⟩ := hmem i hi
    rcases hpair i h1 with ⟨f1, -⟩ | ⟨-, w, -, -, ⟨hneg, -, f3, f4⟩, -⟩
    · rw [h2] at f1; cases f1
    · rw [f4]
      refine inBin_energy_near hE h3 ?_ ?_ f3 hδ49 (henergy _ (List.getElem_mem h1) hneg) hn
      · rcases C26_energy_range env b _ _ j h _ (List.mem_of_getElem?
          (getD_of_lt (l := j.normalizedStarEnergy) (i := i) (by omega) Num.nan)) with hn | hu
        · rw [NumOrd.finite_not_nan h3] at hn; cases hn
        · have hv : Ext.le (toExt (Num.ofRat (-1) : Float64))
              (toExt (j.normalizedStarEnergy.getD i Num.nan)) = true := hu.1
          rw [show toExt (Num.ofRat (-1) : Float64) = .fin (-1) from toExt_neg_one, toExt_value h3] at hv
          have := of_decide_eq_true hv
          exact_mod_cast this
      · have hall : b.stars[i] ∈ b.all := by unfold BGalaxy.all; simp
        have := hr.M_le _ hall
        rw [le_div_iff₀ hr.M_pos]
        linarith
  have hneg : ∀ r ∈ rows, (r.1 <. Num.ofRat 0) = true := by
    intro r hr'
    rw [hrows, List.mem_map] at hr'
    obtain ⟨i, hi, rfl⟩ := hr'
    obtain ⟨h1, h2, h3⟩ := hmem i hi
    rcases hpair i h1 with ⟨f1, -⟩ | ⟨-, w, -, -, ⟨hneg, -, f3, f4⟩, -⟩
    · rw [h2] at f1; cases f1
    · show (j.normalizedStarEnergy.getD i Num.nan <. Num.ofRat 0) = true
      rw [real_lt h3 real_zero.1, real_zero.2]
      have hm0 := henergy _ (List.getElem_mem h1) hneg nE hE0 le_rfl
      have hEne : (nE : ℝ) ≠ 0 := by exact_mod_cast hE0.ne'
      rw [div_self hEne, sub_self, sub_zero, abs_of_neg (div_neg_of_neg_of_pos hneg hr.M_pos)] at hm0
      have := (abs_le.1 f3).2
      linarith
  obtain ⟨labels, s', hl1⟩ := C42_returns_partial junk rng hrng (nE : ℤ) (by exact_mod_cast hE0) hEs hh
    (bin0_pos hh hco) rows hneg s
  have hl2 := (C41_labels junk rng hrng (nE : ℤ) hEs hh hso hco rows (by
    intro r hr'
    rw [hrows, List.mem_map] at hr'
    obtain ⟨i, hi, rfl⟩ := hr'
    exact hunit i hi) s s' labels hl1).1
  have htr := C102_jehistogram junk rng nE hh (C40_exact_even (K := ℝ) m hm d hex) rows rows' (by
      intro k hk
      rw [hto] at hk ⊢
      rw [hrows, hrows', List.map_map, List.map_map]
      apply List.map_congr_left
      intro i hi
      obtain ⟨h1, h2, -⟩ := hmem i hi
      rcases hpair i h1 with ⟨f1, -⟩ | ⟨-, w, f2, hw, ⟨hneg, -⟩, hq⟩
      · rw [h2] at f1; cases f1
      · rw [Function.comp_apply, Function.comp_apply]
        simp only
        rw [f2, ← clamp_of_abs hw]
        refine inBin_near hm hmd hd h2 (hunit i hi) ?_ hk
        rcases hq with ⟨-, hv, hw1⟩ | ⟨hcor, P, hon, hP, hP1, hwP, hvP⟩
        · exact sides_unit hm hmd hd hv hw1
        · have hm2 := ((hstar _ (List.getElem_mem h1) hneg).resolve_left hcor P hon).2
          exact sides_margin hP hP1 hwP hvP hδ49 fun k h0 h1 => by linarith [hm2 k h0 h1]) (by
      intro n hn
      rw [hto'] at hn ⊢
      rw [hrows, hrows', List.map_map, List.map_map, List.map_map, List.map_map]
      exact ⟨List.map_congr_left fun i hi => (hen i hi n hn).1,
        List.map_congr_left fun i hi => (hen i hi n hn).2⟩) s
  have hl3 := hl1
  rw [htr, hrows', List.map_map] at hl3
  rw [hrows, List.map_map] at hl1
  refine decompose_same env env' defaultCbin defaultCbin b (R.galaxy b) j j' h h'
    ["normalized_star_energy", "eps"] (by simp)
    (by decide) (by decide) _ _ (by simp [Ref.galaxy]) (by simp [Ref.galaxy]) (by simp [Ref.galaxy]) hS
    labels ?_ ?_ (by rw [hl2, hrows, List.length_map])
  · have hrow : S.map (starRow j ["normalized_star_energy", "eps"])
        = S.map ((fun r : Float64 × Float64 => [r.1, r.2]) ∘ fun i =>
          (j.normalizedStarEnergy.getD i Num.nan, j.eps.getD i Num.nan)) :=
      List.map_congr_left fun i _ => rfl
    rw [← hSdef]
    simp only [hrow, hl1]
    rfl
  · rw [← hS]
    have hrow : S.map (starRow j' ["normalized_star_energy", "eps"])
        = S.map ((fun r : Ext ℝ × Ext ℝ => [r.1, r.2]) ∘ fun i =>
          (j'.normalizedStarEnergy.getD i Num.nan, j'.eps.getD i Num.nan)) :=
      List.map_congr_left fun i _ => rfl
    simp only [hrow, hl3]
    rfl

end GChop
