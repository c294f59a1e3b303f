import Verif.Lemmas.ExactProfile
import Verif.Props.DoubleThreshold

/-! # Circularities in doubles and in exact arithmetic, with a margin

C109: a galaxy in doubles and a galaxy of real numbers whose energies and angular momenta are near.  When
the choices that the profile of circular orbits makes are clear by a margin, both profiles have the same
particles, and the circularities and the labels of JThreshold in doubles follow those of the real
numbers. -/

namespace GChop

open Flt

/-! ## A galaxy of real numbers next to one in doubles -/

/-- A particle of real numbers for every particle in doubles, its specific energy and angular momentum
about the z axis, and how far the computed values may be from these. -/
structure Ref where
  body : Body Float64 → Body (Ext ℝ)
  E : Body Float64 → ℝ
  Jz : Body Float64 → ℝ
  errE : Body Float64 → ℝ
  errJz : Body Float64 → ℝ
  body_energy : ∀ a, (body a).energy = .fin (E a)
  body_jz : ∀ a, (body a).jz = .fin (Jz a)

/-- the galaxy of real numbers -/
noncomputable def Ref.galaxy (R : Ref) (b : BGalaxy Float64) : BGalaxy (Ext ℝ) where
  stars := b.stars.map R.body
  dm := b.dm.map R.body
  gas := b.gas.map R.body
  hasPot := b.hasPot
  softS := .fin (value b.softS)
  softDm := .fin (value b.softDm)
  softG := .fin (value b.softG)

/-- Energies and angular momenta in doubles are near those of the real numbers.  `M` is the size of the
lowest energy and `J` the largest `|Jz|` of the bound particles, of the real numbers; the differences are
at most `θ` times these for bound particles, and no difference moves an energy across zero. -/
structure NearRef (R : Ref) (b : BGalaxy Float64) (M J θ : ℝ) : Prop where
  energy : ∀ a ∈ b.all, Num.isFinite a.energy = true ∧ |(value a.energy : ℝ) - R.E a| ≤ R.errE a
  jz : ∀ a ∈ b.all, Num.isFinite a.jz = true ∧ |(value a.jz : ℝ) - R.Jz a| ≤ R.errJz a
  zero : ∀ a ∈ b.all, R.Jz a = 0 → (value a.jz : ℝ) = 0
  sign : ∀ a ∈ b.all, R.errE a < |R.E a|
  M_pos : 0 < M
  M_le : ∀ a ∈ b.all, -M ≤ R.E a
  M_eq : ∃ a ∈ b.all, R.E a = -M
  J_pos : 0 < J
  J_le : ∀ a ∈ b.all, R.E a < 0 → |R.Jz a| ≤ J
  J_eq : ∃ a ∈ b.all, R.E a < 0 ∧ |R.Jz a| = J
  E : ∀ a ∈ b.all, R.E a < 0 → R.errE a ≤ θ * M
  Jz : ∀ a ∈ b.all, R.E a < 0 → R.errJz a ≤ θ * J

variable {R : Ref}

theorem Ref.galaxy_all (R : Ref) (b : BGalaxy Float64) : (R.galaxy b).all = b.all.map R.body := by
  simp [Ref.galaxy, BGalaxy.all]

theorem real_zero : Num.isFinite (Num.ofRat 0 : Float64) = true ∧
    (value (Num.ofRat 0 : Float64) : ℝ) = 0 := by
  have h : value (Num.ofRat 0 : Float64) = 0 := value_eq toExt_zero
  exact ⟨isFinite_of toExt_zero, by rw [h]; simp⟩

theorem isBound_real {e : Float64} (fe : Num.isFinite e = true) :
    isBound e = true ↔ (value e : ℝ) ≤ 0 := by
  unfold isBound
  have : (e ==. Num.ninf) = false := by
    obtain ⟨s, m, rfl⟩ := isFinite_iff.1 fe
    cases s <;> rfl
  rw [this, Bool.not_false, Bool.and_true, real_le fe real_zero.1, real_zero.2]

theorem bound_iff {b : BGalaxy Float64} {M J θ : ℝ} (hr : NearRef R b M J θ) {a : Body Float64}
    (ha : a ∈ b.all) : (isBound a.energy = true ↔ R.E a < 0) ∧
      (isBound (R.body a).energy = true ↔ R.E a < 0) := by
  obtain ⟨f, e⟩ := hr.energy a ha
  have hs := hr.sign a ha
  have he := abs_le.1 e
  have hne : R.E a ≠ 0 := by
    intro h0
    rw [h0, abs_zero] at hs
    linarith [(abs_nonneg _).trans e]
  constructor
  · rw [isBound_real f]
    rcases lt_or_gt_of_ne hne with h | h
    · rw [abs_of_neg h] at hs
      exact ⟨fun _ => h, fun _ => by linarith⟩
    · rw [abs_of_pos h] at hs
      exact ⟨fun _ => by linarith, fun _ => by linarith⟩
  · rw [R.body_energy]
    unfold isBound
    have : ((Ext.fin (R.E a) : Ext ℝ) ==. Num.ninf) = false := rfl
    rw [this, Ext.num_ofRat, Ext.num_le]
    simp only [Rat.cast_zero, Bool.not_false, Bool.and_true, decide_eq_true_eq]
    exact ⟨fun h => lt_of_le_of_ne h hne, le_of_lt⟩

theorem exact_bound {b : BGalaxy Float64} {M J θ : ℝ} (hr : NearRef R b M J θ) :
    (R.galaxy b).bound = b.bound.map R.body := by
  unfold BGalaxy.bound
  rw [R.galaxy_all, List.filter_map]
  congr 1
  apply List.filter_congr
  intro a ha
  rw [Bool.eq_iff_iff]
  exact (bound_iff hr ha).2.trans (bound_iff hr ha).1.symm

theorem mem_bound' {b : BGalaxy Float64} {M J θ : ℝ} (hr : NearRef R b M J θ) {a : Body Float64} :
    a ∈ b.bound ↔ a ∈ b.all ∧ R.E a < 0 := by
  unfold BGalaxy.bound
  rw [List.mem_filter]
  exact and_congr_right fun ha => (bound_iff hr ha).1

/-- normalised numbers: `p / P` is near `q / M` -/
theorem ratio_near {p P q M θ : ℝ} (hM : 0 < M) (hθ : θ ≤ 1 / 4) (h1 : |p - q| ≤ θ * M)
    (h2 : |P - M| ≤ θ * M) (h3 : |q| ≤ M) : 0 < P ∧ |p / P - q / M| ≤ 3 * θ := by
  have hθ0 : 0 ≤ θ := by
    by_contra hc
    have := mul_neg_of_neg_of_pos (not_le.1 hc) hM
    linarith [abs_nonneg (p - q)]
  have hP : 3 / 4 * M ≤ P := by
    have := (abs_le.1 h2).1
    have := mul_le_mul_of_nonneg_right hθ hM.le
    linarith
  have hP0 : 0 < P := by linarith
  refine ⟨hP0, ?_⟩
  have e : p / P - q / M = ((p - q) * M + q * (M - P)) / (P * M) := by
    field_simp
    ring
  rw [e, abs_div, abs_of_pos (mul_pos hP0 hM), div_le_iff₀ (mul_pos hP0 hM)]
  have e1 : |(p - q) * M| ≤ θ * M * M := by
    rw [abs_mul, abs_of_pos hM]
    exact mul_le_mul_of_nonneg_right h1 hM.le
  have e2 : |q * (M - P)| ≤ M * (θ * M) := by
    rw [abs_mul, abs_sub_comm M]
    exact mul_le_mul h3 h2 (abs_nonneg _) hM.le
  have e3 := abs_add_le ((p - q) * M) (q * (M - P))
  have e4 : θ * M * (3 / 4 * M) ≤ θ * M * P := mul_le_mul_of_nonneg_left hP (mul_nonneg hθ0 hM.le)
  have e5 : 0 ≤ θ * M * M := mul_nonneg (mul_nonneg hθ0 hM.le) hM.le
  nlinarith

/-- the normalisations of the computed energies and angular momenta -/
theorem norms_near {b : BGalaxy Float64} {M J θ : ℝ} (hr : NearRef R b M J θ) {n : CircNorm Float64}
    (h1 : Np.amin (b.bound.map Body.energy) = .ok n.eMin)
    (h2 : Np.amax (b.bound.map fun a => Num.abs a.jz) = .ok n.jzMax) :
    Num.isFinite n.eMin = true ∧ |(-value n.eMin : ℝ) - M| ≤ θ * M ∧
      (∀ a ∈ b.bound, (value n.eMin : ℝ) ≤ value a.energy) ∧ (∃ a ∈ b.bound, a.energy = n.eMin) ∧
    Num.isFinite n.jzMax = true ∧ |(value n.jzMax : ℝ) - J| ≤ θ * J ∧
      (∀ a ∈ b.bound, |(value a.jz : ℝ)| ≤ value n.jzMax) := by
  have fe : ∀ a ∈ b.bound, Num.isFinite a.energy = true ∧ |(value a.energy : ℝ) - R.E a| ≤ θ * M := by
    intro a ha
    obtain ⟨h, h'⟩ := (mem_bound' hr).1 ha
    obtain ⟨f, e⟩ := hr.energy a h
    exact ⟨f, e.trans (hr.E a h h')⟩
  have fj : ∀ a ∈ b.bound, Num.isFinite a.jz = true ∧ |(value a.jz : ℝ) - R.Jz a| ≤ θ * J := by
    intro a ha
    obtain ⟨h, h'⟩ := (mem_bound' hr).1 ha
    obtain ⟨f, e⟩ := hr.jz a h
    exact ⟨f, e.trans (hr.Jz a h h')⟩
  have va : ∀ a : Body Float64, (value (Num.abs a.jz) : ℝ) = |(value a.jz : ℝ)| := by
    intro a; rw [value_abs]; push_cast; rfl
  obtain ⟨⟨c, hc, hcm⟩, hmin⟩ := isMinOf_amin h1 fun a ha => NumOrd.finite_not_nan (fe a ha).1
  obtain ⟨⟨d, hd, hdm⟩, hmax⟩ := isMaxOf_amax h2 fun a ha =>
    NumOrd.finite_not_nan (finite_abs (fj a ha).1)
  have fm : Num.isFinite n.eMin = true := hcm ▸ (fe c hc).1
  have fJ : Num.isFinite n.jzMax = true := hdm ▸ finite_abs (fj d hd).1
  have hle : ∀ a ∈ b.bound, (value n.eMin : ℝ) ≤ value a.energy := fun a ha =>
    (real_le fm (fe a ha).1).1 (hmin a ha)
  have hge : ∀ a ∈ b.bound, |(value a.jz : ℝ)| ≤ value n.jzMax := by
    intro a ha
    have := (real_le (finite_abs (fj a ha).1) fJ).1 (hmax a ha)
    rwa [va] at this
  refine ⟨fm, ?_, hle, ⟨c, hc, hcm⟩, fJ, ?_, hge⟩
  · obtain ⟨a, ha, haM⟩ := hr.M_eq
    have hab : a ∈ b.bound := (mem_bound' hr).2 ⟨ha, by rw [haM]; linarith [hr.M_pos]⟩
    have e1 := abs_le.1 (fe a hab).2
    have e2 := abs_le.1 (fe c hc).2
    have e3 := hle a hab
    have e4 := hr.M_le c ((mem_bound' hr).1 hc).1
    rw [hcm] at e2
    rw [haM] at e1
    rw [abs_le]
    constructor <;> linarith [e1.1, e1.2, e2.1, e2.2]
  · obtain ⟨a, ha, ha0, haJ⟩ := hr.J_eq
    have hab : a ∈ b.bound := (mem_bound' hr).2 ⟨ha, ha0⟩
    have e1 := abs_le.1 (abs_close (fj a hab).2)
    have e2 := abs_le.1 (abs_close (fj d hd).2)
    have e3 := hge a hab
    obtain ⟨hd1, hd2⟩ := (mem_bound' hr).1 hd
    have e4 := hr.J_le d hd1 hd2
    have e5 : (value n.jzMax : ℝ) = |(value d.jz : ℝ)| := by rw [← hdm, va]
    rw [haJ] at e1
    rw [e5] at e3 ⊢
    rw [abs_le]
    constructor <;> linarith [e1.1, e1.2, e2.1, e2.2]

/-! ## The default edges -/

/-- the default edges as fractions -/
def edgesQ : List ℚ := (List.range 18).map (fun k : Nat => -1 + (k : ℚ) * (1 / 20)) ++
  (List.range 20).map (fun k : Nat => -1 / 10 + (k : ℚ) * (1 / 200))

/-- the edges of the default energy bins: -1, -0.95, ..., -0.15, then -0.1, -0.095, ..., -0.005 -/
noncomputable def defaultEdges : List ℝ := (List.range 18).map (fun k : Nat => -1 + (k : ℝ) / 20) ++
  (List.range 20).map (fun k : Nat => -1 / 10 + (k : ℝ) / 200)

theorem defaultEdges_eq : defaultEdges = edgesQ.map fun q : ℚ => (q : ℝ) := by
  unfold defaultEdges edgesQ
  rw [List.map_append, List.map_map, List.map_map]
  congr 1 <;> apply List.map_congr_left <;> intro k _ <;> simp only [Function.comp] <;> push_cast <;> ring

theorem defaultEdges_sorted : defaultEdges.Pairwise (· < ·) := by
  rw [defaultEdges_eq, List.pairwise_map]
  have : edgesQ.Pairwise (· < ·) := by decide +kernel
  exact this.imp fun h => by exact_mod_cast h

theorem exact_edges : energyBins (defaultCbin (F := Ext ℝ)).1 defaultCbin.2
    = .ok (defaultEdges.map Ext.fin) := by
  unfold energyBins defaultCbin
  simp only [Ext.num_ofRat]
  rw [arange_fin (by norm_num), arange_fin (by norm_num)]
  have h1 : ⌈(((-1 / 10 : ℚ) : ℝ) - ((-1 : ℚ) : ℝ)) / ((1 / 20 : ℚ) : ℝ)⌉ = 18 := by
    push_cast
    rw [Int.ceil_eq_iff]
    norm_num
  have h2 : ⌈(((0 : ℚ) : ℝ) - ((-1 / 10 : ℚ) : ℝ)) / ((1 / 200 : ℚ) : ℝ)⌉ = 20 := by
    push_cast
    rw [Int.ceil_eq_iff]
    norm_num
  rw [h1, h2]
  show Except.ok _ = _
  congr 1
  unfold defaultEdges
  rw [List.map_append, List.map_map, List.map_map]
  congr 1 <;> apply List.map_congr_left <;> intro k _ <;> simp only [Function.comp] <;> congr 1 <;>
    push_cast <;> ring

/-- a computed edge is next to the exact one -/
def edgeNear (u : Float64) (t : ℚ) : Bool :=
  Num.isFinite u && decide (|value u - t| ≤ 1 / 2 ^ 50) && (!decide (t = -1) || decide (value u = -1))

theorem double_edges : ∃ aux, energyBins (defaultCbin (F := Float64)).1 defaultCbin.2 = .ok aux ∧
    aux.length = defaultEdges.length ∧
    ∀ (k : Nat) u t, aux[k]? = some u → defaultEdges[k]? = some t →
      Num.isFinite u = true ∧ |(value u : ℝ) - t| ≤ 1 / 2 ^ 50 ∧ (t = -1 → (value u : ℝ) = -1) := by
  have h : (match energyBins (defaultCbin (F := Float64)).1 defaultCbin.2 with
      | .ok aux => decide (aux.length = edgesQ.length) && (aux.zip edgesQ).all fun p => edgeNear p.1 p.2
      | .error _ => false) = true := by decide +kernel
  cases hb : energyBins (defaultCbin (F := Float64)).1 defaultCbin.2 with
  | error e => rw [hb] at h; cases h
  | ok aux =>
    rw [hb] at h
    simp only [Bool.and_eq_true, decide_eq_true_eq, List.all_eq_true] at h
    refine ⟨aux, rfl, by rw [h.1, defaultEdges_eq, List.length_map], ?_⟩
    intro k u t hu ht
    rw [defaultEdges_eq, List.getElem?_map] at ht
    cases hq : edgesQ[k]? with
    | none => rw [hq] at ht; cases ht
    | some q =>
      rw [hq] at ht
      cases ht
      have hm : (u, q) ∈ aux.zip edgesQ :=
        List.mem_of_getElem? (i := k) (List.getElem?_zip_eq_some.2 ⟨hu, hq⟩)
      have := h.2 _ hm
      simp only [edgeNear, Bool.and_eq_true, Bool.or_eq_true, Bool.not_eq_true', decide_eq_true_eq,
        decide_eq_false_iff_not] at this
      obtain ⟨⟨h1, h2⟩, h3⟩ := this
      refine ⟨h1, ?_, fun ht => ?_⟩
      · have := (Rat.cast_le (K := ℝ)).2 h2
        push_cast at this
        exact this
      · have ht' : (q : ℝ) = -1 := ht
        have hq1 : q = -1 := by exact_mod_cast ht'
        rcases h3 with h3 | h3
        · exact absurd hq1 h3
        · rw [h3]; norm_num

/-! ## The two profiles -/

/-- the bound particles of a galaxy -/
noncomputable def Ref.boundOf (R : Ref) (b : BGalaxy Float64) : List (Body Float64) :=
  b.all.filter fun a => decide (R.E a < 0)

theorem bound_eq {b : BGalaxy Float64} {M J θ : ℝ} (hr : NearRef R b M J θ) : b.bound = R.boundOf b := by
  unfold BGalaxy.bound Ref.boundOf
  apply List.filter_congr
  intro a ha
  rw [Bool.eq_iff_iff, decide_eq_true_eq]
  exact (bound_iff hr ha).1

/-- the normalised columns in doubles are near the exact ones -/
theorem columns_near {b : BGalaxy Float64} {M J θ : ℝ} (hr : NearRef R b M J θ) (hθ : θ ≤ 1 / 4)
    {n : CircNorm Float64} (h1 : Np.amin (b.bound.map Body.energy) = .ok n.eMin)
    (h2 : Np.amax (b.bound.map fun a => Num.abs a.jz) = .ok n.jzMax) :
    0 < value n.jzMax ∧
    (∀ a ∈ b.bound, Num.isFinite (n.e a) = true ∧
      |(value (n.e a) : ℝ) - R.E a / M| ≤ 3 * θ + (1 / 2 ^ 53 + tiny)) ∧
    (∀ a ∈ b.bound, Num.isFinite (n.jz a) = true ∧
      |(value (n.jz a) : ℝ) - R.Jz a / J| ≤ 3 * θ + (1 / 2 ^ 53 + tiny) ∧
      |(value (n.jz a) : ℝ)| ≤ 1 + 1 / 100 ∧ (R.Jz a / J = 0 → (value (n.jz a) : ℝ) = 0) ∧
      |(value a.jz / value n.jzMax : ℝ) - R.Jz a / J| ≤ 3 * θ) ∧
    (∃ d ∈ b.bound, (value (n.e d) : ℝ) = -1) := by
  obtain ⟨fm, hM, hle, ⟨d, hd, hdm⟩, fJ, hJ, hge⟩ := norms_near hr h1 h2
  have hMP := hr.M_pos
  have hJP := hr.J_pos
  have fabs : Num.isFinite (Num.abs n.eMin) = true := finite_abs fm
  have hP : (0 : ℝ) < -value n.eMin := by
    have := (abs_le.1 hM).1
    have := mul_le_mul_of_nonneg_right hθ hMP.le
    linarith
  have hlt : (n.eMin <. Num.ofRat 0) = true := by
    rw [real_lt fm real_zero.1, real_zero.2]
    linarith
  have vabs : (value (Num.abs n.eMin) : ℝ) = -value n.eMin := by
    rw [value_abs]
    push_cast
    rw [abs_of_neg (by linarith)]
  have hQ : (0 : ℝ) < value n.jzMax := by
    have := (abs_le.1 hJ).1
    have := mul_le_mul_of_nonneg_right hθ hJP.le
    linarith
  have qQ : 0 < value n.jzMax := by exact_mod_cast hQ
  refine ⟨qQ, ?_, ?_, d, hd, ?_⟩
  · intro a ha
    obtain ⟨hall, hneg⟩ := (mem_bound' hr).1 ha
    obtain ⟨f, e⟩ := hr.energy a hall
    have e' := e.trans (hr.E a hall hneg)
    have hneg' : (value a.energy : ℝ) ≤ 0 := by
      have hb : isBound a.energy = true := ((bound_iff hr hall).1).2 hneg
      exact (isBound_real f).1 hb
    have hz : |value a.energy| ≤ value (Num.abs n.eMin) := by
      have : |(value a.energy : ℝ)| ≤ value (Num.abs n.eMin) := by
        rw [vabs, abs_of_nonpos hneg']
        linarith [hle a ha]
      exact_mod_cast this
    have h0 : 0 < value (Num.abs n.eMin) := by
      have : (0 : ℝ) < value (Num.abs n.eMin) := by rw [vabs]; exact hP
      exact_mod_cast this
    obtain ⟨g1, g2, -⟩ := share_err f fabs h0 hz
    obtain ⟨-, g3⟩ := ratio_near (p := value a.energy) (q := R.E a) hMP hθ e' hM (by
      rw [abs_of_neg hneg]; linarith [hr.M_le a hall])
    rw [vabs] at g2
    refine ⟨g1, ?_⟩
    have := abs_add_le ((value (n.e a) : ℝ) - value a.energy / (-value n.eMin))
      (value a.energy / (-value n.eMin) - R.E a / M)
    rw [sub_add_sub_cancel] at this
    have g2' : |(value (n.e a) : ℝ) - value a.energy / (-value n.eMin)| ≤ 1 / 2 ^ 53 + tiny := g2
    linarith
  · intro a ha
    obtain ⟨hall, hneg⟩ := (mem_bound' hr).1 ha
    obtain ⟨f, e⟩ := hr.jz a hall
    have e' := e.trans (hr.Jz a hall hneg)
    have hz : |value a.jz| ≤ value n.jzMax := by exact_mod_cast hge a ha
    obtain ⟨g1, g2, g4⟩ := share_err f fJ qQ hz
    obtain ⟨-, g3⟩ := ratio_near (p := value a.jz) (q := R.Jz a) hJP hθ e' hJ (hr.J_le a hall hneg)
    refine ⟨g1, ?_, g4, ?_, g3⟩
    · have := abs_add_le ((value (n.jz a) : ℝ) - value a.jz / value n.jzMax)
        (value a.jz / value n.jzMax - R.Jz a / J)
      rw [sub_add_sub_cancel] at this
      have g2' : |(value (n.jz a) : ℝ) - value a.jz / value n.jzMax| ≤ 1 / 2 ^ 53 + tiny := g2
      linarith
    · intro h0
      have h0' : R.Jz a = 0 := by
        rcases div_eq_zero_iff.1 h0 with h | h
        · exact h
        · exact absurd h hJP.ne'
      have hv := hr.zero a hall h0'
      have hz0 : (a.jz ==. Num.ofRat 0) = true := by
        rw [real_eq f real_zero.1, real_zero.2, hv]
      have hpos : ((Num.ofRat 0 : Float64) <. n.jzMax) = true := by
        rw [real_lt real_zero.1 fJ, real_zero.2]; exact hQ
      have := NumDiv.zero_div fJ hpos hz0
      rw [real_eq g1 real_zero.1, real_zero.2] at this
      exact this
  · have h3 := NumDiv.div_abs_self fm hlt
    have hf : Num.isFinite (n.e d) = true := by
      have hs : |value n.eMin| ≤ value (Num.abs n.eMin) := by rw [value_abs]
      have h0 : 0 < value (Num.abs n.eMin) := by
        have : (0 : ℝ) < value (Num.abs n.eMin) := by rw [vabs]; exact hP
        exact_mod_cast this
      have := (share_err fm fabs h0 hs).1
      unfold CircNorm.e
      rw [hdm]
      exact this
    have hm1 : Num.isFinite (Num.ofRat (-1) : Float64) = true := isFinite_of toExt_neg_one
    have vm1 : (value (Num.ofRat (-1) : Float64) : ℝ) = -1 := by
      have : value (Num.ofRat (-1) : Float64) = -1 := value_eq toExt_neg_one
      rw [this]; norm_num
    rw [← hdm] at h3
    have := (real_eq (by unfold CircNorm.e at hf; rw [← hdm] at hf; exact hf) hm1).1 h3
    rw [vm1] at this
    unfold CircNorm.e
    rw [← hdm]
    exact this

theorem exact_norms {b : BGalaxy Float64} {M J θ : ℝ} (hr : NearRef R b M J θ) {n : CircNorm (Ext ℝ)}
    (h1 : Np.amin ((R.galaxy b).bound.map Body.energy) = .ok n.eMin)
    (h2 : Np.amax ((R.galaxy b).bound.map fun a => Num.abs a.jz) = .ok n.jzMax) :
    (∀ a, n.e (R.body a) = .fin (R.E a / M)) ∧ ∀ a, n.jz (R.body a) = .fin (R.Jz a / J) := by
  rw [exact_bound hr, List.map_map] at h1 h2
  have hMP := hr.M_pos
  have hJP := hr.J_pos
  have hm : n.eMin = .fin (-M) := by
    obtain ⟨⟨c, hc, hcm⟩, hmin⟩ := isMinOf_amin h1 fun a _ => by
      simp only [Function.comp, R.body_energy]; rfl
    simp only [Function.comp, R.body_energy] at hcm hmin
    obtain ⟨a, ha, haM⟩ := hr.M_eq
    have hab : a ∈ b.bound := (mem_bound' hr).2 ⟨ha, by linarith⟩
    have e1 := hmin a hab
    rw [← hcm, Ext.num_le, decide_eq_true_eq, haM] at e1
    have e2 := hr.M_le c ((mem_bound' hr).1 hc).1
    rw [← hcm, le_antisymm e1 e2]
  have hj : n.jzMax = .fin J := by
    obtain ⟨⟨c, hc, hcm⟩, hmax⟩ := isMaxOf_amax h2 fun a _ => by
      simp only [Function.comp, R.body_jz]; rfl
    simp only [Function.comp, R.body_jz, Ext.num_abs] at hcm hmax
    obtain ⟨a, ha, ha0, haJ⟩ := hr.J_eq
    have hab : a ∈ b.bound := (mem_bound' hr).2 ⟨ha, ha0⟩
    have e1 := hmax a hab
    rw [← hcm, Ext.num_le, decide_eq_true_eq, haJ] at e1
    obtain ⟨c1, c2⟩ := (mem_bound' hr).1 hc
    have e2 := hr.J_le c c1 c2
    rw [← hcm, le_antisymm e2 e1]
  constructor
  · intro a
    unfold CircNorm.e
    rw [R.body_energy, hm, Ext.num_abs, abs_neg, abs_of_pos hMP, Ext.num_div _ _ hMP.ne']
  · intro a
    unfold CircNorm.jz
    rw [R.body_jz, hj, Ext.num_div _ _ hJP.ne']

theorem exact_first {b : BGalaxy Float64} {M J θ : ℝ} (hr : NearRef R b M J θ) (h : BoundFirst b.stars) :
    BoundFirst (R.galaxy b).stars := by
  have hiff : ∀ a ∈ b.stars, Unbound (R.body a).energy ↔ Unbound a.energy := by
    intro a ha
    have hall : a ∈ b.all := by unfold BGalaxy.all; simp [ha]
    have h1 := bound_iff hr hall
    rw [← isBound_eq_false, ← isBound_eq_false, Bool.eq_false_iff, Bool.eq_false_iff, ne_eq, ne_eq,
      h1.1, h1.2]
  intro i k u v hik hu hv hub
  have hstars : (R.galaxy b).stars = b.stars.map R.body := rfl
  rw [hstars, List.getElem?_map, Option.map_eq_some_iff] at hu hv
  obtain ⟨u, hu, rfl⟩ := hu
  obtain ⟨v, hv, rfl⟩ := hv
  rw [hiff u (List.mem_of_getElem? hu)] at hub
  rw [hiff v (List.mem_of_getElem? hv)]
  exact h i k u v hik hu hv hub

theorem resolved_nonneg {b : BGalaxy Float64} {M J θ : ℝ} (hr : NearRef R b M J θ) : 0 ≤ θ := by
  obtain ⟨a, ha, haM⟩ := hr.M_eq
  have h1 := (abs_nonneg _).trans (hr.energy a ha).2
  have h2 := hr.E a ha (by linarith [hr.M_pos])
  by_contra hc
  have := mul_neg_of_neg_of_pos (not_le.1 hc) hr.M_pos
  linarith

/-- the two computations side by side -/
theorem pair_circ {env : CircEnv Float64} (henv : env.OK) {env' : CircEnv (Ext ℝ)} (henv' : env'.OK)
    {b : BGalaxy Float64} {j : JCirc Float64}
    (h : jcirc env (Galaxy.ofBodies b) defaultCbin.1 defaultCbin.2 = .ok j) {M J θ δ : ℝ}
    (hr : NearRef R b M J θ) (hθ : θ ≤ 1 / 4) (hδ : 3 * θ + 1 / 2 ^ 49 ≤ δ)
    (hc : Clear (R.boundOf b) (fun a => R.E a / M) (fun a => R.Jz a / J) defaultEdges δ) :
    ∃ (n : CircNorm Float64) (n' : CircNorm (Ext ℝ)),
      circNorm env b defaultCbin.1 defaultCbin.2 = .ok n ∧ j = circResult env n b.stars ∧
      jcirc env' (Galaxy.ofBodies (R.galaxy b)) defaultCbin.1 defaultCbin.2
        = .ok (circResult env' n' (R.galaxy b).stars) ∧
      (∀ a, n'.e (R.body a) = .fin (R.E a / M)) ∧ (∀ a, n'.jz (R.body a) = .fin (R.Jz a / J)) ∧
      ∃ (a0 : Body Float64) (L : List (Body Float64)), a0 ∈ b.bound ∧ R.E a0 = -M ∧
        (∀ a ∈ L, a ∈ b.bound) ∧
        n.pts = (Num.ofRat (-1), Num.abs (n.jz a0)) :: L.map (fun a => (n.e a, Num.abs (n.jz a))) ∧
        n'.pts = (a0 :: L).map fun a => (.fin (R.E a / M), .fin |R.Jz a / J|) := by
  have hMP := hr.M_pos
  obtain ⟨hp, hfirst, n, hn, hj⟩ := jcirc_inv h
  obtain ⟨hbne, h1, h2, -, aux, hb, haux, hprof⟩ := circNorm_inv hn
  obtain ⟨-, he, hz, hmin⟩ := columns_near hr hθ h1 h2
  obtain ⟨aux', hb', hlen, hedge⟩ := double_edges
  rw [hb] at hb'
  cases hb'
  have hne' : (R.galaxy b).bound ≠ [] := by rw [exact_bound hr]; simpa using hbne
  have hedges : defaultEdges.map Ext.fin ≠ ([] : List (Ext ℝ)) := by
    intro h0
    have := congrArg List.length h0
    rw [List.length_map, ← hlen] at this
    exact haux (List.length_eq_zero_iff.1 this)
  obtain ⟨n', hn', g1, g2, -, hprof'⟩ := circNorm_ok env' (R.galaxy b) hne' exact_edges hedges
  obtain ⟨hE, hJ⟩ := exact_norms hr g1 g2
  have ht := tiny_small
  rw [← bound_eq hr] at hc
  have hθ0 := resolved_nonneg hr
  have tpos := tiny_pos'
  have halike := alike_of_clear (l := b.bound) (e := n.e) (j := n.jz) (E := fun a => R.E a / M)
    (J := fun a => R.Jz a / J) (aux := aux) (edges := defaultEdges)
    (η := 3 * θ + (1 / 2 ^ 53 + tiny)) (δ := δ) (by positivity) (by
      refine le_trans ?_ hδ
      have : (1 : ℝ) / 2 ^ 53 + 1 / 2 ^ 53 / 1000 + 1 / 2 ^ 50 ≤ 1 / 2 ^ 49 := by norm_num
      linarith) he
    (fun a ha => ⟨(hz a ha).1, (hz a ha).2.1, (hz a ha).2.2.1, (hz a ha).2.2.2.1⟩) hmin (by
      obtain ⟨a, ha, haM⟩ := hr.M_eq
      refine ⟨a, (mem_bound' hr).2 ⟨ha, by linarith⟩, ?_⟩
      simp only [haM]
      field_simp) hlen hedge defaultEdges_sorted hc
  obtain ⟨i0, a0, L, m1, m2, m3, m4, m5⟩ := profile_transfer henv.argsort henv'.argsort halike hbne haux
  have ha0M : R.E a0 = -M := by
    have ha0 := (mem_bound' hr).1 (List.mem_of_getElem? m2)
    rw [halike.min] at m1
    obtain ⟨i, x, k1, k2, k3⟩ := argmin_spec (l := b.bound.map fun a => (Ext.fin (R.E a / M) : Ext ℝ))
      (by intro a ha; obtain ⟨c, -, rfl⟩ := List.mem_map.1 ha; rfl) (by simpa using hbne)
    rw [m1] at k1
    cases k1
    rw [List.getElem?_map, m2] at k2
    cases k2
    obtain ⟨a, ha, haM⟩ := hr.M_eq
    have hab : a ∈ b.bound := (mem_bound' hr).2 ⟨ha, by linarith⟩
    obtain ⟨k, hk⟩ := List.mem_iff_getElem?.1 hab
    have := (k3 k (.fin (R.E a / M)) (by rw [List.getElem?_map, hk]; rfl)).1
    rw [Ext.num_le, decide_eq_true_eq, div_le_div_iff_of_pos_right hMP, haM] at this
    exact le_antisymm this (hr.M_le a0 ha0.1)
  refine ⟨n, n', hn, hj, ?_, hE, hJ, a0, L, List.mem_of_getElem? m2, ha0M, m3, ?_, ?_⟩
  · rw [jcirc_ofBodies env' (R.galaxy b) hp, hn']
    change (if _ then _ else _) = _
    rw [if_pos ((trueFirst_iff _).2 (exact_first hr hfirst))]
  · rw [m4] at hprof
    exact (Except.ok.inj hprof).symm
  · have e1 : (R.galaxy b).bound.map n'.e = b.bound.map fun a => (Ext.fin (R.E a / M) : Ext ℝ) := by
      rw [exact_bound hr, List.map_map]
      exact List.map_congr_left fun a _ => hE a
    have e2 : (R.galaxy b).bound.map n'.jz = b.bound.map fun a => (Ext.fin (R.Jz a / J) : Ext ℝ) := by
      rw [exact_bound hr, List.map_map]
      exact List.map_congr_left fun a _ => hJ a
    rw [e1, e2, m5] at hprof'
    have := (Except.ok.inj hprof').symm
    rw [this, List.map_cons]
    have ha0 : R.E a0 / M = -1 := by
      rw [ha0M]
      field_simp
    rw [ha0]
    congr 2
    simp

/-! ## One star -/

/-- `np.interp` at a corner gives the corner -/
theorem interp1_corner {F : Type} [Num F] [NumOrd F] {locate : List F → F → Nat} (hl : Np.LocateOK locate)
    {xs ys : List F} (hs : xs.Pairwise fun u v => (u <. v) = true) {k : Nat} {u y key : F}
    (hu : xs[k]? = some u) (hy : ys[k]? = some y) (hk : (key ==. u) = true) :
    Np.interp1 locate xs ys key = y := by
  rw [NumOrd.eq_def, Bool.and_eq_true] at hk
  have hkn : Num.isNaN key = false := (NumOrd.not_nan_of_le hk.1).1
  have hlt : k < xs.length := (List.getElem?_eq_some_iff.1 hu).1
  have hne : xs ≠ [] := by rintro rfl; cases hu
  have hpos : 0 < xs.length := by omega
  have hget : ∀ m (hm : m < xs.length), xs[m]? = some xs[m] := fun m hm => List.getElem?_eq_getElem hm
  have hmono : ∀ m m' (hm : m < xs.length) (hm' : m' < xs.length), m < m' → (xs[m] <. xs[m']) = true :=
    fun m m' hm hm' h => List.pairwise_iff_getElem.1 hs m m' hm hm' h
  have huk : xs[k] = u := (List.getElem?_eq_some_iff.1 hu).2
  have hn : ∀ m (hm : m < xs.length), Num.isNaN xs[m] = false := by
    intro m hm
    by_cases h1 : m = k
    · subst h1; rw [huk]; exact (NumOrd.not_nan_of_le hk.1).2
    · rcases Nat.lt_or_gt_of_ne h1 with h2 | h2
      · exact (NumOrd.not_nan_of_le (le_of_lt' (hmono m k hm hlt h2))).1
      · exact (NumOrd.not_nan_of_le (le_of_lt' (hmono k m hlt hm h2))).2
  have hle : ∀ m m' (hm : m < xs.length) (hm' : m' < xs.length), m ≤ m' → (xs[m] <=. xs[m']) = true := by
    intro m m' hm hm' h
    rcases Nat.eq_or_lt_of_le h with rfl | h
    · exact le_refl' (hn m hm)
    · exact le_of_lt' (hmono m m' hm hm' h)
  have hyk : ys.getD k Num.nan = y := by simp [List.getD, hy]
  have hxd : ∀ m (hm : m < xs.length), xs.getD m Num.nan = xs[m] := by
    intro m hm; simp [List.getD, hm]
  unfold Np.interp1
  simp only
  by_cases h1 : xs.length = 1
  · rw [if_pos h1]
    have : k = 0 := by omega
    rw [← this]
    exact hyk
  · rw [if_neg h1, if_neg (by rw [hkn]; simp)]
    have hnot : ∀ {a c : F}, (a <=. c) = true → (c <. a) = false := fun h => not_lt_of_le h
    have h2 : (xs.getD (xs.length - 1) Num.nan <. key) = false := by
      rw [hxd _ (by omega)]
      exact hnot (NumOrd.le_trans hk.1 (huk ▸ hle k _ hlt (by omega) (by omega)))
    have h3 : (key <. xs.getD 0 Num.nan) = false := by
      rw [hxd _ hpos]
      exact hnot (NumOrd.le_trans (huk ▸ hle 0 k hpos hlt (by omega)) hk.2)
    rw [if_neg (by rw [h2]; simp), if_neg (by rw [h3]; simp)]
    obtain ⟨l1, l2⟩ := hl xs key hne
    obtain ⟨l3, l4⟩ := l2 (hs.imp fun h => le_of_lt' h) (by
      intro a ha
      rw [hget 0 hpos] at ha
      cases ha
      exact NumOrd.le_trans (huk ▸ hle 0 k hpos hlt (by omega)) hk.2)
    have hj : locate xs key = k := by
      rcases Nat.lt_trichotomy (locate xs key) k with h | h | h
      · have := l4 k u h hu
        rw [hnot hk.2] at this
        cases this
      · exact h
      · have a1 := l3 _ (hget _ l1)
        have a2 := hmono k _ hlt l1 h
        rw [huk] at a2
        have a3 := NumOrd.le_trans a1 hk.1
        rw [hnot a3] at a2
        cases a2
    rw [hj]
    by_cases h4 : k = xs.length - 1
    · rw [if_pos h4]; exact hyk
    · rw [if_neg h4, if_pos (by
        rw [hxd k hlt, huk, NumOrd.eq_def, Bool.and_eq_true]; exact ⟨hk.2, hk.1⟩)]
      exact hyk

/-- the corners of both tables -/
theorem corners_near {b : BGalaxy Float64} {M J θ δ : ℝ} (hr : NearRef R b M J θ) (hθ : θ ≤ 1 / 4)
    (hδ : 3 * θ + 1 / 2 ^ 49 ≤ δ) {n : CircNorm Float64}
    (h1 : Np.amin (b.bound.map Body.energy) = .ok n.eMin)
    (h2 : Np.amax (b.bound.map fun a => Num.abs a.jz) = .ok n.jzMax)
    {a0 : Body Float64} {L : List (Body Float64)} (ha0 : a0 ∈ b.bound) (hM : R.E a0 = -M)
    (hL : ∀ a ∈ L, a ∈ b.bound)
    (hp : n.pts = (Num.ofRat (-1), Num.abs (n.jz a0)) :: L.map (fun a => (n.e a, Num.abs (n.jz a)))) :
    n.pts.length = (a0 :: L).length ∧ ∀ (k : Nat) p a, n.pts[k]? = some p → (a0 :: L)[k]? = some a →
      Num.isFinite p.1 = true ∧ |(value p.1 : ℝ) - R.E a / M| ≤ δ ∧
      Num.isFinite p.2 = true ∧ |(value p.2 : ℝ) - abs (R.Jz a / J)| ≤ δ := by
  obtain ⟨-, he, hz, -⟩ := columns_near hr hθ h1 h2
  have ht := tiny_small
  have hη : 3 * θ + (1 / 2 ^ 53 + (tiny : ℝ)) ≤ δ := by
    refine le_trans ?_ hδ
    have : (1 : ℝ) / 2 ^ 53 + 1 / 2 ^ 53 / 1000 ≤ 1 / 2 ^ 49 := by norm_num
    linarith
  have hδ0 : 0 ≤ δ := by
    have := resolved_nonneg hr
    exact le_trans (by positivity) hδ
  have vj : ∀ a ∈ b.bound, Num.isFinite (Num.abs (n.jz a)) = true ∧
      |(value (Num.abs (n.jz a)) : ℝ) - abs (R.Jz a / J)| ≤ δ := by
    intro a ha
    obtain ⟨f, e, -⟩ := hz a ha
    refine ⟨finite_abs f, ?_⟩
    rw [value_abs]
    push_cast
    exact (abs_close e).trans hη
  refine ⟨by rw [hp]; simp, ?_⟩
  intro k p a hk hka
  rw [hp] at hk
  cases k with
  | zero =>
    simp only [List.getElem?_cons_zero, Option.some.injEq] at hk hka
    subst hk hka
    have v1 : value (Num.ofRat (-1) : Float64) = -1 := value_eq toExt_neg_one
    refine ⟨isFinite_of toExt_neg_one, ?_, vj a0 ha0⟩
    have : R.E a0 / M = -1 := by
      have := hr.M_pos
      rw [hM]
      field_simp
    rw [v1, this]
    simpa using hδ0
  | succ k =>
    simp only [List.getElem?_cons_succ] at hk hka
    rw [List.getElem?_map, hka] at hk
    cases hk
    have hab := hL a (List.mem_of_getElem? hka)
    exact ⟨(he a hab).1, (he a hab).2.trans hη, vj a hab⟩

/-- the interpolated angular momenta of a bound particle -/
theorem pair_star {env : CircEnv Float64} (henv : env.OK) {env' : CircEnv (Ext ℝ)} (henv' : env'.OK)
    {b : BGalaxy Float64} {j : JCirc Float64}
    (h : jcirc env (Galaxy.ofBodies b) defaultCbin.1 defaultCbin.2 = .ok j) {M J θ δ γ : ℝ}
    (hr : NearRef R b M J θ) (hθ : θ ≤ 1 / 4) (hδ : 3 * θ + 1 / 2 ^ 49 ≤ δ) (hγ : 0 < γ)
    {n : CircNorm Float64} {n' : CircNorm (Ext ℝ)}
    (hn : circNorm env b defaultCbin.1 defaultCbin.2 = .ok n) (hj : j = circResult env n b.stars)
    (hE : ∀ a, n'.e (R.body a) = .fin (R.E a / M))
    {a0 : Body Float64} {L : List (Body Float64)} (ha0 : a0 ∈ b.bound) (hM : R.E a0 = -M)
    (hL : ∀ a ∈ L, a ∈ b.bound)
    (hp : n.pts = (Num.ofRat (-1), Num.abs (n.jz a0)) :: L.map (fun a => (n.e a, Num.abs (n.jz a))))
    (hp' : n'.pts = (a0 :: L).map fun a => (.fin (R.E a / M), .fin |R.Jz a / J|))
    (hgap : ((a0 :: L).map fun a => R.E a / M).Pairwise fun u v => γ ≤ v - u)
    {a : Body Float64} (ha : a ∈ b.bound) :
    ∃ l P : ℝ, n'.jc env' (R.body a) = .fin P ∧
      OnPolygon ((a0 :: L).map fun a => R.E a / M) ((a0 :: L).map fun a => |R.Jz a / J|)
        (R.E a / M) P ∧ (0 ≤ P ∧ P ≤ 1) ∧ (0 ≤ l ∧ l ≤ 1) ∧
      Num.isFinite (n.jc env a) = true ∧ |(value (n.jc env a) : ℝ) - l| ≤ 8 * (1 / 2 ^ 53) ∧
      |l - P| ≤ δ + 2 * δ / γ := by
  obtain ⟨hbne, h1, h2, -⟩ := circNorm_inv hn
  obtain ⟨hJ, he, -, -⟩ := columns_near hr hθ h1 h2
  obtain ⟨hlen, hnear⟩ := corners_near hr hθ hδ h1 h2 ha0 hM hL hp
  have ht := tiny_small
  have hη : 3 * θ + (1 / 2 ^ 53 + (tiny : ℝ)) ≤ δ := by
    refine le_trans ?_ hδ
    have : (1 : ℝ) / 2 ^ 53 + 1 / 2 ^ 53 / 1000 ≤ 1 / 2 ^ 49 := by norm_num
    linarith
  have hz : ∀ c ∈ b.all, ¬ Unbound c.energy → Num.isFinite c.jz = true :=
    fun c hc _ => (hr.jz c hc).1
  obtain ⟨hT, hhead⟩ := farTable henv C65_default_bins h hz hn hj hJ
  have hjx : j.x = n.pts.map (·.1) := by rw [hj]; rfl
  have hjy : j.y = n.pts.map (·.2) := by rw [hj]; rfl
  obtain ⟨fk, hk⟩ := he a ha
  have hkr : -1 ≤ value (n.e a) := by
    rcases norm_energy_range hn ha with hr | hr
    · rw [NumOrd.finite_not_nan fk] at hr
      cases hr
    · exact (le_value toExt_neg_one (toExt_value fk)).1 hr.1
  obtain ⟨fc, l, hl, hcl⟩ := interp_err henv.locate hT fk hkr hhead
  have hjc : Np.interp1 env.locate j.x j.y (n.e a) = n.jc env a := by rw [hjx, hjy]; rfl
  rw [hjc] at fc hcl
  -- the exact side
  obtain ⟨P, hP, hPoly⟩ := interp1_polygon henv'.locate
    ((a0 :: L).map fun a => (R.E a / M, |R.Jz a / J|)) (by simp) (by
      rw [List.pairwise_map]
      rw [List.pairwise_map] at hgap
      exact hgap.imp fun {u v} huv => by linarith) (R.E a / M)
  have hP' : n'.jc env' (R.body a) = .fin P := by
    unfold CircNorm.jc
    rw [hE, hp', ← hP]
    congr 1 <;> simp
  rw [List.map_map, List.map_map] at hPoly
  have hPoly' : OnPolygon ((a0 :: L).map fun a => R.E a / M) ((a0 :: L).map fun a => |R.Jz a / J|)
      (R.E a / M) P := hPoly
  have hy' : ∀ i < (a0 :: L).length,
      0 ≤ ((a0 :: L).map fun a => |R.Jz a / J|).getD i 0 ∧
        ((a0 :: L).map fun a => |R.Jz a / J|).getD i 0 ≤ 1 := by
    intro i hi
    have hm : (a0 :: L)[i] ∈ b.bound := by
      rcases List.mem_cons.1 (List.getElem_mem hi) with h0 | h0
      · rw [h0]; exact ha0
      · exact hL _ h0
    have e : ((a0 :: L).map fun a => |R.Jz a / J|).getD i 0 = |R.Jz (a0 :: L)[i] / J| := by
      rw [List.getD_eq_getElem?_getD, List.getElem?_map, List.getElem?_eq_getElem hi]
      rfl
    rw [e]
    refine ⟨abs_nonneg _, ?_⟩
    obtain ⟨m1, m2⟩ := (mem_bound' hr).1 hm
    rw [abs_div, abs_of_pos hr.J_pos, div_le_one hr.J_pos]
    exact hr.J_le _ m1 m2
  have hn0 : 0 < (a0 :: L).length := by simp
  have hxl : (reals j.x).length = (a0 :: L).length := by
    rw [hjx]; simp only [reals, List.length_map]; exact hlen
  have hyl : (reals j.y).length = (a0 :: L).length := by
    rw [hjy]; simp only [reals, List.length_map]; exact hlen
  have c1 := onCorners_of (by rw [hxl, hyl]) (by
    intro h0; rw [h0] at hxl; simp at hxl) hl
  rw [hxl] at c1
  have c2 := onCorners_of (by simp) (by simp) hPoly'
  rw [List.length_map] at c2
  have dget : ∀ i (hi : i < (a0 :: L).length), ∃ p, n.pts[i]? = some p ∧
      (reals j.x).getD i 0 = value p.1 ∧ (reals j.y).getD i 0 = value p.2 ∧
      ((a0 :: L).map fun a => R.E a / M).getD i 0 = R.E (a0 :: L)[i] / M ∧
      ((a0 :: L).map fun a => |R.Jz a / J|).getD i 0 = |R.Jz (a0 :: L)[i] / J| := by
    intro i hi
    have hi' : i < n.pts.length := by rw [hlen]; exact hi
    refine ⟨n.pts[i], List.getElem?_eq_getElem hi', ?_, ?_, ?_, ?_⟩
    · rw [hjx, reals, List.getD_eq_getElem?_getD, List.getElem?_map, List.getElem?_map,
        List.getElem?_eq_getElem hi']
      rfl
    · rw [hjy, reals, List.getD_eq_getElem?_getD, List.getElem?_map, List.getElem?_map,
        List.getElem?_eq_getElem hi']
      rfl
    · rw [List.getD_eq_getElem?_getD, List.getElem?_map, List.getElem?_eq_getElem hi]
      rfl
    · rw [List.getD_eq_getElem?_getD, List.getElem?_map, List.getElem?_eq_getElem hi]
      rfl
  have hmono : ∀ i k, i < k → k < (a0 :: L).length → (reals j.x).getD i 0 < (reals j.x).getD k 0 := by
    intro i k hik hk
    have hkx : k < j.x.length := by
      have : (reals j.x).length = j.x.length := by simp [reals]
      omega
    have hlt := List.pairwise_iff_getElem.1 hT.inc i k (by omega) hkx hik
    have fin : ∀ m (hm : m < j.x.length), Num.isFinite j.x[m] = true := fun m hm =>
      isFinite_of (between_value toExt_neg_one toExt_zero (hT.x _ (List.getElem_mem hm)).1
        (hT.x _ (List.getElem_mem hm)).2).1
    have := (real_lt (fin i (by omega)) (fin k hkx)).1 hlt
    simp only [reals, List.getD_eq_getElem?_getD, List.getElem?_map, List.getElem?_eq_getElem hkx,
      List.getElem?_eq_getElem (show i < j.x.length by omega), Option.map_some, Option.getD_some]
    exact this
  refine ⟨l, P, hP', hPoly', corners_range hn0 hy' c2, ?_, fc, hcl, ?_⟩
  · refine corners_range hn0 (fun i hi => ?_) c1
    obtain ⟨p, q1, q2, q3, -, -⟩ := dget i hi
    have hm : p.2 ∈ j.y := by
      rw [hjy]
      exact List.mem_map_of_mem (List.mem_of_getElem? q1)
    obtain ⟨_, y2, y3⟩ := between_value toExt_zero toExt_one (hT.y _ hm).1 (hT.y _ hm).2
    rw [q3]
    exact ⟨by exact_mod_cast y2, by exact_mod_cast y3⟩
  · refine corners_close hn0 hγ ?_ hy' ?_ ?_ (hk.trans hη) hmono c1 c2
    · intro i k hik hk
      have := List.pairwise_iff_getElem.1 hgap i k (by simp at hk ⊢; omega) (by simpa using hk) hik
      obtain ⟨_, -, -, -, q4, -⟩ := dget i (by omega)
      obtain ⟨_, -, -, -, q4', -⟩ := dget k hk
      rw [q4, q4']
      simp only [List.getElem_map] at this
      exact this
    · intro i hi
      obtain ⟨p, q1, q2, q3, q4, q5⟩ := dget i hi
      rw [q2, q4]
      exact (hnear i p _ q1 (List.getElem?_eq_getElem hi)).2.1
    · intro i hi
      obtain ⟨p, q1, q2, q3, q4, q5⟩ := dget i hi
      rw [q3, q5]
      exact (hnear i p _ q1 (List.getElem?_eq_getElem hi)).2.2.2

/-- a circularity that is kept is near the exact one -/
theorem star_close {env : CircEnv Float64} {b : BGalaxy Float64} {M J θ δ γ : ℝ} (hr : NearRef R b M J θ)
    (hθ : θ ≤ 1 / 4) (hδ : 3 * θ + 1 / 2 ^ 49 ≤ δ) {n : CircNorm Float64}
    (h1 : Np.amin (b.bound.map Body.energy) = .ok n.eMin)
    (h2 : Np.amax (b.bound.map fun a => Num.abs a.jz) = .ok n.jzMax)
    {a : Body Float64} (ha : a ∈ b.bound) {l P : ℝ} (hl : 0 ≤ l ∧ l ≤ 1)
    (fc : Num.isFinite (n.jc env a) = true)
    (hcl : |(value (n.jc env a) : ℝ) - l| ≤ 8 * (1 / 2 ^ 53)) (hlP : |l - P| ≤ δ + 2 * δ / γ)
    (fe : Num.isFinite (n.eps env a) = true) (hkeep : keepEps (n.eps env a) = true) :
    |(value (n.eps env a) : ℝ) * P - R.Jz a / J| ≤ 2 * δ + 2 * δ / γ := by
  obtain ⟨hJ, -, hz, -⟩ := columns_near hr hθ h1 h2
  obtain ⟨fq, -, hq1, -, hq3⟩ := hz a ha
  obtain ⟨-, -, -, -, fJ, -, hge⟩ := norms_near hr h1 h2
  obtain ⟨hall, -⟩ := (mem_bound' hr).1 ha
  have hsh : |value a.jz| ≤ value n.jzMax := by exact_mod_cast hge a ha
  obtain ⟨-, hq, -⟩ := share_err (hr.jz a hall).1 fJ hJ hsh
  have hc2 : |(value (n.jc env a) : ℝ)| ≤ 2 := by
    have h1 := abs_sub_abs_le_abs_sub (value (n.jc env a) : ℝ) l
    rw [abs_of_nonneg hl.1] at h1
    have h2 : (8 : ℝ) * (1 / 2 ^ 53) ≤ 1 := by norm_num
    linarith [hl.2]
  have e1 := quotient_err fq fc rfl fe hq1 hq hc2 hcl
  have k1 : |(value (n.eps env a) : ℝ)| ≤ 1 := kept_abs hkeep fe
  have e2 : (1 + |(value (n.eps env a) : ℝ)|) / 2 ^ 50 ≤ 1 / 2 ^ 49 := by
    calc (1 + |(value (n.eps env a) : ℝ)|) / 2 ^ 50 ≤ (1 + 1) / 2 ^ 50 :=
        div_le_div_of_nonneg_right (by linarith) (by positivity)
      _ = 1 / 2 ^ 49 := by norm_num
  have e3 : |(value (n.eps env a) : ℝ) * (P - l)| ≤ δ + 2 * δ / γ := by
    rw [abs_mul, abs_sub_comm]
    calc _ ≤ 1 * |l - P| := mul_le_mul_of_nonneg_right k1 (abs_nonneg _)
      _ ≤ _ := by rw [one_mul]; exact hlP
  have e4 : (value (n.eps env a) : ℝ) * P - R.Jz a / J = (value (n.eps env a) * (P - l)) +
      ((value (n.eps env a) * l - value a.jz / value n.jzMax) +
        (value a.jz / value n.jzMax - R.Jz a / J)) := by ring
  rw [e4]
  have t1 := abs_add_le ((value (n.eps env a) : ℝ) * (P - l))
      ((value (n.eps env a) * l - value a.jz / value n.jzMax) +
        (value a.jz / value n.jzMax - R.Jz a / J))
  have t2 := abs_add_le ((value (n.eps env a) : ℝ) * l - value a.jz / value n.jzMax)
    (value a.jz / value n.jzMax - R.Jz a / J)
  have e1' : |(value (n.eps env a) : ℝ) * l - value a.jz / value n.jzMax| ≤ 1 / 2 ^ 49 := e1.trans e2
  linarith

/-- a quotient of a number by a larger one is kept -/
theorem kept_quotient {q c : Float64} (fq : Num.isFinite q = true) (fc : Num.isFinite c = true)
    (h : |(value q : ℝ)| ≤ value c) (h0 : (0 : ℝ) < value c) :
    Num.isFinite (q /. c) = true ∧ keepEps (q /. c) = true := by
  have q0 : 0 < value c := by exact_mod_cast h0
  have hq : |value q| ≤ value c := by exact_mod_cast h
  have h1 : |value q / value c| ≤ 1 := by
    rw [abs_div, abs_of_pos q0, div_le_one q0]
    exact hq
  have e := toExt_div (toExt_value fq) (toExt_value fc) q0.ne'
  rw [clip64 (h1.trans (one_le_zpow₀ (by norm_num) (by norm_num)))] at e
  have hf := isFinite_of e
  have hs := abs_le.1 (Fmt.abs_srnd_le (fmt := Fmt.binary64) h1 (Fmt.srnd_one _))
  refine ⟨hf, ?_⟩
  unfold keepEps
  have a1 : ((Num.ofRat 1 : Float64) <. (q /. c)) = false := by
    rw [Bool.eq_false_iff]
    exact fun hc => absurd ((lt_value toExt_one e).1 hc) (not_lt.2 hs.2)
  have a2 : ((q /. c) <. (Num.ofRat (-1) : Float64)) = false := by
    rw [Bool.eq_false_iff]
    exact fun hc => absurd ((lt_value e toExt_neg_one).1 hc) (not_lt.2 hs.1)
  rw [a1, a2]
  rfl

/-- a number over its size -/
theorem self_quotient {q : Float64} (fq : Num.isFinite q = true) (h0 : (value q : ℝ) ≠ 0) :
    toExt (q /. Num.abs q) = .fin (if 0 < value q then 1 else -1) := by
  have h0' : value q ≠ 0 := by exact_mod_cast h0
  have e := toExt_div (toExt_value fq) (toExt_value (finite_abs fq)) (by
    rw [value_abs]; exact abs_ne_zero.2 h0')
  rw [e, value_abs]
  by_cases hp : 0 < value q
  · rw [if_pos hp, abs_of_pos hp, div_self h0', Fmt.srnd_one]
    have := clip64 (x := 1) (by
      rw [abs_one]; exact one_le_zpow₀ (by norm_num) (by norm_num))
    rwa [Fmt.srnd_one] at this
  · have hn : value q < 0 := lt_of_le_of_ne (not_lt.1 hp) h0'
    rw [if_neg hp, abs_of_neg hn, div_neg, div_self h0']
    have hs : Fmt.binary64.srnd (-1) = -1 := by rw [Fmt.srnd_neg, Fmt.srnd_one]
    have := clip64 (x := -1) (by
      rw [abs_neg, abs_one]; exact one_le_zpow₀ (by norm_num) (by norm_num))
    rwa [hs] at this ⊢

/-! ## C109 -/

/-- C109: jcirc succeeds in doubles iff it does for the real numbers. -/
theorem C109_succeeds (env : CircEnv Float64) (env' : CircEnv (Ext ℝ)) (b : BGalaxy Float64) (M J θ : ℝ)
    (hr : NearRef R b M J θ) :
    (∃ j, jcirc env (Galaxy.ofBodies b) defaultCbin.1 defaultCbin.2 = .ok j) ↔
      ∃ j', jcirc env' (Galaxy.ofBodies (R.galaxy b)) defaultCbin.1 defaultCbin.2 = .ok j' := by
  obtain ⟨aux, hb, hlen, -⟩ := double_edges
  have hne : b.bound ≠ [] := by
    obtain ⟨a, ha, haM⟩ := hr.M_eq
    exact List.ne_nil_of_mem ((mem_bound' hr).2 ⟨ha, by linarith [hr.M_pos]⟩)
  have hl : defaultEdges.length = 38 := by simp [defaultEdges]
  constructor
  · rintro ⟨j, h⟩
    obtain ⟨hp, hfirst, -⟩ := jcirc_inv h
    obtain ⟨n', hn', -⟩ := circNorm_ok env' (R.galaxy b) (by rw [exact_bound hr]; simpa using hne)
      exact_edges (by
        intro h0
        have := congrArg List.length h0
        rw [List.length_map, hl] at this
        cases this)
    refine ⟨circResult env' n' (R.galaxy b).stars, ?_⟩
    rw [jcirc_ofBodies env' (R.galaxy b) hp, hn']
    change (if _ then _ else _) = _
    rw [if_pos ((trueFirst_iff _).2 (exact_first hr hfirst))]
  · rintro ⟨j', h⟩
    obtain ⟨hp, hfirst, -⟩ := jcirc_inv h
    obtain ⟨n, hn, -⟩ := circNorm_ok env b hne hb (by
        intro h0
        rw [h0, hl] at hlen
        cases hlen)
    refine ⟨circResult env n b.stars, ?_⟩
    rw [jcirc_ofBodies env b hp, hn]
    change (if _ then _ else _) = _
    refine if_pos ((trueFirst_iff _).2 ?_)
    intro i k u v hik hu hv hub
    have hiff : ∀ a ∈ b.stars, Unbound (R.body a).energy ↔ Unbound a.energy := by
      intro a ha
      have hall : a ∈ b.all := by unfold BGalaxy.all; simp [ha]
      have h1 := bound_iff hr hall
      rw [← isBound_eq_false, ← isBound_eq_false, Bool.eq_false_iff, Bool.eq_false_iff, ne_eq, ne_eq,
        h1.1, h1.2]
    rw [← hiff u (List.mem_of_getElem? hu)] at hub
    rw [← hiff v (List.mem_of_getElem? hv)]
    refine hfirst i k (R.body u) (R.body v) hik ?_ ?_ hub
    · show (b.stars.map R.body)[i]? = _
      rw [List.getElem?_map, hu]
      rfl
    · show (b.stars.map R.body)[k]? = _
      rw [List.getElem?_map, hv]
      rfl

/-- C109: when the choices are clear, doubles and exact arithmetic build the profile of circular orbits
from the same particles in the same order; the first one is the deepest.  The exact corners are their
normalised energies and angular momenta, and the computed corners are within `δ` of these. -/
theorem C109_profile (env : CircEnv Float64) (henv : env.OK) (env' : CircEnv (Ext ℝ)) (henv' : env'.OK)
    (b : BGalaxy Float64) (j : JCirc Float64)
    (h : jcirc env (Galaxy.ofBodies b) defaultCbin.1 defaultCbin.2 = .ok j) (M J θ δ : ℝ)
    (hr : NearRef R b M J θ) (hθ : θ ≤ 1 / 4) (hδ : 3 * θ + 1 / 2 ^ 49 ≤ δ)
    (hc : Clear (R.boundOf b) (fun a => R.E a / M) (fun a => R.Jz a / J) defaultEdges δ) :
    ∃ j', jcirc env' (Galaxy.ofBodies (R.galaxy b)) defaultCbin.1 defaultCbin.2 = .ok j' ∧
    ∃ C : List (Body Float64), (∀ a ∈ C, a ∈ b.all ∧ R.E a < 0) ∧
      C.head?.map R.E = some (-M) ∧
      j'.x = C.map (fun a => .fin (R.E a / M)) ∧ j'.y = C.map (fun a => .fin |R.Jz a / J|) ∧
      j.x.length = C.length ∧ j.y.length = C.length ∧
      (∀ (k : Nat) x a, j.x[k]? = some x → C[k]? = some a →
        Num.isFinite x = true ∧ |(value x : ℝ) - R.E a / M| ≤ δ) ∧
      ∀ (k : Nat) y a, j.y[k]? = some y → C[k]? = some a →
        Num.isFinite y = true ∧ |(value y : ℝ) - abs (R.Jz a / J)| ≤ δ := by
  obtain ⟨n, n', hn, hj, hj', hE, hJ, a0, L, ha0, hM, hL, hp, hp'⟩ := pair_circ henv henv' h hr hθ hδ hc
  obtain ⟨hbne, h1, h2, -⟩ := circNorm_inv hn
  obtain ⟨hlen, hnear⟩ := corners_near hr hθ hδ h1 h2 ha0 hM hL hp
  have hjx : j.x = n.pts.map (·.1) := by rw [hj]; rfl
  have hjy : j.y = n.pts.map (·.2) := by rw [hj]; rfl
  refine ⟨_, hj', a0 :: L, ?_, ?_, ?_, ?_, ?_, ?_, ?_, ?_⟩
  · intro a ha
    rcases List.mem_cons.1 ha with rfl | ha
    · exact (mem_bound' hr).1 ha0
    · exact (mem_bound' hr).1 (hL a ha)
  · simp [hM]
  · show n'.pts.map (·.1) = _
    rw [hp', List.map_map]
    rfl
  · show n'.pts.map (·.2) = _
    rw [hp', List.map_map]
    rfl
  · rw [hjx, List.length_map, hlen]
  · rw [hjy, List.length_map, hlen]
  · intro k x a hx ha
    rw [hjx, List.getElem?_map, Option.map_eq_some_iff] at hx
    obtain ⟨p, hp, rfl⟩ := hx
    obtain ⟨q1, q2, -⟩ := hnear k p a hp ha
    exact ⟨q1, q2⟩
  · intro k x a hx ha
    rw [hjy, List.getElem?_map, Option.map_eq_some_iff] at hx
    obtain ⟨p, hp, rfl⟩ := hx
    obtain ⟨-, -, q⟩ := hnear k p a hp ha
    exact q

theorem map_fin_inj {u v : List ℝ} (h : u.map (Ext.fin : ℝ → Ext ℝ) = v.map Ext.fin) : u = v :=
  List.map_injective_iff.2 (fun a b hab => by injection hab) h

/-- the exact tables as lists of numbers -/
theorem exact_tables {env' : CircEnv (Ext ℝ)} {n' : CircNorm (Ext ℝ)} {stars : List (Body (Ext ℝ))}
    {C : List (Body Float64)} {E Y : Body Float64 → ℝ}
    (hp' : n'.pts = C.map fun a => (.fin (E a), .fin (Y a))) {xs ys : List ℝ}
    (hx : (circResult env' n' stars).x = xs.map Ext.fin)
    (hy : (circResult env' n' stars).y = ys.map Ext.fin) : xs = C.map E ∧ ys = C.map Y := by
  have e1 : (circResult env' n' stars).x = (C.map E).map Ext.fin := by
    show n'.pts.map (·.1) = _
    rw [hp', List.map_map, List.map_map]
    rfl
  have e2 : (circResult env' n' stars).y = (C.map Y).map Ext.fin := by
    show n'.pts.map (·.2) = _
    rw [hp', List.map_map, List.map_map]
    rfl
  rw [e1] at hx
  rw [e2] at hy
  exact ⟨(map_fin_inj hx).symm, (map_fin_inj hy).symm⟩

/-- C109: with corners at least `γ` apart, a circularity computed in doubles is that of the exact
computation up to `2 δ + 2 δ / γ` relative to the circular orbit `P` of the energy of the star. -/
theorem C109_circularity (env : CircEnv Float64) (henv : env.OK) (env' : CircEnv (Ext ℝ)) (henv' : env'.OK)
    (b : BGalaxy Float64) (j : JCirc Float64)
    (h : jcirc env (Galaxy.ofBodies b) defaultCbin.1 defaultCbin.2 = .ok j) (M J θ δ γ : ℝ)
    (hr : NearRef R b M J θ) (hθ : θ ≤ 1 / 4) (hδ : 3 * θ + 1 / 2 ^ 49 ≤ δ)
    (hc : Clear (R.boundOf b) (fun a => R.E a / M) (fun a => R.Jz a / J) defaultEdges δ)
    (j' : JCirc (Ext ℝ))
    (h' : jcirc env' (Galaxy.ofBodies (R.galaxy b)) defaultCbin.1 defaultCbin.2 = .ok j')
    (xs ys : List ℝ) (hx : j'.x = xs.map .fin) (hy : j'.y = ys.map .fin) (hγ : 0 < γ)
    (hgap : xs.Pairwise fun u v => γ ≤ v - u)
    (i : Nat) (a : Body Float64) (ha : b.stars[i]? = some a) (e : Float64) (he : j.eps[i]? = some e)
    (fe : Num.isFinite e = true) :
    R.E a < 0 ∧ ∃ P : ℝ, OnPolygon xs ys (R.E a / M) P ∧ (0 ≤ P ∧ P ≤ 1) ∧
      |value e * P - R.Jz a / J| ≤ 2 * δ + 2 * δ / γ ∧
      ∀ x : ℝ, j'.eps[i]? = some (.fin x) →
        x * P = R.Jz a / J ∧ |value e - x| * P ≤ 2 * δ + 2 * δ / γ := by
  obtain ⟨n, n', hn, hj, hj', hE, hJ, a0, L, ha0, hM, hL, hp, hp'⟩ := pair_circ henv henv' h hr hθ hδ hc
  rw [hj'] at h'
  have h' := Except.ok.inj h'
  subst h'
  obtain ⟨rfl, rfl⟩ := exact_tables hp' hx hy
  obtain ⟨hbne, h1, h2, -⟩ := circNorm_inv hn
  have he' := he
  rw [hj] at he'
  simp only [circResult, List.getElem?_map, ha, Option.map_some, Option.some.injEq] at he'
  by_cases hok : (isBound a.energy && keepEps (n.eps env a)) = true
  swap
  · rw [if_neg hok] at he'
    rw [← he'] at fe
    cases fe
  rw [if_pos hok] at he'
  obtain ⟨hb, hkeep⟩ := Bool.and_eq_true _ _ ▸ hok
  have hall : a ∈ b.all := by
    unfold BGalaxy.all
    simp [List.mem_of_getElem? ha]
  have hneg : R.E a < 0 := ((bound_iff hr hall).1).1 hb
  have hab : a ∈ b.bound := (mem_bound' hr).2 ⟨hall, hneg⟩
  obtain ⟨l, P, q1, q2, q3, q4, q5, q6, q7⟩ :=
    pair_star henv henv' h hr hθ hδ hγ hn hj hE ha0 hM hL hp hp' hgap hab
  have hclose := star_close hr hθ hδ h1 h2 hab q4 q5 q6 q7 (by rw [he']; exact fe) hkeep
  rw [he'] at hclose
  refine ⟨hneg, P, q2, q3, hclose, ?_⟩
  intro x hx'
  have hst : (R.galaxy b).stars = b.stars.map R.body := rfl
  simp only [circResult, List.getElem?_map, hst, ha, Option.map_some, Option.some.injEq] at hx'
  have hxP : x * P = R.Jz a / J := by
    split at hx'
    · have e1 : (Ext.fin (R.Jz a / J) : Ext ℝ) /. Ext.fin P = .fin x := by
        rw [← hJ a, ← q1]
        exact hx'
      by_cases hP : P = 0
      · rw [hP, Ext.num_div_zero] at e1
        unfold Ext.signInf at e1
        split at e1
        · cases e1
        · split at e1 <;> cases e1
      · rw [Ext.num_div _ _ hP] at e1
        injection e1 with e1
        rw [← e1]
        field_simp
    · cases hx'
  refine ⟨hxP, ?_⟩
  rw [← hxP, ← sub_mul, abs_mul, abs_of_nonneg q3.1] at hclose
  exact hclose

/-- what a star gets from JThreshold -/
def starLabel {F : Type} [Num F] (cut e : F) : Option Int :=
  if Num.isFinite e then some (if cut <. e then 1 else 0) else none

/-- the circularity of a star in the result -/
def keptEps {F : Type} [Num F] (env : CircEnv F) (n : CircNorm F) (a : Body F) : F :=
  if isBound a.energy && keepEps (n.eps env a) then n.eps env a else Num.nan

theorem starLabel_nan {F : Type} [Num F] [NumOrd F] (cut : F) : starLabel cut (Num.nan : F) = none := by
  unfold starLabel
  rw [if_neg (by
    intro h
    have := NumOrd.finite_not_nan h
    rw [NumOrd.nan_isNaN] at this
    cases this)]

/-- the exact label of a bound star with angular momentum `z` against `P` -/
theorem exact_label {env' : CircEnv (Ext ℝ)} {n' : CircNorm (Ext ℝ)} {a : Body (Ext ℝ)} {z P c : ℝ}
    (hb : isBound a.energy = true) (hz : n'.jz a = .fin z) (hP : n'.jc env' a = .fin P) (hP0 : 0 ≤ P) :
    starLabel (.fin c) (keptEps env' n' a)
      = if P = 0 ∨ P < |z| then none else some (if c * P < z then 1 else 0) := by
  unfold keptEps CircNorm.eps
  rw [hb, Bool.true_and, hz, hP]
  by_cases h0 : P = 0
  · rw [if_pos (Or.inl h0), h0, Ext.num_div_zero]
    split
    · unfold starLabel Ext.signInf
      rw [if_neg]
      intro h
      split at h
      · cases h
      · split at h <;> cases h
    · exact starLabel_nan _
  · have hpos : 0 < P := lt_of_le_of_ne hP0 (Ne.symm h0)
    rw [Ext.num_div _ _ h0]
    have hk : keepEps (Ext.fin (z / P) : Ext ℝ) = true ↔ ¬ P < |z| := by
      unfold keepEps
      simp only [Ext.num_ofRat, Ext.num_lt, Bool.and_eq_true, Bool.not_eq_true', decide_eq_false_iff_not]
      push_cast
      rw [lt_div_iff₀ hpos, div_lt_iff₀ hpos, not_lt, not_lt, not_lt, abs_le]
      constructor
      · rintro ⟨h1, h2⟩; exact ⟨by linarith, by linarith⟩
      · rintro ⟨h1, h2⟩; exact ⟨by linarith, by linarith⟩
    by_cases hlt : P < |z|
    · rw [if_pos (Or.inr hlt), if_neg (fun h => hk.1 h hlt)]
      exact starLabel_nan _
    · rw [if_pos (hk.2 hlt), if_neg (by push Not; exact ⟨h0, not_lt.1 hlt⟩)]
      unfold starLabel
      rw [if_pos (Ext.num_isFinite _)]
      congr 1
      have hiff : ((Ext.fin c : Ext ℝ) <. Ext.fin (z / P)) = true ↔ c * P < z := by
        rw [Ext.num_lt, decide_eq_true_eq, lt_div_iff₀ hpos]
      by_cases hh : c * P < z
      · rw [if_pos hh, if_pos (hiff.2 hh)]
      · rw [if_neg hh, if_neg (fun h => hh (hiff.1 h))]

/-- the label of a star at a corner of the profile -/
theorem corner_label {env : CircEnv Float64} (henv : env.OK) {env' : CircEnv (Ext ℝ)} (henv' : env'.OK)
    {b : BGalaxy Float64} {M J θ δ γ : ℝ}
    (hr : NearRef R b M J θ) (hθ : θ ≤ 1 / 4) (hδ : 3 * θ + 1 / 2 ^ 49 ≤ δ)
    (hc : Clear (R.boundOf b) (fun a => R.E a / M) (fun a => R.Jz a / J) defaultEdges δ)
    {n : CircNorm Float64} {n' : CircNorm (Ext ℝ)}
    (h1 : Np.amin (b.bound.map Body.energy) = .ok n.eMin)
    (h2 : Np.amax (b.bound.map fun a => Num.abs a.jz) = .ok n.jzMax)
    (hinc : (n.pts.map (·.1)).Pairwise fun u v => (u <. v) = true)
    (hE : ∀ a, n'.e (R.body a) = .fin (R.E a / M))
    {a0 : Body Float64} {L : List (Body Float64)} (ha0 : a0 ∈ b.bound) (hM : R.E a0 = -M)
    (hL : ∀ a ∈ L, a ∈ b.bound)
    (hp : n.pts = (Num.ofRat (-1), Num.abs (n.jz a0)) :: L.map (fun a => (n.e a, Num.abs (n.jz a))))
    (hp' : n'.pts = (a0 :: L).map fun a => (.fin (R.E a / M), .fin |R.Jz a / J|))
    (hgap : ((a0 :: L).map fun a => R.E a / M).Pairwise fun u v => γ ≤ v - u) (hγ : 0 < γ)
    {cut : Float64} (fcut : Num.isFinite cut = true) {a : Body Float64} (ha : a ∈ b.bound)
    (hcor : (R.E a / M, |R.Jz a / J|) ∈
      ((a0 :: L).map fun a => R.E a / M).zip ((a0 :: L).map fun a => |R.Jz a / J|)) {P : ℝ}
    (hP : n'.jc env' (R.body a) = .fin P) :
    starLabel cut (if keepEps (n.eps env a) then n.eps env a else Num.nan)
      = if P = 0 ∨ P < |R.Jz a / J| then none
        else some (if value cut * P < R.Jz a / J then 1 else 0) := by
  obtain ⟨-, hcol, hz, d, hd, hd1⟩ := columns_near hr hθ h1 h2
  obtain ⟨fq, hq, -, hq0, -⟩ := hz a ha
  have ht := tiny_small
  have hθ0 := resolved_nonneg hr
  have hδ0 : 0 < δ := lt_of_lt_of_le (by positivity) hδ
  have hη : 3 * θ + (1 / 2 ^ 53 + (tiny : ℝ)) ≤ δ := by
    refine le_trans ?_ hδ
    have : (1 : ℝ) / 2 ^ 53 + 1 / 2 ^ 53 / 1000 ≤ 1 / 2 ^ 49 := by norm_num
    linarith
  rw [← bound_eq hr] at hc
  have hmem : ∀ c ∈ a0 :: L, c ∈ b.bound := by
    intro c hc'
    rcases List.mem_cons.1 hc' with rfl | hc'
    · exact ha0
    · exact hL c hc'
  -- the star is a particle of the profile
  obtain ⟨k, hk⟩ := List.mem_iff_getElem?.1 hcor
  rw [List.getElem?_zip_eq_some, List.getElem?_map, List.getElem?_map, Option.map_eq_some_iff,
    Option.map_eq_some_iff] at hk
  obtain ⟨⟨c, hck, hcE⟩, ⟨c', hck', hcJ⟩⟩ := hk
  rw [hck] at hck'
  cases hck'
  simp only at hcE hcJ
  have hca : c = a := by
    by_contra hne
    have hcb := hmem c (List.mem_of_getElem? hck)
    have := hc.order c hcb a ha (by intro u _; simp only; rw [hcE]) hne
    simp only [hcJ, sub_self, abs_zero] at this
    linarith
  subst hca
  -- exactly
  have hP' : n'.jc env' (R.body c) = .fin |R.Jz c / J| := by
    unfold CircNorm.jc
    refine interp1_corner henv'.locate ?_ (k := k) (u := .fin (R.E c / M)) ?_ ?_ ?_
    · rw [hp', List.map_map, List.pairwise_map]
      rw [List.pairwise_map] at hgap
      refine hgap.imp fun {u v} huv => ?_
      simp only [Function.comp, Ext.num_lt, decide_eq_true_eq]
      linarith
    · rw [hp', List.map_map, List.getElem?_map, hck]; rfl
    · rw [hp', List.map_map, List.getElem?_map, hck]; rfl
    · rw [hE, Ext.num_eq]; simp
  rw [hP'] at hP
  injection hP with hP
  subst hP
  -- in doubles
  have hjc : n.jc env c = Num.abs (n.jz c) := by
    unfold CircNorm.jc
    cases k with
    | zero =>
      simp only [List.getElem?_cons_zero, Option.some.injEq] at hck
      subst hck
      refine interp1_corner henv.locate hinc (k := 0) (u := Num.ofRat (-1)) ?_ ?_ ?_
      · rw [hp]; rfl
      · rw [hp]; rfl
      · have hd0 : d = a0 := by
          by_contra hne
          have h3 := hc.deepest a0 ha0 d hd (by
            have := hr.M_pos
            simp only [hM]
            field_simp) hne
          have h4 := abs_le.1 (hcol d hd).2
          rw [hd1] at h4
          linarith [h4.1]
        have v1 : value (Num.ofRat (-1) : Float64) = -1 := value_eq toExt_neg_one
        refine (real_eq (hcol a0 ha0).1 (isFinite_of toExt_neg_one)).2 ?_
        show (value (n.e a0) : ℝ) = value (Num.ofRat (-1) : Float64)
        rw [← hd0, hd1, v1]
        norm_num
    | succ k =>
      simp only [List.getElem?_cons_succ] at hck
      refine interp1_corner henv.locate hinc (k := k + 1) (u := n.e c) ?_ ?_ ?_
      · rw [hp]; simp [hck]
      · rw [hp]; simp [hck]
      · exact (real_eq (hcol c ha).1 (hcol c ha).1).2 rfl
  have heps : n.eps env c = n.jz c /. Num.abs (n.jz c) := by
    unfold CircNorm.eps
    rw [hjc]
  by_cases hz0 : R.Jz c / J = 0
  · rw [if_pos (Or.inl (by rw [hz0, abs_zero]))]
    have hv := hq0 hz0
    have hzz : (n.jz c ==. Num.ofRat 0) = true := by rw [real_eq fq real_zero.1, real_zero.2, hv]
    have hnan := NumDiv.zero_div_zero hzz hzz
    rw [← heps] at hnan
    split
    · unfold starLabel
      rw [if_neg]
      intro hf
      rw [NumOrd.finite_not_nan hf] at hnan
      cases hnan
    · exact starLabel_nan _
  · have hbig : δ < |R.Jz c / J| := by
      rcases hc.zero c ha with h0 | h0
      · exact absurd h0 hz0
      · exact h0
    have hq' := abs_le.1 hq
    have hsign : (0 < R.Jz c / J ∧ (0 : ℝ) < value (n.jz c)) ∨
        (R.Jz c / J < 0 ∧ (value (n.jz c) : ℝ) < 0) := by
      rcases lt_or_gt_of_ne hz0 with h0 | h0
      · rw [abs_of_neg h0] at hbig
        exact Or.inr ⟨h0, by linarith [hq'.2]⟩
      · rw [abs_of_pos h0] at hbig
        exact Or.inl ⟨h0, by linarith [hq'.1]⟩
    have hne : (value (n.jz c) : ℝ) ≠ 0 := by
      rcases hsign with h0 | h0
      · exact h0.2.ne'
      · exact h0.2.ne
    have hself := self_quotient fq hne
    rw [← heps] at hself
    have hva : (value (Num.abs (n.jz c)) : ℝ) = |(value (n.jz c) : ℝ)| := by
      rw [value_abs]; push_cast; rfl
    obtain ⟨fe, hkeep⟩ := kept_quotient fq (finite_abs fq) hva.ge (by rw [hva]; exact abs_pos.2 hne)
    rw [← heps] at fe hkeep
    have habs : 0 < |R.Jz c / J| := abs_pos.2 hz0
    rw [if_pos hkeep, if_neg (by push Not; exact ⟨habs.ne', le_rfl⟩)]
    unfold starLabel
    rw [if_pos fe]
    congr 1
    have hval : value (n.eps env c) = if 0 < value (n.jz c) then 1 else -1 := value_eq hself
    have hiff : (cut <. n.eps env c) = true ↔ value cut * |R.Jz c / J| < R.Jz c / J := by
      rw [real_lt fcut fe, hval]
      rcases hsign with ⟨s1, s2⟩ | ⟨s1, s2⟩
      · rw [if_pos (by exact_mod_cast s2), abs_of_pos s1]
        push_cast
        constructor
        · intro hh
          have := mul_lt_mul_of_pos_right hh s1
          linarith
        · intro hh
          by_contra hcon
          have := mul_le_mul_of_nonneg_right (not_lt.1 hcon) s1.le
          linarith
      · rw [if_neg (by
          have : value (n.jz c) < 0 := by exact_mod_cast s2
          exact not_lt.2 this.le), abs_of_neg s1]
        push_cast
        have s1' : 0 < -(R.Jz c / J) := by linarith
        constructor
        · intro hh
          have := mul_lt_mul_of_pos_right hh s1'
          linarith
        · intro hh
          by_contra hcon
          have := mul_le_mul_of_nonneg_right (not_lt.1 hcon) s1'.le
          linarith
    by_cases hh : value cut * |R.Jz c / J| < R.Jz c / J
    · rw [if_pos hh, if_pos (hiff.2 hh)]
    · rw [if_neg hh, if_neg (fun hc => hh (hiff.1 hc))]

/-- C109: JThreshold gives in doubles the labels of the exact computation if every bound star is a corner
of the profile or is clear of the threshold and of the circular orbit by `2 δ + 2 δ / γ`. -/
theorem C109_labels (env : CircEnv Float64) (henv : env.OK) (env' : CircEnv (Ext ℝ)) (henv' : env'.OK)
    (b : BGalaxy Float64) (j : JCirc Float64)
    (h : jcirc env (Galaxy.ofBodies b) defaultCbin.1 defaultCbin.2 = .ok j) (M J θ δ γ : ℝ)
    (hr : NearRef R b M J θ) (hθ : θ ≤ 1 / 4) (hδ : 3 * θ + 1 / 2 ^ 49 ≤ δ)
    (hc : Clear (R.boundOf b) (fun a => R.E a / M) (fun a => R.Jz a / J) defaultEdges δ)
    (j' : JCirc (Ext ℝ))
    (h' : jcirc env' (Galaxy.ofBodies (R.galaxy b)) defaultCbin.1 defaultCbin.2 = .ok j')
    (xs ys : List ℝ) (hx : j'.x = xs.map .fin) (hy : j'.y = ys.map .fin) (hγ : 0 < γ)
    (hgap : xs.Pairwise fun u v => γ ≤ v - u)
    (junk junk' : Nat → Int) (cut : Float64) (fcut : Num.isFinite cut = true)
    (hstar : ∀ a ∈ b.stars, R.E a < 0 → (R.E a / M, |R.Jz a / J|) ∈ xs.zip ys ∨
      ∀ P, OnPolygon xs ys (R.E a / M) P →
        2 * δ + 2 * δ / γ < |(|R.Jz a / J| - P)| ∧
        2 * δ + 2 * δ / γ < |R.Jz a / J - value cut * P|) :
    ∃ c c', decompose env defaultCbin (jThreshold junk cut) (Galaxy.ofBodies b) = .ok c ∧
      decompose env' defaultCbin (jThreshold junk' (.fin (value cut))) (Galaxy.ofBodies (R.galaxy b))
        = .ok c' ∧
      c.labels = c'.labels ∧ c.ptypes = c'.ptypes := by
  have hcn : Num.isNaN cut = false := NumOrd.finite_not_nan fcut
  refine ⟨_, _, C35_decompose env defaultCbin b junk cut hcn j h,
    C35_decompose env' defaultCbin (R.galaxy b) junk' (.fin (value cut)) rfl j' h', ?_, ?_⟩
  swap
  · show (b.rows none).map _ = ((R.galaxy b).rows none).map _
    rw [rows_none_map, rows_none_map]
    simp [Ref.galaxy, Function.comp_def]
  obtain ⟨n, n', hn, hj, hj', hE, hJ, a0, L, ha0, hM, hL, hp, hp'⟩ := pair_circ henv henv' h hr hθ hδ hc
  rw [hj'] at h'
  have h' := Except.ok.inj h'
  subst h'
  obtain ⟨rfl, rfl⟩ := exact_tables hp' hx hy
  obtain ⟨hbne, h1, h2, -⟩ := circNorm_inv hn
  obtain ⟨hJ0, hcol, hz, -⟩ := columns_near hr hθ h1 h2
  have hT := (farTable henv C65_default_bins h (fun c hc _ => (hr.jz c hc).1) hn hj hJ0).1
  have hjx : j.x = n.pts.map (·.1) := by rw [hj]; rfl
  rw [hjx] at hT
  have ht := tiny_small
  have hθ0 := resolved_nonneg hr
  have hδ0 : 0 < δ := lt_of_lt_of_le (by positivity) hδ
  have hB : 0 < 2 * δ + 2 * δ / γ := by positivity
  have key : ∀ a ∈ b.stars, starLabel cut (keptEps env n a)
      = starLabel (.fin (value cut)) (keptEps env' n' (R.body a)) := by
    intro a ha
    have hall : a ∈ b.all := by unfold BGalaxy.all; simp [ha]
    obtain ⟨b1, b2⟩ := bound_iff hr hall
    by_cases hneg : R.E a < 0
    swap
    · have k1 : isBound a.energy = false := Bool.eq_false_iff.2 fun hb => hneg (b1.1 hb)
      have k2 : isBound (R.body a).energy = false := Bool.eq_false_iff.2 fun hb => hneg (b2.1 hb)
      unfold keptEps
      rw [k1, k2, Bool.false_and, Bool.false_and, if_neg (by simp), if_neg (by simp), starLabel_nan,
        starLabel_nan]
    have hb := b1.2 hneg
    have hb' := b2.2 hneg
    have hab : a ∈ b.bound := (mem_bound' hr).2 ⟨hall, hneg⟩
    obtain ⟨l, P, q1, q2, q3, q4, q5, q6, q7⟩ :=
      pair_star henv henv' h hr hθ hδ hγ hn hj hE ha0 hM hL hp hp' hgap hab
    rw [exact_label hb' (hJ a) q1 q3.1]
    obtain ⟨fq, hq, -, hq0, -⟩ := hz a hab
    have hkept : keptEps env n a = if keepEps (n.eps env a) then n.eps env a else Num.nan := by
      unfold keptEps
      rw [hb, Bool.true_and]
    rw [hkept]
    rcases hstar a ha hneg with hcor | hmar
    · exact corner_label henv henv' hr hθ hδ hc h1 h2 hT.inc hE ha0 hM hL hp hp' hgap hγ
        fcut hab hcor q1
    · obtain ⟨m1, m2⟩ := hmar P q2
      rcases le_or_gt |R.Jz a / J| P with hle | hgt
      · -- the star is kept
        rw [abs_of_nonpos (by linarith)] at m1
        have hP0 : 0 < P := by linarith [abs_nonneg (R.Jz a / J)]
        have hq' : |(value (n.jz a) : ℝ)| ≤ |R.Jz a / J| + (3 * θ + (1 / 2 ^ 53 + tiny)) := by
          have := abs_sub_abs_le_abs_sub (value (n.jz a) : ℝ) (R.Jz a / J)
          linarith
        have hc' : P - (δ + 2 * δ / γ) - 8 * (1 / 2 ^ 53) ≤ value (n.jc env a) := by
          have := (abs_le.1 q6).1
          have := (abs_le.1 q7).1
          linarith
        have hsum : 3 * θ + (1 / 2 ^ 53 + (tiny : ℝ)) + 8 * (1 / 2 ^ 53) ≤ δ := by
          refine le_trans ?_ hδ
          have : (1 : ℝ) / 2 ^ 53 + 1 / 2 ^ 53 / 1000 + 8 * (1 / 2 ^ 53) ≤ 1 / 2 ^ 49 := by norm_num
          linarith
        have hlt : |(value (n.jz a) : ℝ)| < value (n.jc env a) := by linarith
        obtain ⟨fe, hkeep⟩ := kept_quotient fq q5 hlt.le (lt_of_le_of_lt (abs_nonneg _) hlt)
        have hclose := abs_le.1 (star_close hr hθ hδ h1 h2 hab q4 q5 q6 q7 fe hkeep)
        have hkeep' : keepEps (n.eps env a) = true := hkeep
        have fe' : Num.isFinite (n.eps env a) = true := fe
        rw [if_pos hkeep', if_neg (by push Not; exact ⟨hP0.ne', hle⟩)]
        unfold starLabel
        rw [if_pos fe']
        congr 1
        have hiff : (cut <. n.eps env a) = true ↔ value cut * P < R.Jz a / J := by
          rw [real_lt fcut fe']
          constructor
          · intro hh
            have := mul_le_mul_of_nonneg_right hh.le hP0.le
            by_contra hcon
            rw [abs_of_nonpos (by linarith)] at m2
            linarith [hclose.2]
          · intro hh
            rw [abs_of_pos (by linarith)] at m2
            by_contra hcon
            have := mul_le_mul_of_nonneg_right (not_lt.1 hcon) hP0.le
            linarith [hclose.1]
        by_cases hh : value cut * P < R.Jz a / J
        · rw [if_pos hh, if_pos (hiff.2 hh)]
        · rw [if_neg hh, if_neg (fun hc => hh (hiff.1 hc))]
      · -- the star is not kept
        rw [abs_of_pos (by linarith)] at m1
        rw [if_pos (Or.inr hgt)]
        split
        · rename_i hkeep
          unfold starLabel
          rw [if_neg]
          intro fe
          have hclose := star_close hr hθ hδ h1 h2 hab q4 q5 q6 q7 fe hkeep
          have k1 := kept_abs hkeep fe
          have k2 : |(value (n.eps env a) : ℝ) * P| ≤ P := by
            rw [abs_mul, abs_of_nonneg q3.1]
            calc _ ≤ 1 * P := mul_le_mul_of_nonneg_right k1 q3.1
              _ = P := one_mul P
          have k3 := abs_sub_abs_le_abs_sub (R.Jz a / J) ((value (n.eps env a) : ℝ) * P)
          rw [abs_sub_comm] at k3
          linarith
        · exact starLabel_nan _
  have e1 : j.eps = b.stars.map (keptEps env n) := by rw [hj]; rfl
  have e2 : (circResult env' n' (R.galaxy b).stars).eps
      = b.stars.map fun a => keptEps env' n' (R.body a) := by
    show (b.stars.map R.body).map _ = _
    rw [List.map_map]
    rfl
  show epsLabels _ _ _ = epsLabels _ _ _
  unfold epsLabels
  rw [e1, e2, List.map_map, List.map_map]
  congr 1
  · exact List.map_congr_left key
  · simp [Ref.galaxy]

end GChop
