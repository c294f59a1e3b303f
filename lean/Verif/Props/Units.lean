import Verif.Props.Frame
import Verif.Props.Relevance

/-!
# C74: the result of the whole pipeline does not depend on the units

`potential`, `center`, `star_align` and `decompose` one after the other, for a galaxy and for the same
galaxy in other units of mass, length and velocity that keep the value of the gravitational constant.
-/

set_option linter.unusedSectionVars false

namespace GChop
open Matrix

section exact
variable {K : Type} [Field K] [LinearOrder K] [IsStrictOrderedRing K] [FloorRing K] [HasSqrt K]
  [LawfulSqrt K]

/-- the particle in units in which masses are `μ` times, lengths `a` times and velocities `b` times as
large; a potential is a squared velocity -/
def KBody.units (μ a b : K) (k : KBody K) : KBody K :=
  ⟨μ * k.m, a • k.r, b • k.v, Ext.fin (b * b) *. k.pot⟩

/-- the galaxy in these units; a softening is a length -/
def KGalaxy.units (μ a b : K) (g : KGalaxy K) : KGalaxy K :=
  { g.map (KBody.units μ a b) with
    softS := Ext.fin a *. g.softS, softDm := Ext.fin a *. g.softDm, softG := Ext.fin a *. g.softG }

/-! ## Square roots and scaling -/

theorem sqrt_scale {c : K} (hc : 0 < c) (x : Ext K) :
    Num.sqrt (scale (c * c) x) = scale c (Num.sqrt x) := by
  have hcc := mul_pos hc hc
  cases x with
  | nan => rfl
  | pinf => rw [scale_pinf hcc]; exact (scale_pinf hc).symm
  | ninf => rw [scale_ninf hcc]; rfl
  | fin x =>
    show Ext.sqrt (Ext.fin (c * c * x)) = scale c (Ext.sqrt (Ext.fin x))
    simp only [Ext.sqrt]
    by_cases h : x < 0
    · rw [if_pos h, if_pos (mul_neg_of_pos_of_neg hcc h)]; rfl
    · rw [if_neg h, if_neg (not_lt.2 (mul_nonneg hcc.le (not_lt.1 h))), ksqrt_scale hc (not_lt.1 h)]
      rfl

theorem sq_scale {c : K} (hc : 0 < c) (x : Ext K) :
    Num.sq (scale c x) = scale (c * c) (Num.sq x) := by
  have hcc := mul_pos hc hc
  cases x with
  | nan => rfl
  | pinf => rw [scale_pinf hc]; exact (scale_pinf hcc).symm
  | ninf => rw [scale_ninf hc]; exact (scale_pinf hcc).symm
  | fin x => show Ext.fin (c * x * (c * x)) = Ext.fin (c * c * (x * x)); congr 1; ring

theorem seriesMax_scale {c : K} (hc : 0 < c) (l : List (Ext K)) :
    Pd.seriesMax (l.map (scale c)) = scale c (Pd.seriesMax l) := by
  have hf : (l.map (scale c)).filter (fun x => !Num.isNaN x)
      = (l.filter fun x => !Num.isNaN x).map (scale c) := by
    rw [List.filter_map]
    congr 1
    apply List.filter_congr
    intro x _
    simp [scale_isNaN hc]
  unfold Pd.seriesMax
  rw [hf]
  cases l.filter fun x => !Num.isNaN x with
  | nil => rfl
  | cons a l =>
    simp only [List.map_cons]
    induction l generalizing a with
    | nil => rfl
    | cons b l ih =>
      simp only [List.map_cons, List.foldl_cons]
      rw [scale_lt hc]
      split
      · exact ih b
      · exact ih a

theorem add_scale {c : K} (hc : 0 < c) (x y : Ext K) :
    (scale c x +. scale c y) = scale c (x +. y) := (pos_mul_add hc x y).symm

theorem softs_units {a : K} (μ b : K) (g : KGalaxy K) :
    (g.units μ a b).toB.softs = g.toB.softs.map (scale a) := by
  simp [BGalaxy.softs, KGalaxy.toB, KGalaxy.units, KGalaxy.map, Function.comp_def, scale]

theorem dist2_units (μ a b : K) (k l : KBody K) :
    dist2 (k.units μ a b) (l.units μ a b) = a * a * dist2 k l := by
  simp [dist2, KBody.units, dotProduct, Fin.sum_univ_three]; ring

theorem sep_units {a : K} (ha : 0 < a) (μ b : K) (e : Ext K) (k l : KBody K) :
    Num.sqrt (Ext.fin (dist2 (k.units μ a b) (l.units μ a b)) +. Num.sq (scale a e))
      = scale a (Num.sqrt (Ext.fin (dist2 k l) +. Num.sq e)) := by
  rw [dist2_units, sq_scale ha, ← scale_fin, add_scale (mul_pos ha ha), sqrt_scale ha]

theorem pairTerm_units {μ a b : K} (ha : 0 < a) (hb : 0 < b) (h : b * b * a = μ) (e : Ext K)
    (k l : KBody K) :
    pairTerm (Num.sq (scale a e)) (k.units μ a b) (l.units μ a b)
      = scale (b * b) (pairTerm (Num.sq e) k l) := by
  unfold pairTerm
  rw [sep_units ha]
  have : (l.units μ a b).m = a * (b * b * l.m) := by
    show μ * l.m = _
    rw [← h]; ring
  rw [this, ← scale_fin, scale_div ha]
  exact pos_mul_div (mul_pos hb hb) _ _

/-- the backend gives a definite result: the compiled one always, the numpy one if the entries it does
not write are zero -/
def Definite (backend : String) (junk : Nat → Nat → Ext K) : Prop :=
  backend = "fortran" ∨ (backend = "numpy" ∧ ∀ i j, junk i j = Ext.fin 0)

theorem scale_zero (c : K) : scale c (Ext.fin 0) = Ext.fin 0 := by simp

theorem backendPot_units (G : K) (junk : Nat → Nat → Ext K) {backend : String}
    (hd : Definite backend junk) {μ a b : K} (ha : 0 < a) (hb : 0 < b) (h : b * b * a = μ)
    (l : List (KBody K)) (softs : List (Ext K)) (i : Nat) (hi : i < l.length) :
    backendPot (exactEnv G junk) backend ((l.map (KBody.units μ a b)).map KBody.body)
        (softs.map (scale a)) i
      = scale (b * b) (backendPot (exactEnv G junk) backend (l.map KBody.body) softs i) := by
  have hbb := mul_pos hb hb
  have key : ∀ (l' : List (KBody K)) (_ : l' = l.map (KBody.units μ a b)),
      backendPot (exactEnv G junk) backend (l'.map KBody.body) (softs.map (scale a)) i
      = scale (b * b) (backendPot (exactEnv G junk) backend (l.map KBody.body) softs i) := by
    intro l' hl
    have hlen : l'.length = l.length := by rw [hl]; simp
    have hget : ∀ j (h : j < l.length) (h' : j < l'.length), l'[j] = l[j].units μ a b := by
      intro j h h'; subst hl; simp
    rcases hd with rfl | ⟨rfl, hj0⟩
    · have e1 := backendPot_fortran G junk l' (softs.map (scale a)) ⟨i, by omega⟩
      have e2 := backendPot_fortran G junk l softs ⟨i, hi⟩
      simp only at e1 e2
      rw [e1, e2]
      unfold scale
      rw [← pos_mul_comm3 hbb, pos_mul_sum hbb]
      congr 2
      rw [← Equiv.sum_comp (finCongr hlen.symm)]
      apply Finset.sum_congr rfl
      intro j _
      have : (finCongr hlen.symm j = ⟨i, by omega⟩) ↔ j = ⟨i, hi⟩ := by simp [Fin.ext_iff]
      simp only [this]
      by_cases hj : j = ⟨i, hi⟩
      · simp only [hj, if_true]
        show Ext.fin 0 = Ext.fin (b * b * 0)
        rw [mul_zero]
      · simp only [hj, if_false, Fin.getElem_fin, finCongr_apply, Fin.val_cast]
        rw [hget _ hi, hget _ j.2]
        have := pairTerm_units ha hb h (Pd.seriesMax softs) l[i] l[(j : Nat)]
        rw [← seriesMax_scale ha] at this
        exact this
    · have e1 := backendPot_numpy G junk l' (softs.map (scale a)) ⟨i, by omega⟩
      have e2 := backendPot_numpy G junk l softs ⟨i, hi⟩
      simp only at e1 e2
      rw [e1, e2]
      unfold scale
      rw [← pos_mul_comm3 hbb, pos_mul_sum hbb]
      congr 2
      rw [← Equiv.sum_comp (finCongr hlen.symm)]
      apply Finset.sum_congr rfl
      intro j _
      have : (finCongr hlen.symm j = ⟨i, by omega⟩) ↔ j = ⟨i, hi⟩ := by simp [Fin.ext_iff]
      simp only [this, hj0]
      by_cases hj : j = ⟨i, hi⟩
      · simp only [hj, if_true]
        exact (scale_zero (b * b)).symm
      · simp only [hj, if_false, Fin.getElem_fin, finCongr_apply, Fin.val_cast]
        rw [hget _ hi, hget _ j.2]
        have h1 := pairTerm_units ha hb h (Pd.seriesMax softs) l[i] l[(j : Nat)]
        have h2 := sep_units ha μ b (Pd.seriesMax softs) l[i] l[(j : Nat)]
        rw [← seriesMax_scale ha] at h1 h2
        have h3 : ∀ x : Ext K, (scale a x ==. Ext.fin 0) = (x ==. Ext.fin 0) := by
          intro x
          cases x with
          | nan => rfl
          | pinf => rw [scale_pinf ha]
          | ninf => rw [scale_ninf ha]
          | fin x => simp [ha.ne']
        have h1' : pairTerm (Num.sq (Pd.seriesMax (softs.map fun x => Ext.fin a *. x)))
            (l[i].units μ a b) (l[(j : Nat)].units μ a b) = (Ext.fin (b * b) *.
              pairTerm (Num.sq (Pd.seriesMax softs)) l[i] l[(j : Nat)]) := h1
        have h2' : ((Num.sqrt (Ext.fin (dist2 (l[i].units μ a b) (l[(j : Nat)].units μ a b)) +.
            Num.sq (Pd.seriesMax (softs.map fun x => Ext.fin a *. x)))) ==. Ext.fin 0)
            = ((Num.sqrt (Ext.fin (dist2 l[i] l[(j : Nat)]) +. Num.sq (Pd.seriesMax softs)))
              ==. Ext.fin 0) := by
          rw [← h3 (Num.sqrt (Ext.fin (dist2 l[i] l[(j : Nat)]) +. Num.sq (Pd.seriesMax softs))), ← h2]
          rfl
        rw [h1', h2']
        split
        · exact (scale_zero (b * b)).symm
        · rfl
  exact key _ rfl

theorem units_all (μ a b : K) (g : KGalaxy K) :
    (g.units μ a b).all = g.all.map (KBody.units μ a b) := by
  simp [KGalaxy.units, KGalaxy.map, KGalaxy.all]

theorem withPot_units (g : KGalaxy K) (p : Nat → Ext K) (μ a b : K) :
    (g.units μ a b).withPot (fun i => scale (b * b) (p i)) = (g.withPot p).units μ a b := by
  have aux : ∀ (l : List (KBody K)) (q : Nat → Ext K),
      ((l.map (KBody.units μ a b)).mapIdx fun i k => { k with pot := scale (b * b) (q i) })
        = (l.mapIdx fun i k => { k with pot := q i }).map (KBody.units μ a b) := by
    intro l q
    apply List.ext_getElem?
    intro i
    simp only [List.getElem?_mapIdx, List.getElem?_map]
    cases l[i]? <;> rfl
  simp [KGalaxy.withPot, KGalaxy.units, KGalaxy.map, aux]

/-- C74: the potential of the galaxy in other units is the potential in these units. -/
theorem C74_potential (G : K) (junk : Nat → Nat → Ext K) (backend : String)
    (hd : Definite backend junk) (g : KGalaxy K) (hp : g.hasPot = false) {μ a b : K} (ha : 0 < a)
    (hb : 0 < b) (h : b * b * a = μ) :
    ∃ g₁ : KGalaxy K, g₁.all.length = g.all.length ∧ g₁.hasPot = true ∧
      potential (exactEnv G junk) (Galaxy.ofBodies g.toB) backend = .ok (Galaxy.ofBodies g₁.toB) ∧
      potential (exactEnv G junk) (Galaxy.ofBodies (g.units μ a b).toB) backend
        = .ok (Galaxy.ofBodies (g₁.units μ a b).toB) := by
  have hok : backendOk (exactEnv G junk) backend := by
    rcases hd with rfl | ⟨rfl, _⟩
    · exact Or.inl ⟨rfl, rfl⟩
    · exact Or.inr rfl
  have e1 := potential_ofBodies (exactEnv G junk) g.toB backend hp hok
  have e2 := potential_ofBodies (exactEnv G junk) (g.units μ a b).toB backend hp hok
  refine ⟨g.withPot (backendPot (exactEnv G junk) backend g.toB.all g.toB.softs),
    by simp [KGalaxy.withPot, KGalaxy.all], rfl, e1.trans (by rw [toB_withPot]), e2.trans ?_⟩
  rw [← withPot_units, ← toB_withPot]
  congr 2
  apply withPot_congr _ g.all.length (by rw [toB_all, units_all]; simp)
  intro i hi
  rw [toB_all, toB_all, units_all, softs_units]
  exact backendPot_units G junk hd ha hb h g.all g.toB.softs i hi

theorem argBestAux_scale {c : K} (hc : 0 < c) (l : List (Ext K)) (n i : Nat) (x : Ext K) :
    (Np.argBestAux (fun n o => !Num.isNaN o && (Num.isNaN n || (n <. o))) (l.map (scale c)) n
        (i, scale c x)).1
      = (Np.argBestAux (fun n o => !Num.isNaN o && (Num.isNaN n || (n <. o))) l n (i, x)).1 := by
  induction l generalizing n i x with
  | nil => rfl
  | cons y l ih =>
    simp only [List.map_cons, Np.argBestAux, scale_isNaN hc, scale_lt hc]
    split
    · exact ih ..
    · exact ih ..

theorem lowIdx_scale {c : K} (hc : 0 < c) (l : List (Ext K)) :
    lowIdx (l.map (scale c)) = lowIdx l := by
  have h1 : (l.map (scale c)).all Num.isNaN = l.all Num.isNaN := by
    rw [List.all_map]
    congr 1
    funext x
    exact scale_isNaN hc x
  have h2 : ((l.map (scale c)).map fun a => if Num.isNaN a then Num.pinf else a)
      = (l.map fun a => if Num.isNaN a then Num.pinf else a).map (scale c) := by
    rw [List.map_map, List.map_map]
    apply List.map_congr_left
    intro x _
    simp only [Function.comp, scale_isNaN hc]
    split
    · exact (scale_pinf hc).symm
    · rfl
  have h3 : ∀ m : List (Ext K), Np.argmin (m.map (scale c)) = Np.argmin m := by
    intro m
    cases m with
    | nil => rfl
    | cons x m => exact congrArg Except.ok (argBestAux_scale hc m 1 0 x)
  unfold lowIdx
  rw [h1, h2, h3, List.length_map]

/-- centring a galaxy in other units gives the centred galaxy in these units -/
theorem C74_center (g : KGalaxy K) (hp : g.hasPot = true) (hne : g.all ≠ []) {a b : K} (μ : K)
    (hb : 0 < b) :
    ∃ g₁ : KGalaxy K, center (Galaxy.ofBodies g.toB) = .ok (Galaxy.ofBodies g₁.toB) ∧
      center (Galaxy.ofBodies (g.units μ a b).toB) = .ok (Galaxy.ofBodies (g₁.units μ a b).toB) := by
  obtain ⟨k, _, hk, h1⟩ := center_toB g hp hne
  refine ⟨_, h1, ?_⟩
  obtain ⟨k', _, hk', h2⟩ := center_toB (g.units μ a b) hp (by rw [units_all]; simpa using hne)
  have hpots : (g.units μ a b).all.map (·.pot) = (g.all.map (·.pot)).map (scale (b * b)) := by
    rw [units_all, List.map_map, List.map_map]; rfl
  rw [hpots, lowIdx_scale (mul_pos hb hb), units_all, List.getElem?_map, hk] at hk'
  simp only [Option.map_some, Option.some.injEq] at hk'
  subst hk'
  rw [h2]
  have : (g.units μ a b).map (KBody.translate (k.units μ a b).r)
      = (g.map (KBody.translate k.r)).units μ a b := by
    have hf : ∀ x : KBody K, (x.units μ a b).translate (k.units μ a b).r
        = (x.translate k.r).units μ a b := by
      intro x
      simp [KBody.units, KBody.translate, smul_sub]
    simp [KGalaxy.units, KGalaxy.map, Function.comp_def, hf]
  rw [this]

theorem L_units (μ a b : K) (k : KBody K) : (k.units μ a b).L = (a * b) • k.L := by
  ext i
  unfold KBody.L KBody.units
  fin_cases i <;> simp [cross_apply] <;> ring

theorem inside_units {a : K} (ha : 0 < a) (μ b : K) (rCut : Option K) (k : KBody K) :
    (k.units μ a b).inside (rCut.map (a * ·)) = k.inside rCut := by
  cases rCut with
  | none => rfl
  | some c =>
    show decide _ = decide _
    have h1 : (k.units μ a b).r ⬝ᵥ (k.units μ a b).r = a * a * (k.r ⬝ᵥ k.r) := by
      simp [KBody.units, dotProduct, Fin.sum_univ_three]; ring
    have h2 : a * c * (a * c) = a * a * (c * c) := by ring
    apply decide_eq_decide.2
    show 0 < a * c ∧ _ < a * c * (a * c) ↔ _
    rw [h1, h2, mul_pos_iff_of_pos_left ha, mul_lt_mul_iff_right₀ (mul_pos ha ha)]

theorem totalL_units {a : K} (ha : 0 < a) (μ b : K) (rCut : Option K) (l : List (KBody K)) :
    totalL (rCut.map (a * ·)) (l.map (KBody.units μ a b)) = (μ * (a * b)) • totalL rCut l := by
  unfold totalL
  rw [List.filter_map, List.map_map]
  have : (KBody.inside (rCut.map (a * ·)) ∘ KBody.units μ a b) = KBody.inside rCut := by
    funext k; exact inside_units ha μ b rCut k
  rw [this]
  induction l.filter (KBody.inside rCut) with
  | nil => simp
  | cons k l ih =>
    simp only [List.map_cons, List.sum_cons, ih, smul_add, Function.comp, L_units]
    congr 1
    show (μ * k.m) • (a * b) • k.L = _
    rw [smul_smul, smul_smul]
    congr 1
    ring

theorem alignK_smul {c : K} (hc : 0 < c) (J : Fin 3 → K) : alignK (c • J) = alignK J := by
  have h1 : HasSqrt.ksqrt ((c • J) 0 * (c • J) 0 + (c • J) 1 * (c • J) 1)
      = c * HasSqrt.ksqrt (J 0 * J 0 + J 1 * J 1) := by
    rw [← ksqrt_scale hc (add_nonneg (mul_self_nonneg _) (mul_self_nonneg _))]
    congr 1
    simp; ring
  have h2 : HasSqrt.ksqrt ((c • J) ⬝ᵥ (c • J)) = c * HasSqrt.ksqrt (J ⬝ᵥ J) := by
    rw [← ksqrt_scale hc (dot_self_nonneg J)]
    congr 1
    simp [dotProduct, Fin.sum_univ_three]; ring
  have d : ∀ x y : K, c * x / (c * y) = x / y := fun x y => mul_div_mul_left x y hc.ne'
  have e : ∀ x y z w : K, c * x * (c * y) / (c * z * (c * w)) = x * y / (z * w) := by
    intro x y z w
    rw [mul_mul_mul_comm, mul_mul_mul_comm c z, mul_div_mul_left _ _ (mul_pos hc hc).ne']
  have n : ∀ x y : K, -(c * x) / (c * y) = -x / y := by
    intro x y; rw [← mul_neg, d]
  unfold alignK
  rw [h1, h2]
  simp only [Pi.smul_apply, smul_eq_mul, d, e, n]

/-- C74: `star_align` in other units gives the aligned galaxy in these units, if the cut radius is
given in them too. -/
theorem C74_star_align (g : KGalaxy K) (rCut : Option K) (hc : ∀ c ∈ rCut, 0 < c)
    (hoff : OffAxis (totalL rCut g.stars)) {μ a b : K} (hμ : 0 < μ) (ha : 0 < a) (hb : 0 < b) :
    ∃ h : KGalaxy K,
      starAlign (Galaxy.ofBodies g.toB) (rCut.map .fin) = .ok (Galaxy.ofBodies h.toB) ∧
      starAlign (Galaxy.ofBodies (g.units μ a b).toB) ((rCut.map (a * ·)).map .fin)
        = .ok (Galaxy.ofBodies (h.units μ a b).toB) := by
  have hs : 0 < μ * (a * b) := mul_pos hμ (mul_pos ha hb)
  have hL : totalL (rCut.map (a * ·)) (g.units μ a b).stars = (μ * (a * b)) • totalL rCut g.stars :=
    totalL_units ha μ b rCut g.stars
  refine ⟨_, starAlign_toB g rCut hc hoff, ?_⟩
  rw [starAlign_toB (g.units μ a b) (rCut.map (a * ·)) ?_ ?_, hL, alignK_smul hs]
  · congr 3
    have hf : ∀ x : KBody K, (x.units μ a b).rotate (alignK (totalL rCut g.stars))
        = (x.rotate (alignK (totalL rCut g.stars))).units μ a b := by
      intro x
      simp [KBody.units, KBody.rotate, Matrix.mulVec_smul]
    simp [KGalaxy.rotate, KGalaxy.units, KGalaxy.map, Function.comp_def, hf]
  · intro c hc'
    cases rCut with
    | none => simp at hc'
    | some d =>
      simp only [Option.map_some, Option.mem_def, Option.some.injEq] at hc'
      subst hc'
      exact mul_pos ha (hc d rfl)
  · rw [hL]
    rcases hoff with h | h
    · exact Or.inl (mul_ne_zero hs.ne' h)
    · exact Or.inr (mul_ne_zero hs.ne' h)

theorem units_toB (μ a b : K) (g : KGalaxy K) :
    (g.units μ a b).toB = { ((g.map (KBody.rescale a b)).toB.mapBodies
      fun x => { x with m := Ext.fin μ *. x.m }) with
        softS := Ext.fin a *. g.softS, softDm := Ext.fin a *. g.softDm,
        softG := Ext.fin a *. g.softG } := by
  simp [KGalaxy.units, KGalaxy.map, KGalaxy.toB, BGalaxy.mapBodies, Function.comp_def, KBody.body,
    KBody.units, KBody.rescale]

/-- all steps before a decomposition, in other units -/
theorem prepare_units (G : K) (junk : Nat → Nat → Ext K) (backend : String)
    (hd : Definite backend junk) (g : KGalaxy K) (hp : g.hasPot = false) (hne : g.all ≠ [])
    {μ a b : K} (ha : 0 < a) (hb : 0 < b) (hu : b * b * a = μ) (rCut : Option K)
    (hc : ∀ c ∈ rCut, 0 < c)
    (hoff : ∀ g₁ : KGalaxy K, (potential (exactEnv G junk) (Galaxy.ofBodies g.toB) backend >>= center)
      = .ok (Galaxy.ofBodies g₁.toB) → OffAxis (totalL rCut g₁.stars)) :
    ∃ h : KGalaxy K,
      prepare (exactEnv G junk) backend (rCut.map .fin) (Galaxy.ofBodies g.toB)
        = .ok (Galaxy.ofBodies h.toB) ∧
      prepare (exactEnv G junk) backend ((rCut.map (a * ·)).map .fin)
          (Galaxy.ofBodies (g.units μ a b).toB)
        = .ok (Galaxy.ofBodies (h.units μ a b).toB) := by
  obtain ⟨g₁, hl, hp1, p1, p2⟩ := C74_potential G junk backend hd g hp ha hb hu
  have hne1 : g₁.all ≠ [] := by
    intro h0
    apply hne
    rw [← List.length_eq_zero_iff] at h0 ⊢
    omega
  obtain ⟨g₂, c1, c2⟩ := C74_center g₁ hp1 hne1 (a := a) (b := b) μ hb
  have hμ : 0 < μ := by rw [← hu]; positivity
  obtain ⟨h, s1, s2⟩ := C74_star_align g₂ rCut hc
    (hoff g₂ (by rw [p1]; exact c1)) (μ := μ) (a := a) (b := b) hμ ha hb
  refine ⟨h, ?_, ?_⟩
  · unfold prepare; rw [p1]; simp only [Py.ok_bind]; rw [c1]; exact s1
  · unfold prepare; rw [p2]; simp only [Py.ok_bind]; rw [c2]; exact s2

/-- C74: the circularities after `potential`, `center` and `star_align` do not depend on the units. -/
theorem C74_circularity (env : CircEnv (Ext K)) (G : K) (junk : Nat → Nat → Ext K) (backend : String)
    (hd : Definite backend junk) (g : KGalaxy K) (hp : g.hasPot = false) (hne : g.all ≠ [])
    {μ a b : K} (ha : 0 < a) (hb : 0 < b) (hu : b * b * a = μ) (rCut : Option K)
    (hc : ∀ c ∈ rCut, 0 < c)
    (hoff : ∀ g₁ : KGalaxy K, (potential (exactEnv G junk) (Galaxy.ofBodies g.toB) backend >>= center)
      = .ok (Galaxy.ofBodies g₁.toB) → OffAxis (totalL rCut g₁.stars)) (bin0 bin1 : Ext K) :
    (prepare (exactEnv G junk) backend ((rCut.map (a * ·)).map .fin)
          (Galaxy.ofBodies (g.units μ a b).toB) >>= fun h => jcirc env h bin0 bin1)
      = (prepare (exactEnv G junk) backend (rCut.map .fin) (Galaxy.ofBodies g.toB)
        >>= fun h => jcirc env h bin0 bin1) := by
  obtain ⟨h, p1, p2⟩ := prepare_units G junk backend hd g hp hne ha hb hu rCut hc hoff
  rw [p1, p2]
  simp only [Py.ok_bind]
  rw [units_toB, C68_masses, C28_units env h ha hb]

/-- C74: and neither does the decomposition. -/
theorem C74_decompose (env : CircEnv (Ext K)) (cbins : Ext K × Ext K) (dec : Decomposer (Ext K))
    (hat : ∀ a ∈ dec.attributes, a ∈ circularityAttributes) (G : K) (junk : Nat → Nat → Ext K)
    (backend : String) (hd : Definite backend junk) (g : KGalaxy K) (hp : g.hasPot = false)
    (hne : g.all ≠ []) {μ a b : K} (ha : 0 < a) (hb : 0 < b) (hu : b * b * a = μ) (rCut : Option K)
    (hc : ∀ c ∈ rCut, 0 < c)
    (hoff : ∀ g₁ : KGalaxy K, (potential (exactEnv G junk) (Galaxy.ofBodies g.toB) backend >>= center)
      = .ok (Galaxy.ofBodies g₁.toB) → OffAxis (totalL rCut g₁.stars)) :
    (prepare (exactEnv G junk) backend ((rCut.map (a * ·)).map .fin)
          (Galaxy.ofBodies (g.units μ a b).toB) >>= decompose env cbins dec)
      = (prepare (exactEnv G junk) backend (rCut.map .fin) (Galaxy.ofBodies g.toB)
        >>= decompose env cbins dec) := by
  obtain ⟨h, p1, p2⟩ := prepare_units G junk backend hd g hp hne ha hb hu rCut hc hoff
  rw [p1, p2]
  simp only [Py.ok_bind]
  rw [units_toB, C68_decompose_masses env cbins dec hat, C64_units env cbins dec hat h ha hb]

end exact

/-! ## Examples -/

/-- non-vacuity: masses times 18, lengths times 2, velocities times 3 -/
example (env : CircEnv (Ext ℝ)) (G : ℝ) (junk : Nat → Nat → Ext ℝ) (bin0 bin1 : Ext ℝ) :
    (prepare (exactEnv G junk) "fortran" none (Galaxy.ofBodies (exPair.units 18 2 3).toB)
        >>= fun h => jcirc env h bin0 bin1)
      = (prepare (exactEnv G junk) "fortran" none (Galaxy.ofBodies exPair.toB)
        >>= fun h => jcirc env h bin0 bin1) :=
  C74_circularity env G junk "fortran" (Or.inl rfl) exPair rfl (by simp [exPair, KGalaxy.all])
    (by norm_num) (by norm_num) (by norm_num) none (by simp)
    (fun g₁ h => by rw [exPair_J G junk g₁ h]; right; simp) bin0 bin1

/-- a star in orbit about two heavy particles, a particle far away, all on one line -/
def exLine : KGalaxy ℚ :=
  { stars := [⟨1, ![1, 0, 0], ![0, 3, 4], .nan⟩]
    dm := [⟨100, ![0, 0, 0], ![0, 0, 0], .nan⟩, ⟨100, ![1/5, 0, 0], ![0, 0, 0], .nan⟩,
      ⟨1, ![1000, 0, 0], ![0, 0, 0], .nan⟩]
    gas := []
    hasPot := false, softS := q 0, softDm := q 0, softG := q 0 }

/-- normalised energy and circularity of the stars after all steps -/
def lineResult (g : KGalaxy ℚ) : Option (List (Ext ℚ) × List (Ext ℚ)) :=
  (do let h ← prepare (exactEnv 1 (fun _ _ => q 0)) "fortran" none (Galaxy.ofBodies g.toB)
      let c ← jcirc exEnv h (defaultCbin (F := Ext ℚ)).1 defaultCbin.2
      return (c.normalizedStarEnergy, c.eps)).toOption

/-- C74 (the relation between the units is needed): with the velocities five times as large and all
else equal the star is not bound and has no circularity. -/
theorem C74_relation_needed :
    (lineResult exLine).map Prod.snd = some [q 1] ∧
    (lineResult (exLine.units 18 2 3)).map Prod.snd = some [q 1] ∧
    (lineResult (exLine.units 1 1 5)).map Prod.snd = some [Ext.nan] := by
  refine ⟨?_, ?_, ?_⟩ <;> decide +kernel

end GChop
