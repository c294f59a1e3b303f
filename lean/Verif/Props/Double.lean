import Verif.Lemmas.Binary
import Verif.Props.CircExact

/-!
# C65: the table of circular orbits in double precision

Everything here is about `Float64`, IEEE-754 binary64 with its rounding errors.
-/

set_option linter.unusedSectionVars false

namespace GChop

namespace Flt
variable {fmt : Fmt}

/-- an absolute value is not negative -/
theorem abs_range {c : Flt fmt} (h1 : (Num.ofRat (-1) <=. c) = true) (h2 : (c <=. Num.ofRat 1) = true) :
    (Num.ofRat 0 <=. Num.abs c) = true ∧ (Num.abs c <=. Num.ofRat 1) = true := by
  have e1 : Ext.le (toExt (ofExact false (-1) : Flt fmt)) (toExt c) = true := h1
  have e2 : Ext.le (toExt c) (toExt (ofExact false 1 : Flt fmt)) = true := h2
  rw [toExt_neg_one] at e1
  rw [toExt_one] at e2
  show Ext.le (toExt (ofExact false 0 : Flt fmt)) (toExt (abs c)) = true ∧
    Ext.le (toExt (abs c)) (toExt (ofExact false 1 : Flt fmt)) = true
  rw [toExt_zero, toExt_one]
  cases c with
  | fin s m =>
    have h0 := m.nonneg
    have e1 : decide ((-1 : ℚ) ≤ sval s m) = true := e1
    have e2 : decide (sval s m ≤ (1 : ℚ)) = true := e2
    rw [decide_eq_true_eq] at e1 e2
    have e3 : m.val ≤ 1 := by
      unfold sval at e1 e2
      cases s with
      | false => simpa using e2
      | true => simp at e1; linarith
    exact ⟨decide_eq_true (show (0 : ℚ) ≤ m.val from h0), decide_eq_true (show m.val ≤ (1 : ℚ) from e3)⟩
  | inf s => cases s <;> simp [toExt, Ext.le] at e1 e2
  | nan => cases e1

/-- a number divided by a number of at least its size -/
theorem abs_div_range {a M : Flt fmt} (h : (Num.abs a <=. M) = true ∨ Num.isNaN M = true) :
    Num.isNaN (Num.abs (a /. M)) = true ∨
      ((Num.ofRat 0 <=. Num.abs (a /. M)) = true ∧ (Num.abs (a /. M) <=. Num.ofRat 1) = true) := by
  rcases h with h | h
  · have h' : Ext.le (toExt (abs a)) (toExt M) = true := h
    cases a with
    | nan => cases h'
    | inf s =>
      cases M with
      | fin t n => cases h'
      | inf t => exact Or.inl rfl
      | nan => cases h'
    | fin s m =>
      cases M with
      | nan => cases h'
      | inf t =>
        right
        obtain ⟨m0, hm0, e0⟩ := ofExact_zero (fmt := fmt) (s != t)
        have e : ((fin s m : Flt fmt) /. inf t) = fin (s != t) m0 := e0
        rw [e]
        apply abs_range
        · show Ext.le (toExt (ofExact false (-1) : Flt fmt)) (.fin (sval _ m0)) = true
          rw [toExt_neg_one, sval_of_zero hm0]
          exact decide_eq_true (show (-1 : ℚ) ≤ 0 by norm_num)
        · show Ext.le (.fin (sval _ m0)) (toExt (ofExact false 1 : Flt fmt)) = true
          rw [toExt_one, sval_of_zero hm0]
          exact decide_eq_true (show (0 : ℚ) ≤ 1 by norm_num)
      | fin t n =>
        have hle : m.val ≤ sval t n := by
          have h' : decide (m.val ≤ sval t n) = true := h'
          simpa using h'
        have hm := m.nonneg
        have hn := n.nonneg
        have e : ((fin s m : Flt fmt) /. fin t n) = div (fin s m) (fin t n) := rfl
        rw [e, div_fin]
        by_cases h0 : n.val = 0
        · rw [if_pos h0]
          have : m.val = 0 := le_antisymm (by rw [sval_of_zero h0] at hle; exact hle) hm
          rw [if_pos this]
          exact Or.inl rfl
        · rw [if_neg h0]
          have hpos : 0 < sval t n := by
            rcases (le_trans hm hle).lt_or_eq with h1 | h1
            · exact h1
            · exfalso
              unfold sval at h1
              cases t <;> simp at h1 <;> exact h0 (by linarith)
          have hs : |sval s m| = m.val := by
            unfold sval
            cases s <;> simp [hm]
          have habs := abs_le.1 (hs.trans_le hle)
          right
          apply abs_range
          · show Ext.le (toExt (ofExact false (-1) : Flt fmt)) (toExt (ofExact _ _)) = true
            apply ofExact_mono
            rw [le_div_iff₀ hpos]; linarith
          · show Ext.le (toExt (ofExact _ _)) (toExt (ofExact false 1 : Flt fmt)) = true
            apply ofExact_mono
            rw [div_le_iff₀ hpos]; linarith
  · left
    cases M with
    | fin t n => cases h
    | inf t => cases t <;> cases h
    | nan => cases a <;> rfl

end Flt

section
variable {F : Type} [Num F] [NumOrd F]

/-- `np.max` is NaN or at least every element -/
theorem amax_le_or_nan {l : List F} {m : F} (h : Np.amax l = .ok m) :
    ∀ a ∈ l, (a <=. m) = true ∨ Num.isNaN m = true := by
  have key : ∀ (xs : List F) (x : F), Num.isNaN x = true → xs.foldl Np.max2 x = x := by
    intro xs
    induction xs with
    | nil => intro x _; rfl
    | cons y ys ih =>
      intro x hx
      have : Np.max2 x y = x := by simp [Np.max2, hx]
      rw [List.foldl_cons, this, ih x hx]
  have key2 : ∀ (xs : List F) (x : F), (∃ a ∈ x :: xs, Num.isNaN a = true) →
      Num.isNaN (xs.foldl Np.max2 x) = true := by
    intro xs
    induction xs with
    | nil =>
      rintro x ⟨a, ha, hn⟩
      simp only [List.mem_cons, List.not_mem_nil, or_false] at ha
      subst ha; exact hn
    | cons y ys ih =>
      rintro x ⟨a, ha, hn⟩
      cases hx : Num.isNaN x with
      | true => rw [key _ _ hx]; exact hx
      | false =>
        rw [List.foldl_cons]
        apply ih
        cases hy : Num.isNaN y with
        | true => exact ⟨Np.max2 x y, by simp, by simp [Np.max2, hx, hy]⟩
        | false =>
          refine ⟨a, ?_, hn⟩
          simp only [List.mem_cons] at ha ⊢
          rcases ha with rfl | rfl | ha
          · rw [hx] at hn; cases hn
          · rw [hy] at hn; cases hn
          · exact Or.inr ha
  intro a ha
  by_cases hn : ∃ c ∈ l, Num.isNaN c = true
  · right
    cases l with
    | nil => cases ha
    | cons x xs => cases h; exact key2 xs x hn
  · push Not at hn
    exact Or.inl ((amax_spec (fun c hc => by simpa using hn c hc) h).2 a ha)

end

/-- the energies of bound particles, normalised -/
theorem norm_energy_range {F : Type} [Num F] [NumDiv F] {env : CircEnv F} {b : BGalaxy F}
    {bin0 bin1 : F} {n : CircNorm F} (hn : circNorm env b bin0 bin1 = .ok n) {a : Body F}
    (ha : a ∈ b.bound) : Num.isNaN (n.e a) = true ∨
      ((Num.ofRat (-1) <=. n.e a) = true ∧ (n.e a <=. Num.ofRat 0) = true) := by
  obtain ⟨_, h1, _⟩ := circNorm_inv hn
  have hfin : ∀ c : F, isBound c = true → Num.isFinite c = true ∧ (c <=. Num.ofRat 0) = true := by
    intro c hc
    unfold isBound at hc
    rw [Bool.and_eq_true, Bool.not_eq_true'] at hc
    refine ⟨NumDiv.finite_of_not_inf (NumOrd.not_nan_of_le hc.1).1 hc.2 ?_, hc.1⟩
    cases hp : (c ==. Num.pinf) with
    | false => rfl
    | true =>
      rw [NumOrd.eq_def, Bool.and_eq_true] at hp
      have := (lt_iff.1 (NumDiv.zero_lt_pinf (F := F))).2
      rw [NumOrd.le_trans hp.2 hc.1] at this
      cases this
  have hnn : ∀ e ∈ b.bound.map Body.energy, Num.isNaN e = false := by
    intro e he
    obtain ⟨a, ha, rfl⟩ := List.mem_map.1 he
    exact NumOrd.finite_not_nan (hfin _ (List.mem_filter.1 ha).2).1
  obtain ⟨hmem, hmin⟩ := amin_spec hnn h1
  obtain ⟨am, ham, ham'⟩ := List.mem_map.1 hmem
  have hm := hfin n.eMin (ham' ▸ (List.mem_filter.1 ham).2)
  have hae := hfin _ (List.mem_filter.1 ha).2
  have hle : (n.eMin <=. a.energy) = true := hmin _ (List.mem_map.2 ⟨a, ha, rfl⟩)
  have h0 : Num.isNaN (Num.ofRat 0 : F) = false := (NumOrd.not_nan_of_le hm.2).2
  unfold CircNorm.e
  cases hz : (n.eMin <. Num.ofRat 0) with
  | true =>
    right
    obtain ⟨hpos, hpf⟩ := NumDiv.abs_neg hm.1 hz
    have e1 := NumDiv.div_mono hm.1 hae.1 hpf hpos hle
    have e2 := NumDiv.div_abs_self hm.1 hz
    rw [NumOrd.eq_def, Bool.and_eq_true] at e2
    have h0f : Num.isFinite (Num.ofRat 0 : F) = true :=
      NumOrd.ofRat_finite (by norm_num) (by norm_num)
    have e3 := NumDiv.div_mono hae.1 h0f hpf hpos hae.2
    have e4 := NumDiv.zero_div (z := (Num.ofRat 0 : F)) hpf hpos (by
      rw [NumOrd.eq_def, le_refl' h0]; rfl)
    rw [NumOrd.eq_def, Bool.and_eq_true] at e4
    exact ⟨NumOrd.le_trans e2.2 e1, NumOrd.le_trans e3 e4.1⟩
  | false =>
    left
    have hz' : (Num.ofRat 0 <=. n.eMin) = true :=
      le_of_not_lt h0 (NumOrd.finite_not_nan hm.1) hz
    apply NumDiv.zero_div_zero
    · rw [NumOrd.eq_def, hae.2, NumOrd.le_trans hz' hle]; rfl
    · rw [NumOrd.eq_def, hm.2, hz']; rfl

/-! ## C65 -/

/-- edges that increase from -1 on (as C29 needs them), decidable -/
def edgesOK {F : Type} [Num F] (aux : List F) : Bool :=
  (aux.zip aux.tail).all (fun p => p.1 <. p.2) &&
    (match aux with | [] => false | lo :: _ => Num.ofRat (-1) <=. lo)

theorem edgesOK_iff {F : Type} [Num F] [NumOrd F] {aux : List F} (h : edgesOK aux = true) :
    EdgesOK aux := by
  unfold edgesOK at h
  rw [Bool.and_eq_true, List.all_eq_true] at h
  refine ⟨?_, ?_⟩
  · have hc : aux.IsChain fun a b => (a <. b) = true := by
      rw [List.isChain_iff_getElem]
      intro i hi
      refine h.1 (aux[i], aux[i + 1]) ?_
      rw [List.mem_iff_getElem?]
      refine ⟨i, ?_⟩
      rw [List.getElem?_zip_eq_some]
      exact ⟨List.getElem?_eq_getElem _, by simp [List.getElem?_tail, hi]⟩
    have : IsTrans F fun a b => (a <. b) = true := ⟨fun a b c h1 h2 => lt_of_lt_of_le' h1 (le_of_lt' h2)⟩
    exact List.isChain_iff_pairwise.1 hc
  · cases aux with
    | nil => cases h.2
    | cons lo t => exact ⟨lo, rfl, h.2⟩

/-- The energy bins of `cbins = (bin0, bin1)` increase strictly when computed in double precision. -/
def BinsIncrease (bin0 bin1 : Float64) : Prop :=
  ∃ aux, energyBins bin0 bin1 = .ok aux ∧ aux.Pairwise (fun a b => (a <. b) = true) ∧
    aux.head? = some (Num.ofRat (-1))

theorem binsIncrease_of {bin0 bin1 : Float64}
    (h : (match energyBins bin0 bin1 with
      | .ok aux => edgesOK aux && decide (aux.head? = some (Num.ofRat (-1)))
      | .error _ => false) = true) : BinsIncrease bin0 bin1 := by
  cases hb : energyBins bin0 bin1 with
  | error e => rw [hb] at h; cases h
  | ok aux =>
    rw [hb] at h
    simp only [Bool.and_eq_true, decide_eq_true_eq] at h
    exact ⟨aux, hb, (edgesOK_iff h.1).sorted, h.2⟩

/-- C65: the default bins increase in double precision (38 edges, none of them rounded past the
next one). -/
theorem C65_default_bins : BinsIncrease (defaultCbin (F := Float64)).1 defaultCbin.2 := by
  apply binsIncrease_of
  decide +kernel

/-- C65: the table of circular orbits of any galaxy of doubles is a valid interpolation table when
the bins increase: `x` and `y` have the same length, `x` begins with `-1`, increases strictly and
stays in [-1, 0], each `y` is NaN or in [0, 1], and each pair comes from one bound particle (for
the first pair: from its `Jz`). -/
theorem C65_profile (env : CircEnv Float64) (henv : env.OK) (b : BGalaxy Float64)
    (bin0 bin1 : Float64) (hbins : BinsIncrease bin0 bin1) (j : JCirc Float64)
    (h : jcirc env (Galaxy.ofBodies b) bin0 bin1 = .ok j) :
    j.x.length = j.y.length ∧ j.x.head? = some (Num.ofRat (-1)) ∧
      (j.x.Pairwise fun u v => (u <. v) = true) ∧
      (∀ u ∈ j.x, (Num.ofRat (-1) <=. u) = true ∧ (u <=. Num.ofRat 0) = true) ∧
      (∀ w ∈ j.y, Num.isNaN w = true ∨
        ((Num.ofRat 0 <=. w) = true ∧ (w <=. Num.ofRat 1) = true)) ∧
      ∃ m J : Float64, IsMinOf b.bound Body.energy m ∧
        IsMaxOf b.bound (fun a => Num.abs a.jz) J ∧
        ∀ (i : Nat) (u w : Float64), j.x[i]? = some u → j.y[i]? = some w →
          ∃ a ∈ b.all, ¬ Unbound a.energy ∧ w = Num.abs (a.jz /. J) ∧
            (i = 0 ∨ u = a.energy /. Num.abs m) := by
  obtain ⟨_, _, n, hn, rfl⟩ := jcirc_inv h
  obtain ⟨hne, h1, h2, _, aux, hb, haux, hprof⟩ := circNorm_inv hn
  obtain ⟨aux', hb', hsorted, hhead'⟩ := hbins
  rw [hb] at hb'
  cases hb'
  have hneg1 : Num.isNaN (Num.ofRat (-1) : Float64) = false :=
    NumOrd.finite_not_nan (NumOrd.ofRat_finite (by norm_num) (by norm_num))
  have hsort := profile_sorted henv.argsort _ _ _ _
    ⟨hsorted, _, hhead', le_refl' hneg1⟩ _ hne hprof
  obtain ⟨i0, a0, _, hget, hhead, hmem⟩ := profile_mem henv.argsort _ _ _ _ _ hne hprof
  have ha0 := List.mem_of_getElem? hget
  have hx : (n.pts.map (·.1)).Pairwise fun u v => (u <. v) = true := by
    rw [List.pairwise_map]; exact hsort
  have hy : ∀ a ∈ b.bound, Num.isNaN (Num.abs (n.jz a)) = true ∨
      ((Num.ofRat 0 <=. Num.abs (n.jz a)) = true ∧ (Num.abs (n.jz a) <=. Num.ofRat 1) = true) := by
    intro a ha
    exact Flt.abs_div_range (amax_le_or_nan h2 _ (List.mem_map.2 ⟨a, ha, rfl⟩))
  refine ⟨by simp [circResult], ?_, hx, ?_, ?_, n.eMin, n.jzMax, isMinOf_amin h1, isMaxOf_amax h2, ?_⟩
  · show (n.pts.map (·.1)).head? = _
    rw [List.head?_map, hhead]; rfl
  · intro u hu
    obtain ⟨p, hp, rfl⟩ := List.mem_map.1 hu
    rcases hmem p hp with rfl | ⟨a, ha, rfl⟩
    · exact ⟨le_refl' hneg1, NumOrd.ofRat_le (by norm_num) (by norm_num) (by norm_num)⟩
    · rcases norm_energy_range hn ha with hnan | hr
      · exfalso
        obtain ⟨t, ht⟩ : ∃ t, n.pts = (Num.ofRat (-1), Num.abs (n.jz a0)) :: t := by
          cases hc : n.pts with
          | nil => rw [hc] at hhead; cases hhead
          | cons x t => rw [hc] at hhead; cases hhead; exact ⟨t, rfl⟩
        rw [ht] at hp hsort
        rcases List.mem_cons.1 hp with hp | hp
        · rw [(Prod.mk.injEq ..).mp hp |>.1, hneg1] at hnan; cases hnan
        · have := (List.pairwise_cons.1 hsort).1 _ hp
          rw [(not_nan_of_lt this).2] at hnan; cases hnan
      · exact hr
  · intro w hw
    obtain ⟨p, hp, rfl⟩ := List.mem_map.1 hw
    rcases hmem p hp with rfl | ⟨a, ha, rfl⟩
    · exact hy a0 ha0
    · exact hy a ha
  · intro i u w hu hw
    have hu : (n.pts.map (·.1))[i]? = some u := hu
    have hw : (n.pts.map (·.2))[i]? = some w := hw
    simp only [List.getElem?_map, Option.map_eq_some_iff] at hu hw
    obtain ⟨p, hp, rfl⟩ := hu
    obtain ⟨p', hp', rfl⟩ := hw
    rw [hp] at hp'
    cases hp'
    rcases hmem p (List.mem_of_getElem? hp) with hq | ⟨a, ha, hq⟩
    · obtain ⟨h3, h4⟩ := mem_bound.1 ha0
      refine ⟨a0, h3, h4, by rw [hq]; rfl, Or.inl ?_⟩
      -- a later point is strictly larger than -1
      by_contra hi
      have h0 : n.pts[0]? = some (Num.ofRat (-1), Num.abs (n.jz a0)) := by
        rw [← List.head?_eq_getElem?]; exact hhead
      have := edges_lt (aux := n.pts.map (·.1)) hx (i := 0) (k := i) (a := Num.ofRat (-1)) (b := p.1)
        (by simp [List.getElem?_map, h0]) (by simp [List.getElem?_map, hp]) (by omega)
      rw [hq] at this
      have h5 := (lt_iff.1 this).2
      rw [(lt_iff.1 this).1] at h5
      cases h5
    · obtain ⟨h3, h4⟩ := mem_bound.1 ha
      exact ⟨a, h3, h4, by rw [hq]; rfl, Or.inr (by rw [hq]; rfl)⟩

/-! ### Bins that do not increase

`np.arange(-1, -0.1, 0.03)` has 31 elements in double precision, the last one above -0.1 by
8e-16.  It stands before -0.1, the first edge of the fine bins, in the list of edges. -/

/-- C65 (negation for other bins): the edges of `cbins = (0.03, 0.005)` do not increase. -/
theorem C65_overshoot : ¬ BinsIncrease (Num.ofRat (3/100)) (Num.ofRat (1/200)) := by
  rintro ⟨aux, h1, h2, _⟩
  have h3 : ((energyBins (Num.ofRat (3/100) : Float64) (Num.ofRat (1/200))).toOption.bind
      fun aux => aux[30]?.bind fun a => aux[31]?.map fun c => a <. c) = some false := by
    decide +kernel
  rw [h1] at h3
  simp only [Except.toOption, Option.bind_some, Option.bind_eq_some_iff, Option.map_eq_some_iff] at h3
  obtain ⟨a, ha, c, hc, hac⟩ := h3
  rw [edges_lt h2 ha hc (by omega)] at hac
  cases hac

/-- a particle at `(x, 0, 0)` with velocity `(0, 1/4, 0)`: its `Jz` is `x / 4` and its energy is
`pot + 1/32` -/
def dblOrbit (x pot : ℚ) : Body Float64 :=
  ⟨Num.ofRat 1, Num.ofRat x, Num.ofRat 0, Num.ofRat 0, Num.ofRat 0, Num.ofRat (1/4), Num.ofRat 0,
    Num.ofRat pot⟩

def exOvershoot : BGalaxy Float64 where
  stars := [dblOrbit 4 (-33/32), dblOrbit 40 (-113/800),
    dblOrbit 36 (-21/160 + 20 / 2 ^ 55), dblOrbit 32 (-21/160 + 8 / 2 ^ 55),
    dblOrbit 8 (-1/32 - 1/1024)]
  dm := []
  gas := []
  hasPot := true
  softS := Num.ofRat 0
  softDm := Num.ofRat 0
  softG := Num.ofRat 0

/-- C65 (negation for other bins): with `cbins = (0.03, 0.005)` the call succeeds and `x` decreases
from its second to its third entry. -/
theorem C65_counterexample : (sortEnv (F := Float64)).OK ∧ ∃ j : JCirc Float64,
    jcirc sortEnv (Galaxy.ofBodies exOvershoot) (Num.ofRat (3/100)) (Num.ofRat (1/200)) = .ok j ∧
    ∃ u v, j.x[1]? = some u ∧ j.x[2]? = some v ∧ (v <. u) = true := by
  refine ⟨sortEnv_ok, ?_⟩
  have h : ((jcirc (sortEnv (F := Float64)) (Galaxy.ofBodies exOvershoot) (Num.ofRat (3/100))
      (Num.ofRat (1/200))).toOption.bind
        fun j => j.x[1]?.bind fun u => j.x[2]?.map fun v => v <. u) = some true := by
    decide +kernel
  cases hj : jcirc (sortEnv (F := Float64)) (Galaxy.ofBodies exOvershoot) (Num.ofRat (3/100))
      (Num.ofRat (1/200)) with
  | error e => rw [hj] at h; cases h
  | ok j =>
    rw [hj] at h
    simp only [Except.toOption, Option.bind_some, Option.bind_eq_some_iff,
      Option.map_eq_some_iff] at h
    obtain ⟨u, hu, v, hv, huv⟩ := h
    exact ⟨j, rfl, u, v, hu, hv, huv⟩

/-- the same galaxy with the default bins: the hypotheses of `C65_profile` hold -/
example : ∃ j : JCirc Float64, jcirc sortEnv (Galaxy.ofBodies exOvershoot)
    (defaultCbin (F := Float64)).1 defaultCbin.2 = .ok j ∧ j.x.length = 4 := by
  have h : ((jcirc (sortEnv (F := Float64)) (Galaxy.ofBodies exOvershoot)
      (defaultCbin (F := Float64)).1 defaultCbin.2).toOption.map fun j => j.x.length) = some 4 := by
    decide +kernel
  cases hj : jcirc (sortEnv (F := Float64)) (Galaxy.ofBodies exOvershoot)
      (defaultCbin (F := Float64)).1 defaultCbin.2 with
  | error e => rw [hj] at h; cases h
  | ok j => rw [hj] at h; exact ⟨j, rfl, by simpa [Except.toOption] using h⟩

end GChop
