import Verif.Props.DoubleInterp
import Verif.Props.Center
import Verif.Props.Threshold

/-!
# C94: the most bound star, when it does not rotate, has no circularity

The table of circular orbits begins with the particle of lowest energy.  If that particle has
`Jz = 0`, as it has when it sits at the origin, the table begins with height zero, and the star of
lowest energy is divided by it.
-/

set_option linter.unusedSectionVars false

namespace GChop
open Flt

/-- two doubles that differ, differ by more than half a unit in the last place of the larger one -/
theorem ratio_gap {u v : Float64} (hu : 0 ≤ value u) (h : value u < value v) :
    value u ≤ value v * (1 - 2 ^ (-53 : ℤ)) := by
  have hv : 0 < value v := lt_of_le_of_lt hu h
  have two : (1 : ℚ) < 2 := by norm_num
  -- both on the same grid
  have grid : ∀ k : ℤ, value v ≤ 2 ^ (k + 53) → (∃ n : ℤ, value u = n * 2 ^ k) →
      (∃ n : ℤ, value v = n * 2 ^ k) → value u ≤ value v * (1 - 2 ^ (-53 : ℤ)) := by
    rintro k hk ⟨n, hn⟩ ⟨m, hm⟩
    have hp : (0 : ℚ) < 2 ^ k := zpow_pos (by norm_num) _
    have hlt : n < m := by
      rw [hn, hm] at h
      exact_mod_cast (mul_lt_mul_iff_left₀ hp).1 h
    have h1 : (n : ℚ) + 1 ≤ m := by exact_mod_cast hlt
    have h2 : value u + 2 ^ k ≤ value v := by rw [hn, hm]; nlinarith
    have h3 : value v * 2 ^ (-53 : ℤ) ≤ 2 ^ k := by
      have h53 : (0 : ℚ) < 2 ^ (-53 : ℤ) := zpow_pos (by norm_num) _
      calc value v * 2 ^ (-53 : ℤ) ≤ 2 ^ (k + 53) * 2 ^ (-53 : ℤ) :=
            mul_le_mul_of_nonneg_right hk h53.le
        _ = 2 ^ k := by rw [← zpow_add₀ (by norm_num)]; congr 1; omega
    linarith
  set e := Int.log 2 (value v) with he
  have he1 : (2 : ℚ) ^ e ≤ value v := Int.zpow_log_le_self (by norm_num) hv
  have he2 : value v < 2 ^ (e + 1) := Int.lt_zpow_succ_log_self (by norm_num) _
  by_cases hsub : e < -1021
  · -- subnormal numbers and the smallest normal ones
    refine grid (-1074) ?_ (value_multiple u) (value_multiple v)
    refine he2.le.trans (zpow_le_zpow_right₀ two.le (by omega))
  · by_cases hbig : (2 : ℚ) ^ e ≤ value u
    · refine grid (e - 52) (he2.le.trans (zpow_le_zpow_right₀ two.le (by omega))) ?_ ?_
      · exact value_grid (by omega) (by rwa [abs_of_nonneg hu])
      · exact value_grid (by omega) (by rwa [abs_of_pos hv])
    · rw [not_le] at hbig
      by_cases hhalf : (2 : ℚ) ^ (e - 1) ≤ value u
      · by_cases heq : value v ≤ 2 ^ e
        · refine grid (e - 1 - 52) (heq.trans (zpow_le_zpow_right₀ two.le (by omega))) ?_ ?_
          · exact value_grid (by omega) (by rwa [abs_of_nonneg hu])
          · exact value_grid (by omega) (by
              rw [abs_of_pos hv]
              exact (zpow_le_zpow_right₀ two.le (by omega)).trans he1)
        · -- the power of two lies between them
          rw [not_le] at heq
          obtain ⟨n, hn⟩ := value_grid (a := v) (e := e) (by omega) (by rwa [abs_of_pos hv])
          have hp : (0 : ℚ) < 2 ^ (e - 52) := zpow_pos (by norm_num) _
          have hpe : (2 : ℚ) ^ e = (2 ^ 52 : ℤ) * 2 ^ (e - 52) := by
            have : ((2 ^ 52 : ℤ) : ℚ) = 2 ^ (52 : ℤ) := by norm_num
            rw [this, ← zpow_add₀ (by norm_num)]
            congr 1
            omega
          have hlt : (2 ^ 52 : ℤ) < n := by
            rw [hn, hpe] at heq
            exact_mod_cast (mul_lt_mul_iff_left₀ hp).1 heq
          have h1 : ((2 ^ 52 : ℤ) : ℚ) + 1 ≤ n := by exact_mod_cast hlt
          have h2 : 2 ^ e + 2 ^ (e - 52) ≤ value v := by
            rw [hn, hpe]
            nlinarith
          have h3 : value v * 2 ^ (-53 : ℤ) ≤ 2 ^ (e - 52) := by
            have h53 : (0 : ℚ) < 2 ^ (-53 : ℤ) := zpow_pos (by norm_num) _
            calc value v * 2 ^ (-53 : ℤ) ≤ 2 ^ (e + 1) * 2 ^ (-53 : ℤ) :=
                  mul_le_mul_of_nonneg_right he2.le h53.le
              _ = 2 ^ (e - 52) := by rw [← zpow_add₀ (by norm_num)]; congr 1; omega
          linarith
      · rw [not_le] at hhalf
        have hd : (2 : ℚ) ^ (e - 1) = 2 ^ e / 2 := by
          rw [zpow_sub₀ (by norm_num), zpow_one]
        have h53 : (2 : ℚ) ^ (-53 : ℤ) ≤ 1 / 2 := by norm_num
        rw [hd] at hhalf
        generalize (2 : ℚ) ^ (-53 : ℤ) = t at h53 ⊢
        generalize (2 : ℚ) ^ e = p at hhalf he1
        nlinarith

/-- a zero divided by anything is a zero or NaN -/
theorem zero_div_any {z J : Float64} (hz : (z ==. Num.ofRat 0) = true) :
    Num.isNaN (z /. J) = true ∨ ((z /. J) ==. Num.ofRat 0) = true := by
  obtain ⟨s, m, rfl, hm⟩ := eq_zero_iff.1 hz
  cases J with
  | nan => exact Or.inl rfl
  | inf t =>
    right
    obtain ⟨m0, hm0, e0⟩ := ofExact_zero (fmt := Fmt.binary64) (s != t)
    have e : ((fin s m : Float64) /. inf t) = fin (s != t) m0 := e0
    rw [e]
    exact eq_zero_iff.2 ⟨_, _, rfl, hm0⟩
  | fin t n =>
    by_cases hn : n.val = 0
    · left
      show Num.isNaN (div (fin s m) (fin t n)) = true
      rw [div_fin, if_pos hn, if_pos hm]
      rfl
    · right
      apply eq_zero_of_toExt
      rw [toExt_div (v := sval s m) (w := sval t n) rfl rfl (by
        unfold sval
        cases t <;> simpa using hn), sval_of_zero hm]
      simp [Fmt.srnd_zero]
      exact Fmt.binary64.clip_fin (by simpa using Fmt.binary64.maxFin_nonneg)

/-- NaN or zero over NaN or zero is NaN -/
theorem zero_div_zero_any {y z : Float64}
    (hy : Num.isNaN y = true ∨ (y ==. Num.ofRat 0) = true)
    (hz : Num.isNaN z = true ∨ (z ==. Num.ofRat 0) = true) : Num.isNaN (y /. z) = true := by
  rcases hz with hz | hz
  · cases z with
    | nan => cases y <;> rfl
    | fin s m => cases hz
    | inf s => cases s <;> cases hz
  · obtain ⟨t, n, rfl, hn⟩ := eq_zero_iff.1 hz
    rcases hy with hy | hy
    · cases y with
      | nan => rfl
      | fin s m => cases hy
      | inf s => cases s <;> cases hy
    · obtain ⟨s, m, rfl, hm⟩ := eq_zero_iff.1 hy
      show Num.isNaN (div (fin s m) (fin t n)) = true
      rw [div_fin, if_pos hn, if_pos hm]
      rfl

/-- at the first entry of a table the interpolation gives the first height -/
theorem interp1_first {env : CircEnv Float64} (henv : env.OK) {xs ys : List Float64} {y0 key : Float64}
    (hx0 : xs[0]? = some (Num.ofRat (-1))) (hy0 : ys[0]? = some y0)
    (hs : xs.Pairwise fun u v => (u <. v) = true) (hk : (key ==. Num.ofRat (-1)) = true) :
    Np.interp1 env.locate xs ys key = y0 := by
  rw [NumOrd.eq_def, Bool.and_eq_true] at hk
  have hkn : Num.isNaN key = false := (NumOrd.not_nan_of_le hk.1).1
  have hne : xs ≠ [] := by rintro rfl; cases hx0
  have hxd : xs.getD 0 Num.nan = Num.ofRat (-1) := by rw [List.getD_eq_getElem?_getD, hx0]; rfl
  have hyd : ys.getD 0 Num.nan = y0 := by rw [List.getD_eq_getElem?_getD, hy0]; rfl
  have hle : xs.Pairwise fun u v => (u <=. v) = true := hs.imp fun h => le_of_lt' h
  obtain ⟨hloc, hl⟩ := henv.locate xs key hne
  obtain ⟨hat, -⟩ := hl hle (by
    intro a ha
    rw [hx0] at ha
    cases ha
    exact hk.2)
  have hj : env.locate xs key = 0 := by
    by_contra hj
    have h1 := edges_lt hs (i := 0) (k := env.locate xs key) hx0
      (List.getElem?_eq_getElem hloc) (by omega)
    have h2 := hat _ (List.getElem?_eq_getElem hloc)
    have h3 := (lt_iff.1 h1).2
    rw [NumOrd.le_trans h2 hk.1] at h3
    cases h3
  have hlast : (xs.getD (xs.length - 1) Num.nan <. key) = false := by
    cases hc : (xs.getD (xs.length - 1) Num.nan <. key) with
    | false => rfl
    | true =>
      exfalso
      have hlt : xs.length - 1 < xs.length := by
        have := List.length_pos_iff.2 hne
        omega
      rw [List.getD_eq_getElem?_getD, List.getElem?_eq_getElem hlt, Option.getD_some] at hc
      have h0 : (Num.ofRat (-1) <=. xs[xs.length - 1]) = true := by
        by_cases h0 : xs.length - 1 = 0
        · have h1 : some (Num.ofRat (-1) : Float64) = some xs[xs.length - 1] := by
            rw [← hx0, ← List.getElem?_eq_getElem hlt, h0]
          rw [← Option.some.inj h1]
          exact le_refl' (NumOrd.not_nan_of_le hk.1).2
        · exact le_of_lt' (edges_lt hs hx0 (List.getElem?_eq_getElem hlt) (by omega))
      have h3 := (lt_iff.1 hc).2
      rw [NumOrd.le_trans hk.1 h0] at h3
      cases h3
  have hfirst : (key <. xs.getD 0 Num.nan) = false := by
    rw [hxd]
    exact not_lt_of_le hk.2
  have heq : (xs.getD 0 Num.nan ==. key) = true := by
    rw [hxd, NumOrd.eq_def, hk.1, hk.2]
    rfl
  unfold Np.interp1
  simp only [hkn, hlast, hfirst, hj, hyd, heq, Bool.false_eq_true, if_false, if_true]
  split
  · rfl
  · split <;> rfl

/-- the energy of a bound particle -/
theorem bound_value {e : Float64} (h : ¬ Unbound e) :
    Num.isFinite e = true ∧ toExt e = .fin (value e) ∧ value e ≤ 0 := by
  have h1 := isBound_eq_true.2 h
  unfold isBound at h1
  rw [Bool.and_eq_true, Bool.not_eq_true'] at h1
  have hle : Ext.le (toExt e) (toExt (ofExact false 0 : Float64)) = true := h1.1
  rw [toExt_zero] at hle
  have hf : Num.isFinite e = true := by
    cases e with
    | nan => cases hle
    | fin s m => rfl
    | inf s =>
      cases s
      · cases hle
      · exact absurd h1.2 (by decide)
  have hv := toExt_value hf
  refine ⟨hf, hv, ?_⟩
  rw [hv] at hle
  exact of_decide_eq_true hle

/-- C94: let the lowest energy of a bound particle be that of star `i`, and let every particle with
that energy have `Jz = 0`.  Then `jcirc` gives the star no circularity: `eps[i]` is NaN, because the
table of circular orbits begins with height zero.  Its normalised energy is not removed: it is -1,
unless the energy is zero. -/
theorem C94_lowest_star (env : CircEnv Float64) (henv : env.OK) (b : BGalaxy Float64)
    (bin0 bin1 : Float64) (hbins : BinsIncrease bin0 bin1) (j : JCirc Float64)
    (h : jcirc env (Galaxy.ofBodies b) bin0 bin1 = .ok j) (i : Nat) (a : Body Float64)
    (hi : b.stars[i]? = some a) (ha : ¬ Unbound a.energy)
    (hlow : ∀ c ∈ b.all, ¬ Unbound c.energy → (a.energy <=. c.energy) = true)
    (hrot : ∀ c ∈ b.all, (c.energy ==. a.energy) = true → (c.jz ==. Num.ofRat 0) = true) :
    (∃ e, j.eps[i]? = some e ∧ Num.isNaN e = true) ∧
      ((a.energy <. Num.ofRat 0) = true → ∃ e, j.normalizedStarEnergy[i]? = some e ∧
        (e ==. Num.ofRat (-1)) = true) := by
  obtain ⟨hlen, hhead, hinc, -, -, -⟩ := C65_profile env henv b bin0 bin1 hbins j h
  obtain ⟨_, _, n, hn, rfl⟩ := jcirc_inv h
  obtain ⟨hne, h1, h2, _, aux, hb, haux, hprof⟩ := circNorm_inv hn
  have hmem : a ∈ b.all := by
    unfold BGalaxy.all
    simp [List.mem_of_getElem? hi]
  have hab : a ∈ b.bound := mem_bound.2 ⟨hmem, ha⟩
  obtain ⟨fa, ta, na⟩ := bound_value ha
  have haz : (a.jz ==. Num.ofRat 0) = true := hrot a hmem (by
    rw [NumOrd.eq_def, le_refl' (NumOrd.finite_not_nan fa)]; rfl)
  -- the lowest energy
  have hnn : ∀ c ∈ b.bound, Num.isNaN c.energy = false := fun c hc =>
    NumOrd.finite_not_nan (bound_value (mem_bound.1 hc).2).1
  obtain ⟨⟨c0, hc0, hc0e⟩, hmin⟩ := isMinOf_amin h1 hnn
  obtain ⟨fc0, tc0, -⟩ := bound_value (mem_bound.1 hc0).2
  have hval : value n.eMin = value a.energy := by
    rw [← hc0e]
    apply le_antisymm
    · have := hmin a hab
      rw [← hc0e] at this
      have h3 : Ext.le (toExt c0.energy) (toExt a.energy) = true := this
      rw [ta, tc0] at h3
      exact of_decide_eq_true h3
    · have h3 : Ext.le (toExt a.energy) (toExt c0.energy) = true :=
        hlow c0 (mem_bound.1 hc0).1 (mem_bound.1 hc0).2
      rw [ta, tc0] at h3
      exact of_decide_eq_true h3
  have tmin : toExt n.eMin = .fin (value a.energy) := by rw [← hval, ← hc0e, tc0]
  have heps : Num.isNaN (n.eps env a) = true ∧
      ((a.energy <. Num.ofRat 0) = true → (n.e a ==. Num.ofRat (-1)) = true) := by
    rcases na.lt_or_eq with hneg | hzero
    · -- the energies are divided by a positive number
      have tabs : toExt (Num.abs n.eMin) = .fin (-value a.energy) := by
        obtain ⟨s, m, hs, hm⟩ := toExt_fin tmin
        rw [hs]
        show Ext.fin m.val = _
        rw [← hm] at hneg ⊢
        have := m.nonneg
        cases s
        · exact absurd hneg (not_lt.2 this)
        · show Ext.fin m.val = .fin (- -m.val)
          rw [neg_neg]
      have hpos : 0 < -value a.energy := by linarith
      have te : ∀ c ∈ b.bound, toExt (n.e c)
          = Fmt.binary64.clip (Fmt.binary64.srnd (value c.energy / -value a.energy)) :=
        fun c hc => toExt_div (bound_value (mem_bound.1 hc).2).2.1 tabs hpos.ne'
      have hone : ∀ x : ℚ, x = -1 → Fmt.binary64.clip (Fmt.binary64.srnd x) = .fin (-1) := by
        rintro x rfl
        rw [Fmt.binary64.srnd_neg_one]
        exact Fmt.binary64.clip_fin (by
          rw [abs_neg, abs_one]
          exact Fmt.binary64.one_le_maxFin)
      have tea : toExt (n.e a) = .fin (-1) := by
        rw [te a hab]
        apply hone
        rw [div_neg, div_self hneg.ne]
      have hka : (n.e a ==. Num.ofRat (-1)) = true := by
        show Ext.eq (toExt (n.e a)) (toExt (ofExact false (-1) : Float64)) = true
        rw [tea, toExt_neg_one]
        rfl
      refine ⟨?_, fun _ => hka⟩
      -- the first point of the table
      obtain ⟨i0, a0, harg, hget, hhd, -⟩ := profile_mem henv.argsort _ _ _ _ _ hne hprof
      have hab0 := List.mem_of_getElem? hget
      have hEnn : ∀ e ∈ b.bound.map n.e, Num.isNaN e = false := by
        intro e he
        obtain ⟨c, hc, rfl⟩ := List.mem_map.1 he
        have := te c hc
        cases hcase : n.e c with
        | fin s m => rfl
        | inf s => cases s <;> rfl
        | nan =>
          rw [hcase] at this
          unfold Fmt.clip at this
          split at this
          · cases this
          · split at this <;> cases this
      obtain ⟨i1, x1, harg1, hget1, hbest⟩ := argmin_spec hEnn (by simpa using hne)
      rw [harg] at harg1
      cases harg1
      rw [List.getElem?_map, hget] at hget1
      cases hget1
      obtain ⟨ka, hka'⟩ := List.mem_iff_getElem?.1 hab
      have hle0 := (hbest ka (n.e a) (by rw [List.getElem?_map, hka']; rfl)).1
      -- it has the lowest energy
      obtain ⟨fa0, ta0, na0⟩ := bound_value (mem_bound.1 hab0).2
      have hge : value a.energy ≤ value a0.energy := by
        have h3 : Ext.le (toExt a.energy) (toExt a0.energy) = true :=
          hlow a0 (mem_bound.1 hab0).1 (mem_bound.1 hab0).2
        rw [ta, ta0] at h3
        exact of_decide_eq_true h3
      have heq : value a0.energy = value a.energy := by
        by_contra hne'
        have hlt : value a.energy < value a0.energy := lt_of_le_of_ne hge (Ne.symm hne')
        have hgap := ratio_gap (u := Num.neg a0.energy) (v := Num.neg a.energy)
          (by rw [value_neg]; linarith) (by rw [value_neg, value_neg]; linarith)
        rw [value_neg, value_neg] at hgap
        have hq : -(1 - 2 ^ (-53 : ℤ)) ≤ value a0.energy / -value a.energy := by
          rw [le_div_iff₀ hpos]
          linarith
        have hmono := Fmt.binary64.srnd_mono hq
        have hgrid : Fmt.binary64.srnd (-(1 - 2 ^ (-53 : ℤ))) = -(1 - 2 ^ (-53 : ℤ)) := by
          decide +kernel
        rw [hgrid] at hmono
        have hup : Fmt.binary64.srnd (value a0.energy / -value a.energy) ≤ 0 := by
          have := Fmt.binary64.srnd_mono (div_nonpos_of_nonpos_of_nonneg na0 hpos.le)
          rwa [Fmt.binary64.srnd_zero] at this
        have h53 : (0 : ℚ) < 2 ^ (-53 : ℤ) := zpow_pos (by norm_num) _
        have t0 : toExt (n.e a0) = .fin (Fmt.binary64.srnd (value a0.energy / -value a.energy)) := by
          rw [te a0 hab0]
          refine Fmt.binary64.clip_fin ((abs_le.2 ⟨?_, ?_⟩).trans Fmt.binary64.one_le_maxFin)
          · linarith
          · linarith
        have h3 : Ext.le (toExt (n.e a0)) (toExt (n.e a)) = true := hle0
        rw [t0, tea] at h3
        have h4 : Fmt.binary64.srnd (value a0.energy / -value a.energy) ≤ -1 := of_decide_eq_true h3
        linarith
      have hz0 : (a0.jz ==. Num.ofRat 0) = true := by
        apply hrot a0 (mem_bound.1 hab0).1
        show Ext.eq (toExt a0.energy) (toExt a.energy) = true
        rw [ta0, ta, heq]
        simp [Ext.eq, Ext.le]
      -- the height there
      have hy0 : (n.pts.map (·.2))[0]? = some (Num.abs (n.jz a0)) := by
        rw [List.getElem?_map, ← List.head?_eq_getElem?, hhd]
        rfl
      have hx0 : (n.pts.map (·.1))[0]? = some (Num.ofRat (-1)) := by
        rw [List.getElem?_map, ← List.head?_eq_getElem?, hhd]
        rfl
      have hjc : n.jc env a = Num.abs (n.jz a0) := interp1_first henv hx0 hy0 hinc hka
      unfold CircNorm.eps
      rw [hjc]
      refine zero_div_zero_any (zero_div_any haz) ?_
      have hcase : Num.isNaN (n.jz a0) = true ∨ (n.jz a0 ==. Num.ofRat 0) = true := zero_div_any hz0
      generalize n.jz a0 = w at hcase
      rcases hcase with hw | hw
      · left
        cases w with
        | nan => rfl
        | fin s m => cases hw
        | inf s => cases s <;> cases hw
      · right
        obtain ⟨s, m, rfl, hm⟩ := eq_zero_iff.1 hw
        exact eq_zero_iff.2 ⟨false, m, rfl, hm⟩
    · -- all bound energies are zero, and no particle rotates
      have hJ : (n.jzMax ==. Num.ofRat 0) = true := by
        have hall : ∀ c ∈ b.bound, (c.jz ==. Num.ofRat 0) = true := by
          intro c hc
          obtain ⟨fc, tc, nc⟩ := bound_value (mem_bound.1 hc).2
          have h3 : Ext.le (toExt a.energy) (toExt c.energy) = true :=
            hlow c (mem_bound.1 hc).1 (mem_bound.1 hc).2
          rw [ta, tc] at h3
          have h4 : value a.energy ≤ value c.energy := of_decide_eq_true h3
          apply hrot c (mem_bound.1 hc).1
          show Ext.eq (toExt c.energy) (toExt a.energy) = true
          rw [tc, ta, hzero, le_antisymm nc (hzero ▸ h4)]
          simp [Ext.eq, Ext.le]
        obtain ⟨⟨c, hc, hcJ⟩, -⟩ := isMaxOf_amax h2 (by
          intro c hc
          obtain ⟨s, m, hs, hm⟩ := eq_zero_iff.1 (hall c hc)
          rw [hs]
          rfl)
        obtain ⟨s, m, hs, hm⟩ := eq_zero_iff.1 (hall c hc)
        have hcJ : Num.abs c.jz = n.jzMax := hcJ
        rw [← hcJ, hs]
        exact eq_zero_iff.2 ⟨false, m, rfl, hm⟩
      have hjz : Num.isNaN (n.jz a) = true := zero_div_zero_any (Or.inr haz) (Or.inr hJ)
      constructor
      · unfold CircNorm.eps
        generalize n.jz a = w at hjz
        cases w with
        | nan => cases n.jc env a <;> rfl
        | fin s m => cases hjz
        | inf s => cases s <;> cases hjz
      · intro hlt
        exfalso
        have h3 : Ext.lt (toExt a.energy) (toExt (ofExact false 0 : Float64)) = true := hlt
        rw [ta, toExt_zero, hzero] at h3
        simp [Ext.lt, Ext.le] at h3
  constructor
  · refine ⟨_, by simp only [circResult, List.getElem?_map, hi, Option.map_some]; rfl, ?_⟩
    split
    · exact heps.1
    · rfl
  · intro hlt
    refine ⟨n.e a, ?_, heps.2 hlt⟩
    have hk : keepEps (n.eps env a) = true := by
      unfold keepEps
      rw [lt_nan_left heps.1, lt_nan_right heps.1]
      rfl
    have hb : isBound a.energy = true := isBound_eq_true.2 ha
    simp only [circResult, List.getElem?_map, hi, Option.map_some, hb, hk, Bool.and_self, if_true]

/-- a particle at the origin does not rotate -/
theorem origin_jz {a : Body Float64} (hx : a.x = Num.ofRat 0) (hy : a.y = Num.ofRat 0)
    (hv : Num.isFinite a.vx = true ∧ Num.isFinite a.vy = true) :
    (a.jz ==. Num.ofRat 0) = true := by
  have hm : ∀ v : Float64, Num.isFinite v = true → toExt ((Num.ofRat 0 : Float64) *. v) = .fin 0 := by
    intro v hf
    refine (toExt_mul (v := 0) (w := value v) toExt_zero (toExt_value hf)).trans ?_
    rw [zero_mul, Fmt.binary64.srnd_zero]
    exact Fmt.binary64.clip_fin (by simpa using Fmt.binary64.maxFin_nonneg)
  apply eq_zero_of_toExt
  unfold Body.jz
  rw [hx, hy, toExt_sub (hm _ hv.2) (hm _ hv.1), sub_zero, Fmt.binary64.srnd_zero]
  exact Fmt.binary64.clip_fin (by simpa using Fmt.binary64.maxFin_nonneg)

/-- C94: if the particle of lowest potential, which `center` puts at the origin, is a star, and its
energy is lower than that of all other bound particles, then in the centred galaxy the star has no
circularity. -/
theorem C94_after_center (env : CircEnv Float64) (henv : env.OK) (b : BGalaxy Float64)
    (hp : b.hasPot = true) (bin0 bin1 : Float64) (hbins : BinsIncrease bin0 bin1)
    (i : Nat) (c : Body Float64) (hi : b.stars[i]? = some c) (hlow : LowestParticle b.all i c)
    (hlt : (c.pot <. Num.pinf) = true)
    (hpos : Num.isFinite c.x = true ∧ Num.isFinite c.y = true ∧ Num.isFinite c.z = true)
    (hv : Num.isFinite c.vx = true ∧ Num.isFinite c.vy = true) (hb : ¬ Unbound c.energy)
    (hmost : ∀ k d, b.all[k]? = some d → k ≠ i → ¬ Unbound d.energy →
      (c.energy <. d.energy) = true) :
    ∃ b' : BGalaxy Float64, center (Galaxy.ofBodies b) = .ok (Galaxy.ofBodies b') ∧
      ∀ j, jcirc env (Galaxy.ofBodies b') bin0 bin1 = .ok j →
        ∃ e, j.eps[i]? = some e ∧ Num.isNaN e = true := by
  have hidx := hlow.lowIdx_eq hlt
  have hc : b.all[lowIdx (b.all.map (·.pot))]? = some c := by rw [hidx]; exact hlow.1
  refine ⟨_, center_ofBodies b hp c hc, fun j hj => ?_⟩
  have hE : ∀ d : Body Float64, (d.shift c.x c.y c.z).energy = d.energy := fun _ => rfl
  refine (C94_lowest_star env henv _ bin0 bin1 hbins j hj i (c.shift c.x c.y c.z) ?_ ?_ ?_ ?_).1
  · show (b.stars.map _)[i]? = _
    rw [List.getElem?_map, hi]
    rfl
  · rw [hE]
    exact hb
  · intro d hd hbd
    rw [mapBodies_all, List.mem_map] at hd
    obtain ⟨d, hd, rfl⟩ := hd
    rw [hE] at hbd
    rw [hE, hE]
    obtain ⟨k, hk⟩ := List.mem_iff_getElem?.1 hd
    by_cases hki : k = i
    · rw [hki, hlow.1] at hk
      cases hk
      exact le_refl' (NumOrd.finite_not_nan (bound_value hb).1)
    · exact le_of_lt' (hmost k d hk hki hbd)
  · intro d hd heq
    rw [mapBodies_all, List.mem_map] at hd
    obtain ⟨d, hd, rfl⟩ := hd
    rw [hE, hE] at heq
    obtain ⟨k, hk⟩ := List.mem_iff_getElem?.1 hd
    have hki : k = i := by
      by_contra hki
      have hbd : ¬ Unbound d.energy := by
        rw [NumOrd.eq_def, Bool.and_eq_true] at heq
        obtain ⟨f, t, n⟩ := bound_value hb
        rintro (h1 | h1 | h1)
        · have h2 := (lt_iff.1 h1).2
          have h3 : (c.energy <=. Num.ofRat 0) = true := by
            have := isBound_eq_true.2 hb
            unfold isBound at this
            rw [Bool.and_eq_true] at this
            exact this.1
          rw [NumOrd.le_trans heq.1 h3] at h2
          cases h2
        · rw [NumOrd.eq_def, Bool.and_eq_true] at h1
          exact hb (Or.inr (Or.inl (by
            rw [NumOrd.eq_def, NumOrd.le_trans heq.2 h1.1, NumOrd.le_trans h1.2 heq.1]; rfl)))
        · rw [le_nan_left h1] at heq
          cases heq.1
      have h1 := (lt_iff.1 (hmost k d hk hki hbd)).2
      rw [NumOrd.eq_def, Bool.and_eq_true] at heq
      rw [heq.1] at h1
      cases h1
    rw [hki, hlow.1] at hk
    cases hk
    refine origin_jz (a := c.shift c.x c.y c.z) (NumIEEE.sub_self hpos.1) (NumIEEE.sub_self hpos.2.1) hv

/-- C94: `JThreshold` gives the star no label. -/
theorem C94_no_label (env : CircEnv Float64) (henv : env.OK) (b : BGalaxy Float64)
    (bin0 bin1 : Float64) (hbins : BinsIncrease bin0 bin1) (junk : Nat → Int) (cut : Float64)
    (hcut : Num.isNaN cut = false) (c : Components Float64)
    (h : decompose env (bin0, bin1) (jThreshold junk cut) (Galaxy.ofBodies b) = .ok c)
    (i : Nat) (a : Body Float64) (hi : b.stars[i]? = some a) (ha : ¬ Unbound a.energy)
    (hlow : ∀ c ∈ b.all, ¬ Unbound c.energy → (a.energy <=. c.energy) = true)
    (hrot : ∀ c ∈ b.all, (c.energy ==. a.energy) = true → (c.jz ==. Num.ofRat 0) = true) :
    c.labels[i]? = some none := by
  cases hj : jcirc env (Galaxy.ofBodies b) bin0 bin1 with
  | error e =>
    rw [C35_decompose_error env (bin0, bin1) b junk cut e hj] at h
    cases h
  | ok j =>
    obtain ⟨⟨e, he, hnan⟩, -⟩ := C94_lowest_star env henv b bin0 bin1 hbins j hj i a hi ha hlow hrot
    rw [C35_decompose env (bin0, bin1) b junk cut hcut j hj] at h
    have hc := (Except.ok.inj h).symm
    rw [hc]
    have hlt := (List.getElem?_eq_some_iff.1 he).1
    simp only [epsLabels]
    rw [List.getElem?_append_left (by simpa using hlt), List.getElem?_map, he, Option.map_some,
      Option.some.injEq]
    rw [if_neg]
    intro hf
    rw [NumOrd.finite_not_nan hf] at hnan
    cases hnan

/-- A star of lowest potential off the origin, two that move around it with different speeds and one
that is hardly bound. -/
def exCentral : BGalaxy Float64 where
  stars := [⟨Num.ofRat 1, Num.ofRat 5, Num.ofRat 2, Num.ofRat 0, Num.ofRat 0, Num.ofRat 0, Num.ofRat 0,
      Num.ofRat (-4)⟩,
    ⟨Num.ofRat 1, Num.ofRat 6, Num.ofRat 2, Num.ofRat 0, Num.ofRat 0, Num.ofRat 1, Num.ofRat 0,
      Num.ofRat (-2)⟩,
    ⟨Num.ofRat 1, Num.ofRat 6, Num.ofRat 2, Num.ofRat 0, Num.ofRat 0, Num.ofRat (1/2), Num.ofRat 0,
      Num.ofRat (-2)⟩,
    ⟨Num.ofRat 1, Num.ofRat 6, Num.ofRat 2, Num.ofRat 0, Num.ofRat 0, Num.ofRat (1/16), Num.ofRat 0,
      Num.ofRat (-1/100)⟩]
  dm := []
  gas := []
  hasPot := true
  softS := Num.ofRat 0
  softDm := Num.ofRat 0
  softG := Num.ofRat 0

/-- the labels of `JThreshold(0.7)` after `center`, and the finite circularities -/
example : ((center (Galaxy.ofBodies exCentral)).bind fun g =>
      (decompose sortEnv defaultCbin (jThreshold (fun _ => 7) (Num.ofRat (7/10))) g).bind fun c =>
      (jcirc sortEnv g defaultCbin.1 defaultCbin.2).map fun j =>
        (c.labels, j.eps.map Num.isFinite)) = .ok ([none, some 1, some 1, some 1], [false, true, true, true]) := by
  decide +kernel

/-- the hypotheses of `C94_after_center` hold -/
example : (match exCentral.stars with
    | c :: l => decide ((c.pot <. Num.pinf) = true) && l.all (fun d => (c.pot <. d.pot) && (c.energy <. d.energy))
    | [] => false) = true := by
  decide +kernel

end GChop
