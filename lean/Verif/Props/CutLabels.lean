import Verif.Props.AlignedExample

/-! # Labels after `star_align` with a cutoff radius, in doubles

C112, C113, C115 and C116 allow a cutoff radius `r_cut`.  This file says what the cutoff does in doubles,
gives an example with a cutoff, and shows that a star on the edge can be on the wrong side. -/

namespace GChop
open Flt Matrix Finset

/-- the galaxy that keeps only the stars closer to the origin than `r`, in exact arithmetic -/
def keepInside (b : BGalaxy Float64) (r : Float64) : BGalaxy Float64 :=
  { b with stars := b.stars.filter fun a =>
      decide (value a.x ^ 2 + value a.y ^ 2 + value a.z ^ 2 < value r ^ 2) }

/-- No star is so close to the cutoff radius that rounding could matter. -/
def ClearOf (b : BGalaxy Float64) (r : Float64) : Prop :=
  Num.isFinite r = true ∧ 0 < value r ∧ ∀ a ∈ b.stars, (∀ i, Within 200 (a.pos i)) ∧
    (max (|value a.x| + |value a.y| + |value a.z|) (1 / 2 ^ 100)) ^ 2 / 2 ^ 47
      < |value a.x ^ 2 + value a.y ^ 2 + value a.z ^ 2 - value r ^ 2|

theorem ClearOf.inside {b : BGalaxy Float64} {r : Float64} (h : ClearOf b r) {a : Body Float64} (ha : a ∈ b.stars) :
    Body.inside (some r) a = decide (value a.x ^ 2 + value a.y ^ 2 + value a.z ^ 2 < value r ^ 2) := by
  obtain ⟨hp, hc⟩ := h.2.2 a ha
  have z : Within 200 (Num.ofRat 0 : Float64) := by unfold Within; decide +kernel
  let a' : Body Float64 := { a with m := Num.ofRat 0, vx := Num.ofRat 0, vy := Num.ofRat 0, vz := Num.ofRat 0 }
  have near : NearBody a' (kBody a') := by
    refine ⟨⟨z, rfl⟩, fun i => ?_, fun i => ?_⟩
    · have e : (kBody a').r i = (value (a.pos i) : ℝ) := by fin_cases i <;> rfl
      have e' : a'.pos i = a.pos i := by fin_cases i <;> rfl
      rw [e, e', sub_self, abs_zero]
      exact ⟨(hp i).1, by positivity, (hp i).real⟩
    · fin_cases i <;> exact ⟨z, rfl⟩
  have hr : (kBody a').r ⬝ᵥ (kBody a').r = ((value a.x ^ 2 + value a.y ^ 2 + value a.z ^ 2 : ℚ) : ℝ) := by
    rw [dot_self]
    simp only [kBody, a', Matrix.cons_val]
    push_cast
    ring
  have hs := sizeOf3_Q (kBody a').r (value a.x) (value a.y) (value a.z) rfl rfl rfl
  have := near.inside_cut h.1 h.2.1 (by
    rw [hr, hs]
    unfold sizeQ
    exact_mod_cast hc)
  rw [show Body.inside (some r) a = Body.inside (some r) a' from rfl, Bool.eq_iff_iff, this, decide_eq_true_eq, hr]
  exact_mod_cast Iff.rfl

theorem ClearOf.mask {b : BGalaxy Float64} {r : Float64} (h : ClearOf b r) :
    b.stars.filter (Body.inside (some r)) = (keepInside b r).stars :=
  List.filter_congr fun _ ha => h.inside ha

/-- C117: with a cutoff radius, `star_align` in doubles turns every particle by the very matrix that
`star_align` without a cutoff uses for the galaxy that keeps only the stars inside. -/
theorem C117_cut (sm : List Float64 → Float64) (dt : List (Float64 × Float64) → Float64)
    {b : BGalaxy Float64} {r : Float64} (h : ClearOf b r) :
    ∃ f : Body Float64 → Body Float64,
      @starAlign _ (sumDot sm dt) (Galaxy.ofBodies b) (some r) = .ok (Galaxy.ofBodies (b.mapBodies f)) ∧
      @starAlign _ (sumDot sm dt) (Galaxy.ofBodies (keepInside b r)) none
        = .ok (Galaxy.ofBodies ((keepInside b r).mapBodies f)) := by
  have hb : badCut (some r) = false := by
    show (r <=. ofExact false 0) = false
    rw [Bool.eq_false_iff, ne_eq, le_value (toExt_value h.1) toExt_zero]
    exact not_le.2 h.2.1
  refine ⟨_, @starAlign_ofBodies _ (sumDot sm dt) b (some r) hb, ?_⟩
  refine (@starAlign_ofBodies _ (sumDot sm dt) (keepInside b r) none rfl).trans ?_
  have e : ∀ f : Body Float64 → Float64, @totalInside _ (sumDot sm dt) none (keepInside b r).stars f
      = @totalInside _ (sumDot sm dt) (some r) b.stars f := by
    intro f
    show sm (((keepInside b r).stars.filter fun _ => true).map f)
      = sm ((b.stars.filter (Body.inside (some r))).map f)
    rw [h.mask, List.filter_eq_self.2 fun _ _ => rfl]
  unfold alignMatrix
  rw [e, e, e]
  rfl

/-- C117: with a cutoff radius, `is_star_aligned` in doubles answers as without a cutoff for the galaxy that
keeps only the stars inside. -/
theorem C117_is_aligned (sm : List Float64 → Float64) (dt : List (Float64 × Float64) → Float64)
    {b : BGalaxy Float64} {r : Float64} (h : ClearOf b r) (rtol atol : Float64) :
    @isStarAligned _ (sumDot sm dt) (Galaxy.ofBodies b) (some r) rtol atol
      = @isStarAligned _ (sumDot sm dt) (Galaxy.ofBodies (keepInside b r)) none rtol atol := by
  refine (@isStarAligned_ofBodies _ (sumDot sm dt) b (some r) rtol atol).trans
    (Eq.trans ?_ (@isStarAligned_ofBodies _ (sumDot sm dt) (keepInside b r) none rtol atol).symm)
  have e : ∀ f : Body Float64 → Float64, @totalInside _ (sumDot sm dt) none (keepInside b r).stars f
      = @totalInside _ (sumDot sm dt) (some r) b.stars f := by
    intro f
    show sm (((keepInside b r).stars.filter fun _ => true).map f)
      = sm ((b.stars.filter (Body.inside (some r))).map f)
    rw [h.mask, List.filter_eq_self.2 fun _ _ => rfl]
  rw [e, e, e]

/-- non-vacuity: of five stars, four are inside -/
example : ClearOf exTilt (Num.ofRat 41) ∧ (keepInside exTilt (Num.ofRat 41)).stars.length = 4 := by
  unfold ClearOf Within
  decide +kernel

/-! ## A star on the edge -/

/-- two stars: one at `(0, 1, 0)` and one at `(1, 1, 0)` -/
def exRim : BGalaxy Float64 where
  stars := [⟨Num.ofRat 1, Num.ofRat 0, Num.ofRat 1, Num.ofRat 0, Num.ofRat 0, Num.ofRat 0, Num.ofRat 3, Num.ofRat (-1)⟩,
    ⟨Num.ofRat 1, Num.ofRat 1, Num.ofRat 1, Num.ofRat 0, Num.ofRat 0, Num.ofRat 4, Num.ofRat 0, Num.ofRat (-1)⟩]
  dm := []
  gas := []
  hasPot := true
  softS := Num.ofRat 0
  softDm := Num.ofRat 0
  softG := Num.ofRat 0

/-- the double next to the square root of two -/
def exRimCut : Float64 := Num.sqrt (Num.ofRat 2)

theorem exRim_total : totalL (some (value exRimCut : ℝ)) (potGalaxy givenPot exRim).stars = ![3, 0, 4] := by
  have h : (2 : ℚ) < value exRimCut * value exRimCut ∧ 0 < value exRimCut := by decide +kernel
  have h1 : (2 : ℝ) < value exRimCut * value exRimCut := by exact_mod_cast h.1
  have h2 : (0 : ℝ) < value exRimCut := by exact_mod_cast h.2
  have v0 : value (Num.ofRat 0 : Float64) = 0 := by decide +kernel
  have v1 : value (Num.ofRat 1 : Float64) = 1 := by decide +kernel
  have v3 : value (Num.ofRat 3 : Float64) = 3 := by decide +kernel
  have v4 : value (Num.ofRat 4 : Float64) = 4 := by decide +kernel
  generalize (value exRimCut : ℝ) = r at *
  have k0 : KBody.inside (some r) (potBody givenPot exRim.stars[0]) = true := by
    simp only [KBody.inside, decide_eq_true_eq, dot_self]
    refine ⟨h2, ?_⟩
    simp [potBody, kBody, exRim, v0, v1]
    linarith
  have k1 : KBody.inside (some r) (potBody givenPot exRim.stars[1]) = true := by
    simp only [KBody.inside, decide_eq_true_eq, dot_self]
    refine ⟨h2, ?_⟩
    simp [potBody, kBody, exRim, v0, v1]
    linarith
  have e : (potGalaxy givenPot exRim).stars
    = [potBody givenPot exRim.stars[0], potBody givenPot exRim.stars[1]] := rfl
  unfold totalL
  rw [e, List.filter_cons_of_pos k0, List.filter_cons_of_pos k1]
  ext i
  fin_cases i <;> simp [KBody.L, potBody, kBody, exRim, v0, v1, v3, v4, cross_apply]

/-- C117, the edge: the distance of the second star is the square root of two, and the cutoff radius is a
little larger, so the star is inside.  In doubles the distance is rounded up to the cutoff radius and the star
is left out, so the axis is another one: the second star ends at height 1 instead of 3/5. -/
theorem C117_edge : ∃ b2 b2',
    starAlign (Galaxy.ofBodies exRim) (some exRimCut) = .ok (Galaxy.ofBodies b2) ∧
    starAlign (Galaxy.ofBodies (potGalaxy givenPot exRim).toB) (exactCut (some exRimCut))
      = .ok (Galaxy.ofBodies b2') ∧
    (b2.stars.map fun a => toExt a.z) = [.fin 0, .fin 1] ∧
    (b2'.stars.map fun a => a.z) = [.fin 0, .fin (3 / 5)] := by
  have hpos : ∀ x ∈ some (value exRimCut : ℝ), 0 < x := by
    have h : 0 < value exRimCut := by decide +kernel
    rintro x ⟨⟩
    exact_mod_cast h
  have hx := starAlign_toB (potGalaxy givenPot exRim) (some (value exRimCut : ℝ)) hpos
    (by rw [exRim_total]; left; norm_num)
  refine ⟨_, _, starAlign_ofBodies exRim (some exRimCut) (by decide +kernel), hx, by decide +kernel, ?_⟩
  rw [exRim_total]
  have v0 : value (Num.ofRat 0 : Float64) = 0 := by decide +kernel
  have v1 : value (Num.ofRat 1 : Float64) = 1 := by decide +kernel
  have h5 : HasSqrt.ksqrt (3 * 3 + 4 * 4 : ℝ) = 5 := by
    rw [show (3 * 3 + 4 * 4 : ℝ) = 5 ^ 2 by norm_num]
    exact Real.sqrt_sq (by norm_num)
  have e : (potGalaxy givenPot exRim).stars
    = [potBody givenPot exRim.stars[0], potBody givenPot exRim.stars[1]] := rfl
  simp only [KGalaxy.rotate, KGalaxy.map, KGalaxy.toB, e, List.map_cons, List.map_nil]
  simp [KBody.rotate, KBody.body, alignK, h5, potBody, kBody, exRim, v0, v1]

/-! ## An example with a cutoff radius -/

/-- the cutoff leaves out the fifth star -/
def exTiltCut : Option Float64 := some (Num.ofRat 30)

def exTiltCutN : ℚ := 1625 / 256

theorem exTiltCut_euclid : euclid (totalJ exTiltCut exTilt exTiltCentre) = exTiltCutN :=
  euclid_Q (by decide +kernel) (by decide +kernel)

theorem exTiltCut_turning : Turning exTiltCut exTilt givenPot (fun _ => 0) 5 exTiltCentre where
  hasPot := rfl
  mass := exTilt_turning.mass
  pos := exTilt_turning.pos
  vel := exTilt_turning.vel
  pot := exTilt_turning.pot
  centre := exTilt_turning.centre
  lowest := exTilt_turning.lowest
  size := exTilt_turning.size
  cut := by
    rintro r ⟨⟩
    have h : ∀ a ∈ exTilt.stars, sizeQ (value a.x - value exTiltCentre.x) (value a.y - value exTiltCentre.y)
        (value a.z - value exTiltCentre.z) ^ 2 / 2 ^ 47
        < |cutDist exTiltCentre a - value (Num.ofRat 30 : Float64) ^ 2| := by decide +kernel
    refine ⟨by decide +kernel, by decide +kernel, fun a ha => ?_⟩
    rw [sizeOf3_Q _ (value a.x - value exTiltCentre.x) (value a.y - value exTiltCentre.y)
      (value a.z - value exTiltCentre.z) (by simp [kBody]) (by simp [kBody]) (by simp [kBody])]
    exact_mod_cast h a ha
  total i := by
    rw [totalJ_Q]
    have h : ∀ i, |totalQ exTiltCut exTilt exTiltCentre i| ≤ 2 ^ (199 : ℤ) := by decide +kernel
    exact_mod_cast h i
  axis := ⟨0, by decide, by
      rw [totalJ_Q]
      have h : (2 : ℚ) ^ (-199 : ℤ) ≤ |totalQ exTiltCut exTilt exTiltCentre 0| := by decide +kernel
      have h := (Rat.cast_le (K := ℝ)).2 h
      rwa [Rat.cast_zpow, Rat.cast_abs, Rat.cast_ofNat] at h, by
      rw [totalJ_Q, starLoad_Q]
      have h : loadQ exTiltCut exTilt exTiltCentre ≤ 2 ^ 48 * |totalQ exTiltCut exTilt exTiltCentre 0| := by
        decide +kernel
      exact_mod_cast h⟩

/-- all stars move in one plane, so the axis is the same as without a cutoff -/
theorem exTiltCut_axis : axisJz exTiltCut exTilt exTiltCentre = axisJz none exTilt exTiltCentre := by
  funext a
  rw [axis_Q exTiltCut_euclid, axis_Q exTilt_euclid, Rat.cast_inj]
  have h : ∀ i, totalQ exTiltCut exTilt exTiltCentre i * exTiltN = totalQ none exTilt exTiltCentre i * exTiltCutN := by
    decide +kernel
  have hn : exTiltN ≠ 0 := by unfold exTiltN; norm_num
  have hc : exTiltCutN ≠ 0 := by unfold exTiltCutN; norm_num
  unfold axisQ
  rw [div_eq_div_iff hc hn]
  linear_combination aboutQ exTiltCentre a 0 * h 0 + aboutQ exTiltCentre a 1 * h 1 + aboutQ exTiltCentre a 2 * h 2

theorem exTiltCut_resolved : AxisResolved exTiltCut exTilt givenPot (fun _ => 0) exTiltCentre 1 (exTiltJ : ℝ)
    ((1 / 2 ^ 32 : ℚ) : ℝ) where
  zero := by rw [exTiltCut_axis]; exact exTilt_resolved.zero
  sign := exTilt_resolved.sign
  M_pos := exTilt_resolved.M_pos
  M_le := exTilt_resolved.M_le
  M_eq := exTilt_resolved.M_eq
  J_pos := exTilt_resolved.J_pos
  J_le := by rw [exTiltCut_axis]; exact exTilt_resolved.J_le
  J_eq := by rw [exTiltCut_axis]; exact exTilt_resolved.J_eq
  E := exTilt_resolved.E
  Jz a ha := by
    rw [orbitE_Q, axisErr_Q exTiltCut_euclid, ← Rat.cast_mul, Rat.cast_le, show (0 : ℝ) = ((0 : ℚ) : ℝ) by norm_num,
      Rat.cast_lt]
    revert a; decide +kernel

/-- `center` and `star_align` with the cutoff -/
def exTiltCutRun : Py (Galaxy Float64) := center (Galaxy.ofBodies exTilt) >>= fun g => starAlign g exTiltCut

theorem exTiltCutRun_table : TiltTable exTiltCutRun := by
  unfold TiltTable
  decide +kernel

theorem exTiltCutRun_threshold : (exTiltCutRun.toOption.bind fun b2 =>
    (decompose sortEnv defaultCbin (jThreshold (fun _ => 9) (Num.ofRat (1/2))) b2).toOption.map
      Components.labels) = some [some 1, some 0, some 0, none, some 1, none] := by
  decide +kernel

theorem exTiltCut_distinct : StayDistinct Num.sum Num.dot exTiltCut exTilt exTiltCentre := by
  have h : ∀ a ∈ exTilt.all, ∀ d ∈ exTilt.all, alignedBody Num.sum Num.dot exTiltCut exTilt exTiltCentre a
      = alignedBody Num.sum Num.dot exTiltCut exTilt exTiltCentre d → a = d := by decide +kernel
  exact h

/-- C117: the example satisfies the hypotheses of C112 with a cutoff radius that leaves out one star of five,
so the labels after `center` and `star_align` are those of exact arithmetic. -/
theorem C117_example : (cutStars exTiltCut exTilt exTiltCentre).length = 4 ∧ ∃ b2 b2' c c',
    (center (Galaxy.ofBodies exTilt) >>= fun g => starAlign g exTiltCut) = .ok b2 ∧
    (center (Galaxy.ofBodies (potGalaxy givenPot exTilt).toB) >>= fun g => starAlign g (exactCut exTiltCut))
      = .ok b2' ∧
    decompose sortEnv defaultCbin (jThreshold (fun _ => 9) (Num.ofRat (1/2))) b2 = .ok c ∧
    decompose sortEnv defaultCbin (jThreshold (fun _ => 9) (.fin (1/2))) b2' = .ok c' ∧
    c'.labels = [some 1, some 0, some 0, none, some 1, none] ∧ c.labels = c'.labels := by
  refine ⟨by decide +kernel, ?_⟩
  have δ49 : 3 * ((1 / 2 ^ 32 : ℚ) : ℝ) + 1 / 2 ^ 49 ≤ ((1 / 2 ^ 29 : ℚ) : ℝ) := by norm_num
  have θ4 : ((1 / 2 ^ 32 : ℚ) : ℝ) ≤ 1 / 4 := by norm_num
  have hp : exTiltCutRun = .ok _ := exTiltCut_turning.double (sm := Num.sum) (dt := Num.dot)
  have hp' := exTiltCut_turning.exact
  have hag := exTiltCut_turning.agrees (sm := Num.sum) (dt := Num.dot) C81_orders.1 fused_dot exTiltCut_resolved θ4 δ49
    (by rw [exTiltCut_axis]; exact exTilt_clear) sortEnv sortEnv_ok sortEnv sortEnv_ok exTiltCut_distinct
  rw [exTiltCut_axis] at hag
  obtain ⟨j', hj', hx, hy⟩ := exTilt_tables hp exTiltCutRun_table hag
  have hcut : value (Num.ofRat (1/2) : Float64) = 1 / 2 := by decide +kernel
  have fcut : Num.isFinite (Num.ofRat (1/2) : Float64) = true := by decide +kernel
  obtain ⟨c, c', hc, hc', hl1, -⟩ := hag.threshold j' hj' _ _ (1 / 8) hx hy (by norm_num) exTilt_gaps
    (fun _ => 9) (fun _ => 9) (Num.ofRat (1/2)) fcut (by rw [hcut]; exact fun a ha _ => exTilt_half a ha)
  have r1 := exTiltCutRun_threshold
  rw [hp] at r1
  simp only [Except.toOption, Option.bind_some] at r1
  refine ⟨_, _, c, c', hp, hp', hc, ?_, ?_, hl1⟩
  · rw [hcut] at hc'
    push_cast at hc'
    exact hc'
  · rw [← hl1]
    rw [hc] at r1
    exact Option.some.inj r1

end GChop
