import Verif.Props.DoubleInterp
import Verif.Props.Threshold

/-!
# C93: the labels of `JThreshold` in double precision

A label can differ from the rule `Jz > eps_cut * Jcirc`, evaluated exactly on the returned profile, only
for stars within `2^-49` of the border.
-/

namespace GChop
open Flt

/-- C93: in double precision a star with label 1 has `Jz / max|Jz| >= cut * L - 2^-49` and a star with
label 0 has `Jz / max|Jz| <= cut * L + 2^-49`, where `L` is the exact height of the polygon through the
returned profile at the returned energy of the star. -/
theorem C93_labels (env : CircEnv Float64) (henv : env.OK) (b : BGalaxy Float64)
    (bin0 bin1 : Float64) (hbins : BinsIncrease bin0 bin1)
    (hz : ∀ c ∈ b.all, ¬ Unbound c.energy → Num.isFinite c.jz = true)
    (junk : Nat → Int) (cut : Float64) (hcut : Num.isFinite cut = true) (c : Components Float64)
    (h : decompose env (bin0, bin1) (jThreshold junk cut) (Galaxy.ofBodies b) = .ok c)
    (i : Nat) (a : Body Float64) (ha : b.stars[i]? = some a) (l : Int)
    (hl : c.labels[i]? = some (some l)) :
    (l = 0 ∨ l = 1) ∧
      ∃ j : JCirc Float64, jcirc env (Galaxy.ofBodies b) bin0 bin1 = .ok j ∧
        ∀ k : Float64, j.normalizedStarEnergy[i]? = some k → Num.isFinite k = true →
        ∃ J L : ℝ, LargestOf b Body.jz J ∧ 0 < J ∧
          OnPolygon (reals j.x) (reals j.y) (value k) L ∧ (0 ≤ L ∧ L ≤ 1) ∧
          (l = 1 → value cut * L - 1 / 2 ^ 49 ≤ value a.jz / J) ∧
          (l = 0 → value a.jz / J ≤ value cut * L + 1 / 2 ^ 49) := by
  cases hj : jcirc env (Galaxy.ofBodies b) bin0 bin1 with
  | error e =>
    rw [C35_decompose_error env (bin0, bin1) b junk cut e hj] at h
    cases h
  | ok j =>
  have hcn : Num.isNaN cut = false := NumOrd.finite_not_nan hcut
  rw [C35_decompose env (bin0, bin1) b junk cut hcn j hj] at h
  have hc := (Except.ok.inj h).symm
  rw [hc] at hl
  have hlen : j.eps.length = b.stars.length := by
    have hal : CircAligned env (bin0, bin1) b ["eps"] j := circAligned_of_ok hj (by decide)
    exact (hal ⟨"eps", by simp, by decide⟩).2 "eps" (by simp) (by decide)
  have hi : i < j.eps.length := by
    rw [hlen]
    exact (List.getElem?_eq_some_iff.1 ha).1
  simp only [epsLabels] at hl
  rw [List.getElem?_append_left (by simpa using hi), List.getElem?_map,
    List.getElem?_eq_getElem hi, Option.map_some, Option.some.injEq] at hl
  split at hl
  swap
  · cases hl
  next fe =>
  have hl := Option.some.inj hl
  refine ⟨?_, j, rfl, fun k hk fk => ?_⟩
  · rw [← hl]
    split
    · exact Or.inr rfl
    · exact Or.inl rfl
  · obtain ⟨J, L, hJ, hJ0, hL, hL1, herr, -⟩ := C86_circularity env henv b bin0 bin1 hbins j hj hz i a
      ha k j.eps[i] hk (List.getElem?_eq_getElem hi) fk fe
    rw [abs_le] at herr
    refine ⟨J, L, hJ, hJ0, hL, hL1, fun h1 => ?_, fun h0 => ?_⟩
    · have hlt : (cut <. j.eps[i]) = true := by
        by_contra hn
        rw [if_neg hn] at hl
        omega
      have hv : (value cut : ℝ) < value j.eps[i] := by
        exact_mod_cast (lt_value (toExt_value hcut) (toExt_value fe)).1 hlt
      have := mul_le_mul_of_nonneg_right hv.le hL1.1
      linarith [herr.2]
    · have hge : ¬ (cut <. j.eps[i]) = true := by
        intro hlt
        rw [if_pos hlt] at hl
        omega
      have hv : (value j.eps[i] : ℝ) ≤ value cut := by
        by_contra hn
        refine hge ((lt_value (toExt_value hcut) (toExt_value fe)).2 ?_)
        exact_mod_cast not_le.1 hn
      have := mul_le_mul_of_nonneg_right hv hL1.1
      linarith [herr.1]

/-- C93: a labelled star that is farther than `2^-49` from the border has the label of the exact rule. -/
theorem C93_exact_rule (env : CircEnv Float64) (henv : env.OK) (b : BGalaxy Float64)
    (bin0 bin1 : Float64) (hbins : BinsIncrease bin0 bin1)
    (hz : ∀ c ∈ b.all, ¬ Unbound c.energy → Num.isFinite c.jz = true)
    (junk : Nat → Int) (cut : Float64) (hcut : Num.isFinite cut = true) (c : Components Float64)
    (h : decompose env (bin0, bin1) (jThreshold junk cut) (Galaxy.ofBodies b) = .ok c)
    (i : Nat) (a : Body Float64) (ha : b.stars[i]? = some a) (l : Int)
    (hl : c.labels[i]? = some (some l)) (j : JCirc Float64)
    (hj : jcirc env (Galaxy.ofBodies b) bin0 bin1 = .ok j) (k : Float64)
    (hk : j.normalizedStarEnergy[i]? = some k) (fk : Num.isFinite k = true) :
    ∃ J L : ℝ, LargestOf b Body.jz J ∧ 0 < J ∧ OnPolygon (reals j.x) (reals j.y) (value k) L ∧
      (value cut * L + 1 / 2 ^ 49 < value a.jz / J → l = 1) ∧
      (value a.jz / J < value cut * L - 1 / 2 ^ 49 → l = 0) := by
  obtain ⟨h01, j', hj', H⟩ := C93_labels env henv b bin0 bin1 hbins hz junk cut hcut c h i a ha l hl
  rw [hj] at hj'
  cases hj'
  obtain ⟨J, L, hJ, hJ0, hL, -, h1, h0⟩ := H k hk fk
  refine ⟨J, L, hJ, hJ0, hL, fun hlt => ?_, fun hlt => ?_⟩
  · rcases h01 with h | h
    · exact absurd (h0 h) (not_le.2 hlt)
    · exact h
  · rcases h01 with h | h
    · exact h
    · exact absurd (h1 h) (not_le.2 hlt)

/-- two stars of energy -1 with Jz = 3 and Jz = 1 -/
def exThird : BGalaxy Float64 where
  stars := [⟨Num.ofRat 1, Num.ofRat 3, Num.ofRat 0, Num.ofRat 0, Num.ofRat 0, Num.ofRat 1, Num.ofRat 0,
      Num.ofRat (-3/2)⟩,
    ⟨Num.ofRat 1, Num.ofRat 1, Num.ofRat 0, Num.ofRat 0, Num.ofRat 0, Num.ofRat 1, Num.ofRat 0,
      Num.ofRat (-3/2)⟩]
  dm := []
  gas := []
  hasPot := true
  softS := Num.ofRat 0
  softDm := Num.ofRat 0
  softG := Num.ofRat 0

/-- C93 (a margin is needed): the circularity of the second star is exactly 1/3, which is above the double
`1/3` used as the cut, but it rounds to the cut and the star is put into the spheroid. -/
theorem C93_margin_needed : (sortEnv (F := Float64)).OK ∧
    (decompose sortEnv defaultCbin (jThreshold (fun _ => 7) (Num.ofRat (1/3)))
      (Galaxy.ofBodies exThird)).toOption.map Components.labels = some [some 1, some 0] ∧
    (jcirc sortEnv (Galaxy.ofBodies exThird) defaultCbin.1 defaultCbin.2).toOption.map
      (fun j => (j.x, j.y)) = some ([Num.ofRat (-1)], [Num.ofRat 1]) ∧
    exThird.stars.map Body.jz = [Num.ofRat 3, Num.ofRat 1] ∧
    value (Num.ofRat (1/3) : Float64) * 1 < 1 / 3 :=
  ⟨sortEnv_ok, by decide +kernel, by decide +kernel, by decide +kernel, by decide +kernel⟩

/-- the hypotheses of `C93_labels` hold for this galaxy -/
example : (∀ c ∈ exThird.all, Num.isFinite c.jz = true) ∧
    (decompose sortEnv defaultCbin (jThreshold (fun _ => 7) (Num.ofRat (1/2)))
      (Galaxy.ofBodies exThird)).toOption.map Components.labels = some [some 1, some 0] ∧
    (jcirc sortEnv (Galaxy.ofBodies exThird) defaultCbin.1 defaultCbin.2).toOption.map
      (fun j => j.normalizedStarEnergy.map Num.isFinite) = some [true, true] := by
  refine ⟨by decide +kernel, by decide +kernel, by decide +kernel⟩

end GChop
