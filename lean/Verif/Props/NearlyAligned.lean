import Verif.Props.DoubleAlign

/-!
# C121: `star_align` of a nearly aligned galaxy in double precision

`star_align` divides by the part of the total angular momentum across the z axis
(galaxychop/utils/_align.py:35-85).  The direction of that part, however small it is, decides by which
angle the galaxy is turned about the z axis.  After an alignment it is rounding noise (C104).
-/

namespace GChop
open Matrix Flt

/-- `w` is `v` turned about the z axis by the angle with cosine `c` and sine `s`, then, for `t = -1`,
by half a turn about the x axis, each coordinate up to `e` times the size of `v` and the rounding of
C81. -/
def TurnedTo (c s t e : ℝ) (v w : Fin 3 → Float64) : Prop :=
  ∀ i, Num.isFinite (w i) = true ∧
    |(value (w i) : ℝ) - ![c * value (v 0) - s * value (v 1), t * (s * value (v 0) + c * value (v 1)),
        t * value (v 2)] i|
      ≤ (|(value (v 0) : ℝ)| + |(value (v 1) : ℝ)| + |(value (v 2) : ℝ)|) * (e + 1 / 2 ^ 47)
        + 2 ^ (-1070 : ℤ)

/-- the sum of three products with small factors -/
theorem three_small {a b c e x y z : ℝ} (ha : |a| ≤ e) (hb : |b| ≤ e) (hc : |c| ≤ e) :
    |a * x + b * y + c * z| ≤ (|x| + |y| + |z|) * e := by
  have h1 : |a * x| ≤ e * |x| := by rw [abs_mul]; gcongr
  have h2 : |b * y| ≤ e * |y| := by rw [abs_mul]; gcongr
  have h3 : |c * z| ≤ e * |z| := by rw [abs_mul]; gcongr
  have h4 := abs_add_three (a * x) (b * y) (c * z)
  linarith

/-- the exact rotation of a nearly aligned total is nearly a turn about the z axis -/
theorem alignK_turn {J : Fin 3 → ℝ} (hp : J 0 ≠ 0 ∨ J 1 ≠ 0) {t : ℝ}
    (hz : t = 1 ∧ 0 < J 2 ∨ t = -1 ∧ J 2 < 0) {e : ℝ} (he : 0 ≤ e)
    (he1 : e ≤ 1) (h : J 0 ^ 2 + J 1 ^ 2 ≤ e ^ 2 * (J 0 ^ 2 + J 1 ^ 2 + J 2 ^ 2)) :
    ∃ c s : ℝ, c ^ 2 + s ^ 2 = 1 ∧ c * Real.sqrt (J 0 ^ 2 + J 1 ^ 2) = J 1 ∧
      s * Real.sqrt (J 0 ^ 2 + J 1 ^ 2) = J 0 ∧
      ∀ (v : Fin 3 → ℝ) (i : Fin 3),
        |(alignK J *ᵥ v) i - ![c * v 0 - s * v 1, t * (s * v 0 + c * v 1), t * v 2] i|
          ≤ (|v 0| + |v 1| + |v 2|) * e := by
  have hpp : 0 < J 0 ^ 2 + J 1 ^ 2 := by have := perp_pos hp; nlinarith
  set p := Real.sqrt (J 0 ^ 2 + J 1 ^ 2) with hpd
  set j := Real.sqrt (J 0 ^ 2 + J 1 ^ 2 + J 2 ^ 2) with hjd
  have p0 : 0 < p := Real.sqrt_pos.2 hpp
  have j0 : 0 < j := Real.sqrt_pos.2 (by positivity)
  have p2 : p ^ 2 = J 0 ^ 2 + J 1 ^ 2 := Real.sq_sqrt hpp.le
  have j2 : j ^ 2 = J 0 ^ 2 + J 1 ^ 2 + J 2 ^ 2 := Real.sq_sqrt (by positivity)
  have hA : alignK J = !![J 1 / p, -J 0 / p, 0;
      J 0 * J 2 / (p * j), J 1 * J 2 / (p * j), -p / j; J 0 / j, J 1 / j, J 2 / j] := by
    simp only [alignK, dot_self, HasSqrt.ksqrt, hpd, hjd, sq]
  have pj : p ≤ e * j := by
    refine abs_le_of_sq_le_sq' ?_ (by positivity) |>.2
    rw [_root_.mul_pow, p2, j2]; exact h
  have b0 : |J 0| ≤ p := Real.abs_le_sqrt (by nlinarith [sq_nonneg (J 1)])
  have b1 : |J 1| ≤ p := Real.abs_le_sqrt (by nlinarith [sq_nonneg (J 0)])
  have hpe : p / j ≤ e := by rw [div_le_iff₀ j0]; exact pj
  have h0 : |J 0 / j| ≤ e := by
    rw [abs_div, abs_of_pos j0]; exact (div_le_div_of_nonneg_right b0 j0.le).trans hpe
  have h1 : |J 1 / j| ≤ e := by
    rw [abs_div, abs_of_pos j0]; exact (div_le_div_of_nonneg_right b1 j0.le).trans hpe
  have tt : (J 2 / j) ^ 2 + (p / j) ^ 2 = 1 := by
    field_simp; linarith
  have hq : (p / j) ^ 2 ≤ e := by
    have : 0 ≤ p / j := by positivity
    nlinarith
  have h2 : |J 2 / j - t| ≤ e := by
    rcases hz with ⟨rfl, hz⟩ | ⟨rfl, hz⟩
    · have t0 : 0 < J 2 / j := by positivity
      have t1 : J 2 / j ≤ 1 := by nlinarith [sq_nonneg (p / j)]
      rw [abs_sub_comm, abs_of_nonneg (by linarith)]
      nlinarith
    · have t0 : J 2 / j < 0 := div_neg_of_neg_of_pos hz j0
      have t1 : -1 ≤ J 2 / j := by nlinarith [sq_nonneg (p / j)]
      rw [abs_of_nonneg (by linarith)]
      nlinarith
  have cs : (J 1 / p) ^ 2 + (J 0 / p) ^ 2 = 1 := by field_simp; linarith
  have c1 : |J 1 / p| ≤ 1 := by rw [abs_div, abs_of_pos p0, div_le_one p0]; exact b1
  have s1 : |J 0 / p| ≤ 1 := by rw [abs_div, abs_of_pos p0, div_le_one p0]; exact b0
  refine ⟨J 1 / p, J 0 / p, cs, by field_simp, by field_simp, fun v i => ?_⟩
  rw [hA]
  have hv : 0 ≤ (|v 0| + |v 1| + |v 2|) * e := by positivity
  fin_cases i
  · have : (!![J 1 / p, -J 0 / p, 0; J 0 * J 2 / (p * j), J 1 * J 2 / (p * j), -p / j;
        J 0 / j, J 1 / j, J 2 / j] *ᵥ v) 0 - (J 1 / p * v 0 - J 0 / p * v 1) = 0 := by
      simp [mulVec, dotProduct, Fin.sum_univ_three]; ring
    show |_ - (J 1 / p * v 0 - J 0 / p * v 1)| ≤ _
    rw [show ((fun i => i) ⟨0, by decide⟩ : Fin 3) = 0 from rfl, this, abs_zero]
    exact hv
  · have : (!![J 1 / p, -J 0 / p, 0; J 0 * J 2 / (p * j), J 1 * J 2 / (p * j), -p / j;
        J 0 / j, J 1 / j, J 2 / j] *ᵥ v) 1 - t * (J 0 / p * v 0 + J 1 / p * v 1)
        = J 0 / p * (J 2 / j - t) * v 0 + J 1 / p * (J 2 / j - t) * v 1 + -(p / j) * v 2 := by
      simp [mulVec, dotProduct, Fin.sum_univ_three]; field_simp; ring
    show |_ - t * (J 0 / p * v 0 + J 1 / p * v 1)| ≤ _
    rw [show ((fun i => i) ⟨1, by decide⟩ : Fin 3) = 1 from rfl, this]
    refine three_small ?_ ?_ ?_
    · rw [abs_mul]; exact (mul_le_of_le_one_left (abs_nonneg _) s1).trans h2
    · rw [abs_mul]; exact (mul_le_of_le_one_left (abs_nonneg _) c1).trans h2
    · rw [abs_neg, abs_of_nonneg (by positivity)]; exact hpe
  · have : (!![J 1 / p, -J 0 / p, 0; J 0 * J 2 / (p * j), J 1 * J 2 / (p * j), -p / j;
        J 0 / j, J 1 / j, J 2 / j] *ᵥ v) 2 - t * v 2
        = J 0 / j * v 0 + J 1 / j * v 1 + (J 2 / j - t) * v 2 := by
      simp [mulVec, dotProduct, Fin.sum_univ_three]; ring
    show |_ - t * v 2| ≤ _
    rw [show ((fun i => i) ⟨2, by decide⟩ : Fin 3) = 2 from rfl, this]
    exact three_small h0 h1 h2

theorem turned_of_rotated {J : Fin 3 → ℝ} {c s t e : ℝ} {v w : Fin 3 → Float64}
    (ht : ∀ (v : Fin 3 → ℝ) (i : Fin 3),
        |(alignK J *ᵥ v) i - ![c * v 0 - s * v 1, t * (s * v 0 + c * v 1), t * v 2] i|
          ≤ (|v 0| + |v 1| + |v 2|) * e)
    (h : RotatedTo (alignK J) v w) : TurnedTo c s t e v w := by
  intro i
  refine ⟨(h i).1, (abs_sub_le _ _ _).trans
    ((add_le_add (h i).2 (ht (fun j => (value (v j) : ℝ)) i)).trans (le_of_eq ?_))⟩
  ring

/-- C121: if the total of the stars as computed is nearly on the z axis, with a part across it of at
most `e` times the whole, then `star_align` turns every position and velocity about the z axis, up to
`e` and rounding, by the angle that takes the part across the z axis to the y axis, and if the total
points down also by half a turn about the x axis.  The angle does not depend on how small the part
across the axis is. -/
theorem C121_turn (sm : List Float64 → Float64) (dt : List (Float64 × Float64) → Float64)
    (hd : ∀ l, Fused l (dt l)) (b : BGalaxy Float64)
    (rCut : Option Float64) (hc : ∀ c ∈ rCut, (c <=. Num.ofRat 0) = false) (X Y Z : Float64)
    (hX : X = sm ((b.stars.filter (Body.inside rCut)).map fun a => a.m *. a.jx))
    (hY : Y = sm ((b.stars.filter (Body.inside rCut)).map fun a => a.m *. a.jy))
    (hZ : Z = sm ((b.stars.filter (Body.inside rCut)).map fun a => a.m *. a.jz))
    (ht : Tilted X Y Z) (t : ℝ)
    (hz : t = 1 ∧ 0 < value Z ∨ t = -1 ∧ value Z < 0) (e : ℝ) (he : 0 ≤ e) (he1 : e ≤ 1)
    (hn : (value X : ℝ) ^ 2 + (value Y : ℝ) ^ 2
      ≤ e ^ 2 * ((value X : ℝ) ^ 2 + (value Y : ℝ) ^ 2 + (value Z : ℝ) ^ 2))
    (hw : ∀ a ∈ b.all, ∀ i, Within 990 (a.pos i) ∧ Within 990 (a.vel i)) :
    ∃ c s : ℝ, c ^ 2 + s ^ 2 = 1 ∧
      c * Real.sqrt ((value X : ℝ) ^ 2 + (value Y : ℝ) ^ 2) = value Y ∧
      s * Real.sqrt ((value X : ℝ) ^ 2 + (value Y : ℝ) ^ 2) = value X ∧
      ∃ b' : BGalaxy Float64,
        @starAlign _ (sumDot sm dt) (Galaxy.ofBodies b) rCut = .ok (Galaxy.ofBodies b') ∧
        b'.all.length = b.all.length ∧
        ∀ (j : Nat) (a a' : Body Float64), b.all[j]? = some a → b'.all[j]? = some a' →
          TurnedTo c s t e a.pos a'.pos ∧ TurnedTo c s t e a.vel a'.vel ∧ a'.m = a.m ∧ a'.pot = a.pot := by
  have hperp := ht.perp_ne
  have hR := alignK_mem hperp
  have hbad : @badCut _ (sumDot sm dt) rCut = false := by
    cases rCut with
    | none => rfl
    | some c => exact hc c rfl
  have hent := matrix_entries ht
  obtain ⟨c, s, h1, h2, h3, h4⟩ := alignK_turn (J := realJ X Y Z) hperp
    (by simpa [realJ] using hz) he he1 (by simpa [realJ] using hn)
  refine ⟨c, s, h1, by simpa [realJ] using h2, by simpa [realJ] using h3, _,
    @starAlign_ofBodies _ (sumDot sm dt) b rCut hbad, by simp [mapBodies_all], ?_⟩
  intro j a a' g1 g2
  have ha := hw a (List.mem_of_getElem? g1)
  rw [mapBodies_all, List.getElem?_map, g1] at g2
  obtain rfl := Option.some.inj g2
  have hA : @alignMatrix _ (sumDot sm dt) rCut b.stars = rotFromJ X Y Z := by
    rw [hX, hY, hZ]
    rfl
  rw [hA]
  obtain ⟨r1, r2, r3, r4⟩ := rot_rotated (sm := sm) hd hR hent ha
  exact ⟨turned_of_rotated h4 r1, turned_of_rotated h4 r2, r3, r4⟩

/-! ## Galaxies of one star -/

/-- a star at (-2, 0, -3) with velocity (-1, -1, 0) -/
def exHalfTurn : BGalaxy Float64 := starsOnly [starAt (dv (-2) 0 (-3)) (dv (-1) (-1) 0)]

/-- C121 (the angle of a second alignment can be large): for one star at (-2, 0, -3) with velocity (-1, -1, 0) the
first alignment leaves a total with a part of about `3e-16` across the z axis, in the direction -y, and
the second alignment turns the galaxy by half a turn: `x`, `y` and `vx` change sign exactly. -/
theorem C121_half_turn : ∃ b₁ b₂ : BGalaxy Float64,
    starAlign (Galaxy.ofBodies exHalfTurn) none = .ok (Galaxy.ofBodies b₁) ∧
    starAlign (Galaxy.ofBodies b₁) none = .ok (Galaxy.ofBodies b₂) ∧
    isStarAligned (Galaxy.ofBodies b₁) none (Num.ofRat (1 / 10 ^ 5)) (Num.ofRat (1 / 10 ^ 8)) = .ok true ∧
    b₁.all.length = 1 ∧ b₂.all.length = 1 ∧ ∀ a₁ ∈ b₁.all, ∀ a₂ ∈ b₂.all,
      value a₁.x < -1 ∧ 3 < value a₁.y ∧ value a₁.vx < -1 ∧
      value a₂.x = -value a₁.x ∧ value a₂.y = -value a₁.y ∧ value a₂.vx = -value a₁.vx :=
  ⟨_, _, starAlign_ofBodies exHalfTurn none rfl, starAlign_ofBodies _ none rfl,
    by rw [isStarAligned_ofBodies]; decide +kernel, by decide +kernel, by decide +kernel, by decide +kernel⟩

/-- C121 (a tiny change turns the galaxy round): two galaxies of one star at (1, 0, 0) with velocities
(0, 1, 2^-100) and (0, 1, -2^-100).  Both are star aligned with the default tolerances, and after
`star_align` they are half a turn apart. -/
theorem C121_jump : ∃ b₁ b₂ : BGalaxy Float64,
    starAlign (Galaxy.ofBodies (starsOnly [starAt (dv 1 0 0) (dv 0 1 (1 / 2 ^ 100))])) none
      = .ok (Galaxy.ofBodies b₁) ∧
    starAlign (Galaxy.ofBodies (starsOnly [starAt (dv 1 0 0) (dv 0 1 (-1 / 2 ^ 100))])) none
      = .ok (Galaxy.ofBodies b₂) ∧
    (∀ a ∈ b₁.all, value a.x = -1 ∧ value a.vy = -1) ∧ (∀ a ∈ b₂.all, value a.x = 1 ∧ value a.vy = 1) ∧
    b₁.all.length = 1 ∧ b₂.all.length = 1 ∧
    isStarAligned (Galaxy.ofBodies (starsOnly [starAt (dv 1 0 0) (dv 0 1 (1 / 2 ^ 100))])) none
      (Num.ofRat (1 / 10 ^ 5)) (Num.ofRat (1 / 10 ^ 8)) = .ok true ∧
    isStarAligned (Galaxy.ofBodies (starsOnly [starAt (dv 1 0 0) (dv 0 1 (-1 / 2 ^ 100))])) none
      (Num.ofRat (1 / 10 ^ 5)) (Num.ofRat (1 / 10 ^ 8)) = .ok true := by
  refine ⟨_, _, starAlign_ofBodies _ none rfl, starAlign_ofBodies _ none rfl, ?_, ?_, ?_, ?_, ?_, ?_⟩
  · decide +kernel
  · decide +kernel
  · decide +kernel
  · decide +kernel
  · rw [isStarAligned_ofBodies]; decide +kernel
  · rw [isStarAligned_ofBodies]; decide +kernel

/-- the hypotheses of C121_turn hold for the star of C121_half_turn after its first alignment, with
`e = 2^-50` -/
example : ∃ b₁ : BGalaxy Float64,
    starAlign (Galaxy.ofBodies exHalfTurn) none = .ok (Galaxy.ofBodies b₁) ∧
    ∃ X Y Z : Float64, X = Num.sum ((b₁.stars.filter (Body.inside none)).map fun a => a.m *. a.jx) ∧
      Y = Num.sum ((b₁.stars.filter (Body.inside none)).map fun a => a.m *. a.jy) ∧
      Z = Num.sum ((b₁.stars.filter (Body.inside none)).map fun a => a.m *. a.jz) ∧
      Tilted X Y Z ∧ 0 < value Z ∧
      (value X) ^ 2 + (value Y) ^ 2
        ≤ (1 / 2 ^ 50 : ℚ) ^ 2 * ((value X) ^ 2 + (value Y) ^ 2 + (value Z) ^ 2) ∧
      ∀ a ∈ b₁.all, ∀ i, Within 990 (a.pos i) ∧ Within 990 (a.vel i) := by
  refine ⟨_, starAlign_ofBodies exHalfTurn none rfl, _, _, _, rfl, rfl, rfl, ⟨?_, ?_, ?_, ?_⟩, ?_, ?_, ?_⟩ <;>
    (try unfold Within) <;> decide +kernel

end GChop
