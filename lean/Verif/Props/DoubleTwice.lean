import Verif.Props.DoubleAligned
import Verif.Props.Circ

/-!
# C104: `star_align` in double precision when the total is on the z axis, and a second alignment

`_get_rot_matrix` divides by the part of the stellar angular momentum across the z axis
(galaxychop/utils/_align.py:69-80), and `star_align` applies the result to every particle.
-/

namespace GChop
open Flt Matrix

/-! ## NaN and zeros -/

theorem nan_add64 (a : Float64) : (Flt.nan +. a) = (Flt.nan : Float64) := rfl
theorem add_nan64 (a : Float64) : (a +. Flt.nan) = (Flt.nan : Float64) := by cases a <;> rfl
theorem nan_mul64 (a : Float64) : (Flt.nan *. a) = (Flt.nan : Float64) := rfl
theorem mul_nan64 (a : Float64) : (a *. Flt.nan) = (Flt.nan : Float64) := by cases a <;> rfl
theorem div_nan64 (a : Float64) : (a /. Flt.nan) = (Flt.nan : Float64) := by cases a <;> rfl

/-- a sum with a NaN is NaN, in every order -/
theorem Added.nan_of_mem {l : List Float64} {s : Float64} (h : Added l s) (hm : Flt.nan ∈ l) :
    s = Flt.nan := by
  induction h with
  | nil => cases hm
  | one a => exact (List.mem_singleton.1 hm).symm
  | zero _ ih => rw [ih hm, add_nan64]
  | add hp _ _ _ _ ih1 ih2 =>
    rcases List.mem_append.1 (hp.mem_iff.1 hm) with h | h
    · rw [ih1 h, nan_add64]
    · rw [ih2 h, add_nan64]

theorem srnd_clip_zero : Fmt.binary64.clip (Fmt.binary64.srnd 0) = .fin 0 := by
  rw [← toExt_ofExact false, toExt_zero]

/-- `0.0` or `-0.0` -/
def IsZero (a : Float64) : Prop := toExt a = .fin 0

theorem IsZero.add {a b : Float64} (ha : IsZero a) (hb : IsZero b) : IsZero (a +. b) := by
  unfold IsZero
  rw [toExt_add ha hb, add_zero, srnd_clip_zero]

theorem IsZero.sub {a b : Float64} (ha : IsZero a) (hb : IsZero b) : IsZero (a -. b) := by
  unfold IsZero
  rw [toExt_sub ha hb, sub_zero, srnd_clip_zero]

theorem IsZero.mul_left {a b : Float64} (ha : IsZero a) (hb : Num.isFinite b = true) :
    IsZero (a *. b) := by
  unfold IsZero
  rw [toExt_mul ha (toExt_value hb), zero_mul, srnd_clip_zero]

theorem IsZero.mul_right {a b : Float64} (ha : Num.isFinite a = true) (hb : IsZero b) :
    IsZero (a *. b) := by
  unfold IsZero
  rw [toExt_mul (toExt_value ha) hb, mul_zero, srnd_clip_zero]

theorem isZero_zero : IsZero (Num.ofRat 0) := toExt_zero

theorem IsZero.finite {a : Float64} (h : IsZero a) : Num.isFinite a = true := isFinite_of h

/-- a sum of zeros is zero, in every order -/
theorem Added.isZero {l : List Float64} {s : Float64} (h : Added l s) (hm : ∀ a ∈ l, IsZero a) :
    IsZero s := by
  induction h with
  | nil => exact isZero_zero
  | one a => exact hm a (by simp)
  | zero _ ih => exact isZero_zero.add (ih hm)
  | add hp _ _ _ _ ih1 ih2 =>
    exact (ih1 fun a ha => hm a (hp.mem_iff.2 (List.mem_append_left _ ha))).add
      (ih2 fun a ha => hm a (hp.mem_iff.2 (List.mem_append_right _ ha)))

/-- a zero times anything is a zero or NaN -/
theorem IsZero.mul_any {a : Float64} (h : IsZero a) (b : Float64) :
    IsZero (a *. b) ∨ (a *. b) = Flt.nan := by
  obtain ⟨s, m, rfl, hv⟩ := toExt_fin h
  have hm : m.val = 0 := by
    cases s <;> simpa [sval] using hv
  cases b with
  | fin t n => exact Or.inl (h.mul_left rfl)
  | inf t => right; show (if m.val = 0 then _ else _) = _; rw [if_pos hm]
  | nan => exact Or.inr rfl

/-- a zero or NaN over a zero or NaN is NaN -/
theorem div_zero_nan {a b : Float64} (ha : IsZero a ∨ a = Flt.nan) (hb : IsZero b ∨ b = Flt.nan) :
    (a /. b) = Flt.nan := by
  rcases hb with hb | rfl
  swap
  · exact div_nan64 a
  rcases ha with ha | rfl
  swap
  · rfl
  obtain ⟨s, m, rfl, hv⟩ := toExt_fin ha
  obtain ⟨t, n, rfl, hw⟩ := toExt_fin hb
  have hm : m.val = 0 := by cases s <;> simpa [sval] using hv
  have hn : n.val = 0 := by cases t <;> simpa [sval] using hw
  show (if n.val = 0 then (if m.val = 0 then _ else _) else _) = _
  rw [if_pos hn, if_pos hm]

theorem IsZero.sqrt {a : Float64} (h : IsZero a) : IsZero (Num.sqrt a) := by
  obtain ⟨s, m, rfl, hv⟩ := toExt_fin h
  have hm : m.val = 0 := by cases s <;> simpa [sval] using hv
  show toExt (if m.val = 0 then _ else _) = _
  rw [if_pos hm]
  exact h

theorem IsZero.neg {a : Float64} (h : IsZero a) : IsZero (Num.neg a) := by
  have := toExt_neg h
  rwa [neg_zero] at this

/-- the matrix for a total on the z axis -/
theorem rotFromJ_axis64 {X Y : Float64} (hX : IsZero X) (hY : IsZero Y) (Z : Float64) :
    (rotFromJ X Y Z).e1x = Flt.nan ∧ (rotFromJ X Y Z).e2x = Flt.nan := by
  have hp : IsZero (Num.sqrt (Num.sq X +. Num.sq Y)) :=
    ((hX.mul_left hX.finite).add (hY.mul_left hY.finite)).sqrt
  exact ⟨div_zero_nan (.inl hY) (.inl hp), div_zero_nan (hX.mul_any Z) (hp.mul_any _)⟩

/-! ## Galaxies -/

/-- C104: if the x and y components of the total angular momentum of the stars inside the cut are
computed as zero, `star_align` returns NaN as x, y, vx and vy of every particle, also of the dark
matter and the gas. -/
theorem C104_axis_nan (sm : List Float64 → Float64) (dt : List (Float64 × Float64) → Float64)
    (hdt : ∀ l, Fused l (dt l)) (b : BGalaxy Float64)
    (rCut : Option Float64) (hc : ∀ c ∈ rCut, (c <=. Num.ofRat 0) = false)
    (hX : toExt (sm ((b.stars.filter (Body.inside rCut)).map fun a => a.m *. a.jx)) = .fin 0)
    (hY : toExt (sm ((b.stars.filter (Body.inside rCut)).map fun a => a.m *. a.jy)) = .fin 0) :
    ∃ b' : BGalaxy Float64,
      @starAlign _ (sumDot sm dt) (Galaxy.ofBodies b) rCut = .ok (Galaxy.ofBodies b') ∧
      b'.all.length = b.all.length ∧ ∀ a ∈ b'.all, a.x = Flt.nan ∧ a.y = Flt.nan ∧ a.vx = Flt.nan ∧
        a.vy = Flt.nan := by
  have hbad : @badCut _ (sumDot sm dt) rCut = false := by
    cases rCut with
    | none => rfl
    | some c => exact hc c rfl
  refine ⟨_, @starAlign_ofBodies _ (sumDot sm dt) b rCut hbad, by simp [mapBodies_all], ?_⟩
  intro a ha
  rw [mapBodies_all, List.mem_map] at ha
  obtain ⟨c, -, rfl⟩ := ha
  have hm := rotFromJ_axis64 hX hY
    (sm ((b.stars.filter (Body.inside rCut)).map fun a => a.m *. a.jz))
  have key : ∀ p q r x y z : Float64, p = Flt.nan → dt [(p, x), (q, y), (r, z)] = Flt.nan := by
    rintro _ q r x y z rfl
    exact (hdt _).nan_of_mem (List.mem_cons_self ..)
  exact ⟨key _ _ _ _ _ _ hm.1, key _ _ _ _ _ _ hm.2, key _ _ _ _ _ _ hm.1, key _ _ _ _ _ _ hm.2⟩

/-- finite masses, positions and velocities -/
def Body.AllFinite (a : Body Float64) : Prop :=
  Num.isFinite a.m = true ∧ Num.isFinite a.x = true ∧ Num.isFinite a.y = true ∧
  Num.isFinite a.vx = true ∧ Num.isFinite a.vy = true

/-- C104: this happens for every galaxy whose stars inside the cut move in the plane z = 0, in every
order of the additions, and when no star is inside the cut. -/
theorem C104_planar (sm : List Float64 → Float64) (dt : List (Float64 × Float64) → Float64)
    (hdt : ∀ l, Fused l (dt l)) (hs : ∀ l, Added l (sm l)) (b : BGalaxy Float64)
    (rCut : Option Float64) (hc : ∀ c ∈ rCut, (c <=. Num.ofRat 0) = false)
    (hp : ∀ a ∈ b.stars, Body.inside rCut a = true → a.AllFinite ∧ toExt a.z = .fin 0 ∧
      toExt a.vz = .fin 0) :
    ∃ b' : BGalaxy Float64,
      @starAlign _ (sumDot sm dt) (Galaxy.ofBodies b) rCut = .ok (Galaxy.ofBodies b') ∧
      b'.all.length = b.all.length ∧ ∀ a ∈ b'.all, a.x = Flt.nan ∧ a.y = Flt.nan ∧ a.vx = Flt.nan ∧
        a.vy = Flt.nan := by
  have hj : ∀ a ∈ b.stars.filter (Body.inside rCut), IsZero (a.m *. a.jx) ∧ IsZero (a.m *. a.jy) := by
    intro a ha
    rw [List.mem_filter] at ha
    obtain ⟨⟨fm, fx, fy, fvx, fvy⟩, hz, hvz⟩ := hp a ha.1 ha.2
    exact ⟨IsZero.mul_right fm ((IsZero.mul_right fy hvz).sub (IsZero.mul_left hz fvy)),
      IsZero.mul_right fm ((IsZero.mul_left hz fvx).sub (IsZero.mul_right fx hvz))⟩
  refine C104_axis_nan sm dt hdt b rCut hc ((hs _).isZero ?_) ((hs _).isZero ?_)
  · intro q hq
    obtain ⟨a, ha, rfl⟩ := List.mem_map.1 hq
    exact (hj a ha).1
  · intro q hq
    obtain ⟨a, ha, rfl⟩ := List.mem_map.1 hq
    exact (hj a ha).2

/-- C104: the circularities of the returned galaxy cannot be computed, with any bins. -/
theorem C104_planar_jcirc (sm : List Float64 → Float64) (dt : List (Float64 × Float64) → Float64)
    (hdt : ∀ l, Fused l (dt l)) (hs : ∀ l, Added l (sm l))
    (b : BGalaxy Float64) (rCut : Option Float64) (hc : ∀ c ∈ rCut, (c <=. Num.ofRat 0) = false)
    (hp : ∀ a ∈ b.stars, Body.inside rCut a = true → a.AllFinite ∧ toExt a.z = .fin 0 ∧
      toExt a.vz = .fin 0) (env : CircEnv Float64) (bin0 bin1 : Float64) :
    (@starAlign _ (sumDot sm dt) (Galaxy.ofBodies b) rCut >>= fun g => jcirc env g bin0 bin1)
      = .error .valueError := by
  obtain ⟨b', h1, -, h2⟩ := C104_planar sm dt hdt hs b rCut hc hp
  rw [h1]
  refine C27_no_bound_particle env b' (fun a ha => ?_) bin0 bin1
  obtain ⟨-, -, h3, -⟩ := h2 a ha
  right; right
  have : a.energy = Flt.nan := by
    unfold Body.energy Body.kinetic
    rw [h3]
    show ((_ *. (((Flt.nan *. Flt.nan) +. _) +. _)) +. _) = _
    rw [nan_mul64, nan_add64, nan_add64, mul_nan64, nan_add64]
  rw [this]
  rfl

/-! ## Aligning twice -/

theorem mul_comm64 (a b : Float64) : (a *. b) = (b *. a) := by
  show mul a b = mul b a
  cases a <;> cases b <;> simp [mul, mul_comm, bne_comm]

/-- the totals computed for the aligned galaxy are near the z axis -/
theorem totals_twice {sm : List Float64 → Float64} {dt : List (Float64 × Float64) → Float64}
    (hdt : ∀ l, Fused l (dt l)) (hs : ∀ l, Added l (sm l))
    {l : List (Body Float64)} {X Y Z : Float64} (hX : X = sm (l.map fun a => a.m *. a.jx))
    (hY : Y = sm (l.map fun a => a.m *. a.jy)) (hZ : Z = sm (l.map fun a => a.m *. a.jz))
    (hT : Tilted X Y Z) (hw : ∀ a ∈ l, a.Ordinary) (hn : l.length ≤ 2 ^ 30) {κ : ℝ} (h0 : 0 ≤ κ)
    (hκ : κ ≤ 2 ^ 28)
    (hcond : (l.length + 20) * (l.map Body.weight).sum ≤ κ * euclid (exactTotal l))
    {l1 : List (Body Float64)} (hl1 : l1 = l.map (@Body.rot _ (sumDot sm dt) (rotFromJ X Y Z))) :
    ∃ T : ℝ, 0 < T ∧ |(value (sm (l1.map fun a => a.m *. a.jx)) : ℝ)| ≤ κ / 2 ^ 48 * T ∧
      |(value (sm (l1.map fun a => a.m *. a.jy)) : ℝ)| ≤ κ / 2 ^ 48 * T ∧
      |(value (sm (l1.map fun a => a.m *. a.jz)) : ℝ) - T| ≤ κ / 2 ^ 48 * T := by
  have hperp := hT.perp_ne
  have hR := alignK_mem hperp
  have hent := matrix_entries hT
  obtain ⟨B0, B1, B2⟩ := totals_before hs hw hn
  rw [← hX] at B0
  rw [← hY] at B1
  rw [← hZ] at B2
  obtain ⟨A0, A1, A2⟩ := totals_after hs hR (f := @Body.rot _ (sumDot sm dt) (rotFromJ X Y Z)) hw hn (by
    intro a ha
    have up : ∀ {e : Float64}, Within 200 e → Within 990 e := fun h =>
      ⟨h.1, h.2.trans (zpow_le_zpow_right₀ (by norm_num) (by norm_num))⟩
    obtain ⟨r1, r2, r3, -⟩ := rot_rotated hdt hR hent (a := a)
      fun i => ⟨up ((hw a ha).2 i).1, up ((hw a ha).2 i).2⟩
    exact ⟨r1, r2, r3⟩)
  have comm : ∀ f : Body Float64 → Float64, (l1.map fun a => a.m *. f a) = l1.map fun a => f a *. a.m :=
    fun f => List.map_congr_left fun a _ => mul_comm64 _ _
  rw [comm, comm, comm]
  rw [← hl1] at A0 A1 A2
  obtain ⟨p, hp⟩ : ∃ p, p = Real.sqrt ((value X : ℝ) * value X + value Y * value Y) := ⟨_, rfl⟩
  obtain ⟨T, hTe⟩ : ∃ j, j = Real.sqrt ((value X : ℝ) * value X + value Y * value Y + value Z * value Z) :=
    ⟨_, rfl⟩
  obtain ⟨s1, s2, s3, -, -, -⟩ := hT.sizes hp hTe
  have hRT : alignK (realJ X Y Z) *ᵥ realJ X Y Z = ![0, 0, T] := by
    rw [alignK_mulVec hperp, dot_self, hTe]
    simp [realJ, HasSqrt.ksqrt]
  have hTeu : euclid (realJ X Y Z) = T := by
    rw [hTe]
    simp [euclid, realJ, sq]
  have T0 : 0 < T := lt_of_lt_of_le (zpow_pos (by norm_num) _) (s1.trans s2)
  have S0 : 0 ≤ (l.map Body.weight).sum := by
    have := (weights_le hw hn).1
    rw [sum_two_mul] at this
    linarith
  have n0 : (0 : ℝ) ≤ l.length := Nat.cast_nonneg _
  generalize (l.map Body.weight).sum = S at *
  generalize hnn : (l.length : ℝ) = n at *
  generalize exactTotal l = L at *
  have hd : ∀ i, |(L - realJ X Y Z) i| ≤ (6 + 2 * n) / 2 ^ 53 * (2 * S) := by
    intro i
    rw [Pi.sub_apply, abs_sub_comm]
    fin_cases i
    · exact B0.err
    · exact B1.err
    · exact B2.err
  have e0 : 0 ≤ (6 + 2 * n) / 2 ^ 53 * (2 * S) := by positivity
  have hLT := euclid_sub L (realJ X Y Z) e0 hd
  rw [hTeu] at hLT
  have hL : (n + 20) * S ≤ 2 * κ * T := by
    have h1 := (abs_le.1 hLT).2
    have h2 : 2 * ((6 + 2 * n) / 2 ^ 53 * (2 * S)) ≤ 1 / 2 ^ 50 * ((n + 20) * S) := by
      have : 1 / 2 ^ 50 * ((n + 20) * S) - 2 * ((6 + 2 * n) / 2 ^ 53 * (2 * S))
          = 136 / 2 ^ 53 * S := by ring
      have : 0 ≤ 136 / 2 ^ 53 * S := by positivity
      linarith
    have hc0 : 0 ≤ (n + 20) * S := by positivity
    have h3 : κ * euclid L ≤ κ * (T + 1 / 2 ^ 50 * ((n + 20) * S)) :=
      mul_le_mul_of_nonneg_left (by linarith) h0
    have h4 : κ * (1 / 2 ^ 50 * ((n + 20) * S)) ≤ 2 ^ 28 * (1 / 2 ^ 50 * ((n + 20) * S)) :=
      mul_le_mul_of_nonneg_right hκ (by positivity)
    generalize (n + 20) * S = c at *
    rw [mul_add] at h3
    have h5 : (2 : ℝ) ^ 28 * (1 / 2 ^ 50 * c) ≤ 1 / 2 * c := by
      rw [← mul_assoc]
      exact mul_le_mul_of_nonneg_right (by norm_num) hc0
    linarith
  have key : ∀ {a : Float64} {i : Fin 3},
      Fuzzy a ((alignK (realJ X Y Z) *ᵥ L) i) (2 * S) (136 + 2 * n) →
      |(value a : ℝ) - (![0, 0, T] : Fin 3 → ℝ) i| ≤ κ / 2 ^ 48 * T := by
    intro a i h
    have h1 : (alignK (realJ X Y Z) *ᵥ L) i - (![0, 0, T] : Fin 3 → ℝ) i
        = (alignK (realJ X Y Z) *ᵥ (L - realJ X Y Z)) i := by
      rw [mulVec_sub, hRT, Pi.sub_apply]
    have h2 := mulVec_le (so3_entry hR) (L - realJ X Y Z) i
    rw [← h1] at h2
    have h3 := (abs_sub_le (value a : ℝ) ((alignK (realJ X Y Z) *ᵥ L) i) ((![0, 0, T] : Fin 3 → ℝ) i)).trans
      (add_le_add h.err h2)
    refine h3.trans ?_
    have h4 : (136 + 2 * n) / 2 ^ 53 * (2 * S) + 3 * ((6 + 2 * n) / 2 ^ 53 * (2 * S))
        ≤ 1 / 2 ^ 49 * ((n + 20) * S) := by
      have : 1 / 2 ^ 49 * ((n + 20) * S) - ((136 + 2 * n) / 2 ^ 53 * (2 * S)
          + 3 * ((6 + 2 * n) / 2 ^ 53 * (2 * S))) = 12 / 2 ^ 53 * S := by ring
      have : 0 ≤ 12 / 2 ^ 53 * S := by positivity
      linarith
    have h5 : 1 / 2 ^ 49 * ((n + 20) * S) ≤ 1 / 2 ^ 49 * (2 * κ * T) :=
      mul_le_mul_of_nonneg_left hL (by norm_num)
    have h6 : (1 / 2 ^ 49 : ℝ) * (2 * κ * T) = κ / 2 ^ 48 * T := by ring
    linarith [hd 0, hd 1, hd 2]
  have k0 := key A0
  have k1 := key A1
  have z0 : ∀ v : ℝ, v - (![0, 0, T] : Fin 3 → ℝ) 0 = v := fun v => sub_zero v
  have z1 : ∀ v : ℝ, v - (![0, 0, T] : Fin 3 → ℝ) 1 = v := fun v => sub_zero v
  rw [z0] at k0
  rw [z1] at k1
  exact ⟨T, T0, k0, k1, key A2⟩

/-- a rotation that takes a vector near the z axis to the z axis nearly keeps z coordinates -/
theorem z_kept {R : Matrix (Fin 3) (Fin 3) ℝ} (hR : R ∈ specialOrthogonalGroup (Fin 3) ℝ)
    {J : Fin 3 → ℝ} {T T1 ε : ℝ} (hT : 0 < T) (hRJ : R *ᵥ J = ![0, 0, T1])
    (hT1 : T1 = Real.sqrt (J 0 ^ 2 + J 1 ^ 2 + J 2 ^ 2)) (hε : ε ≤ 1 / 2)
    (h0 : |J 0| ≤ ε * T) (h1 : |J 1| ≤ ε * T) (h2 : |J 2 - T| ≤ ε * T) (v : Fin 3 → ℝ) :
    |(R *ᵥ v) 2 - v 2| ≤ 4 * ε * (|v 0| + |v 1| + |v 2|) := by
  have hz := (abs_le.1 h2).1
  have hle : J 2 ≤ T1 := by
    rw [hT1]
    exact Real.le_sqrt_of_sq_le (by nlinarith [sq_nonneg (J 0), sq_nonneg (J 1)])
  have hTT : T / 2 ≤ T1 := by nlinarith
  have hT1p : 0 < T1 := by linarith
  have hrow : ∀ i, T1 * R 2 i = J i := by
    intro i
    have h3 : Rᵀ * R = 1 := (mem_orthogonalGroup_iff' (Fin 3) ℝ).1 (mem_specialOrthogonalGroup_iff.1 hR).1
    have h4 : Rᵀ *ᵥ (R *ᵥ J) = J := by rw [mulVec_mulVec, h3, one_mulVec]
    rw [hRJ] at h4
    have := congrFun h4 i
    simp only [mulVec, dotProduct, Fin.sum_univ_three, transpose_apply] at this
    simp at this
    linarith
  have hup : T1 - J 2 ≤ |J 0| + |J 1| := by
    have : T1 ≤ J 2 + (|J 0| + |J 1|) := by
      rw [hT1]
      refine Real.sqrt_le_iff.2 ⟨?_, ?_⟩
      · have : 0 ≤ J 2 := by nlinarith
        positivity
      · have : 0 ≤ J 2 := by nlinarith
        nlinarith [sq_abs (J 0), sq_abs (J 1), abs_nonneg (J 0), abs_nonneg (J 1),
          mul_nonneg (abs_nonneg (J 0)) (abs_nonneg (J 1)), mul_nonneg this (abs_nonneg (J 0)),
          mul_nonneg this (abs_nonneg (J 1))]
    linarith
  have hexp : T1 * ((R *ᵥ v) 2 - v 2) = J 0 * v 0 + J 1 * v 1 + (J 2 - T1) * v 2 := by
    simp only [mulVec, dotProduct, Fin.sum_univ_three]
    rw [← hrow 0, ← hrow 1, ← hrow 2]
    ring
  have hb : |J 0 * v 0 + J 1 * v 1 + (J 2 - T1) * v 2| ≤ 2 * (ε * T) * (|v 0| + |v 1| + |v 2|) := by
    have e0 : |J 0 * v 0| ≤ ε * T * |v 0| := by
      rw [abs_mul]; exact mul_le_mul_of_nonneg_right h0 (abs_nonneg _)
    have e1 : |J 1 * v 1| ≤ ε * T * |v 1| := by
      rw [abs_mul]; exact mul_le_mul_of_nonneg_right h1 (abs_nonneg _)
    have e2 : |(J 2 - T1) * v 2| ≤ 2 * (ε * T) * |v 2| := by
      rw [abs_mul, abs_sub_comm, abs_of_nonneg (by linarith : 0 ≤ T1 - J 2)]
      exact mul_le_mul_of_nonneg_right (by linarith) (abs_nonneg _)
    have a1 := abs_add_le (J 0 * v 0 + J 1 * v 1) ((J 2 - T1) * v 2)
    have a2 := abs_add_le (J 0 * v 0) (J 1 * v 1)
    have hε0 : 0 ≤ ε * T := (abs_nonneg _).trans h0
    nlinarith [mul_nonneg hε0 (abs_nonneg (v 0)), mul_nonneg hε0 (abs_nonneg (v 1))]
  have hm : T1 * |(R *ᵥ v) 2 - v 2| ≤ T1 * (4 * ε * (|v 0| + |v 1| + |v 2|)) := by
    rw [← abs_of_pos hT1p, ← abs_mul, abs_of_pos hT1p, hexp]
    refine hb.trans ?_
    have hs : 0 ≤ |v 0| + |v 1| + |v 2| := by positivity
    have hε0 : 0 ≤ ε := by
      have := (abs_nonneg _).trans h0
      exact nonneg_of_mul_nonneg_left this hT
    nlinarith [mul_nonneg hε0 hs]
  exact le_of_mul_le_mul_left hm hT1p

/-- C104: a second alignment.  If the angular momenta of the stars do not nearly cancel, and the totals
computed for the aligned galaxy are not both zero (or tiny), the second alignment is a rotation that
keeps z and vz of every particle up to `(κ + 1)/2^46` of the size of the vector. -/
theorem C104_twice (sm : List Float64 → Float64) (dt : List (Float64 × Float64) → Float64)
    (hdt : ∀ l, Fused l (dt l)) (hs : ∀ l, Added l (sm l)) (b : BGalaxy Float64)
    (X Y Z : Float64) (hX : X = sm (b.stars.map fun a => a.m *. a.jx))
    (hY : Y = sm (b.stars.map fun a => a.m *. a.jy))
    (hZ : Z = sm (b.stars.map fun a => a.m *. a.jz)) (hT : Tilted X Y Z)
    (hw : ∀ a ∈ b.all, a.Ordinary) (hn : b.stars.length ≤ 2 ^ 30) (κ : ℝ) (h0 : 0 ≤ κ)
    (hκ : κ ≤ 2 ^ 28)
    (hcond : (b.stars.length + 20) * (b.stars.map Body.weight).sum
      ≤ κ * euclid (exactTotal b.stars)) :
    ∃ b1 : BGalaxy Float64,
      @starAlign _ (sumDot sm dt) (Galaxy.ofBodies b) none = .ok (Galaxy.ofBodies b1) ∧
      (Tilted (sm (b1.stars.map fun a => a.m *. a.jx)) (sm (b1.stars.map fun a => a.m *. a.jy))
        (sm (b1.stars.map fun a => a.m *. a.jz)) →
      ∃ R ∈ specialOrthogonalGroup (Fin 3) ℝ, ∃ b2 : BGalaxy Float64,
        @starAlign _ (sumDot sm dt) (Galaxy.ofBodies b1) none = .ok (Galaxy.ofBodies b2) ∧
        b2.all.length = b1.all.length ∧
        ∀ (j : Nat) (a1 a2 : Body Float64), b1.all[j]? = some a1 → b2.all[j]? = some a2 →
          RotatedTo R a1.pos a2.pos ∧ RotatedTo R a1.vel a2.vel ∧
          |(value a2.z : ℝ) - value a1.z| ≤ (κ + 1) / 2 ^ 46 *
            (|(value a1.x : ℝ)| + |(value a1.y : ℝ)| + |(value a1.z : ℝ)|) + 2 ^ (-1070 : ℤ) ∧
          |(value a2.vz : ℝ) - value a1.vz| ≤ (κ + 1) / 2 ^ 46 *
            (|(value a1.vx : ℝ)| + |(value a1.vy : ℝ)| + |(value a1.vz : ℝ)|) + 2 ^ (-1070 : ℤ)) := by
  have hall : ∀ l : List (Body Float64), l.filter (Body.inside none) = l := fun l =>
    List.filter_eq_self.2 fun _ _ => rfl
  have hA : @alignMatrix _ (sumDot sm dt) none b.stars = rotFromJ X Y Z := by
    have : @alignMatrix _ (sumDot sm dt) none b.stars
        = rotFromJ (sm ((b.stars.filter (Body.inside none)).map fun a => a.m *. a.jx))
          (sm ((b.stars.filter (Body.inside none)).map fun a => a.m *. a.jy))
          (sm ((b.stars.filter (Body.inside none)).map fun a => a.m *. a.jz)) := rfl
    rw [this, hall, ← hX, ← hY, ← hZ]
  have hwS : ∀ a ∈ b.stars, a.Ordinary := fun a ha => hw a (by simp [BGalaxy.all, ha])
  refine ⟨_, @starAlign_ofBodies _ (sumDot sm dt) b none rfl, ?_⟩
  rw [hA]
  set b1 := b.mapBodies (@Body.rot _ (sumDot sm dt) (rotFromJ X Y Z)) with hb1
  intro hT1
  obtain ⟨T, T0, t0, t1, t2⟩ := totals_twice hdt hs hX hY hZ hT hwS hn h0 hκ hcond
    (l1 := b1.stars) rfl
  have hw1 : ∀ a ∈ b1.all, ∀ i, Within 990 (a.pos i) ∧ Within 990 (a.vel i) := by
    intro a ha
    rw [hb1, mapBodies_all, List.mem_map] at ha
    obtain ⟨c, hc, rfl⟩ := ha
    have up : ∀ {e : Float64}, Within 200 e → Within 990 e := fun h =>
      ⟨h.1, h.2.trans (zpow_le_zpow_right₀ (by norm_num) (by norm_num))⟩
    have hR := alignK_mem hT.perp_ne
    obtain ⟨r1, r2, -⟩ := rot_rotated hdt hR (matrix_entries hT) (a := c)
      fun i => ⟨up ((hw c hc).2 i).1, up ((hw c hc).2 i).2⟩
    have small : ∀ {v w : Fin 3 → Float64}, (∀ i, Within 200 (v i)) →
        RotatedTo (alignK (realJ X Y Z)) v w → ∀ i, Within 990 (w i) := by
      intro v w hv h i
      refine ⟨(h i).1, ?_⟩
      have h3 := mulVec_le (so3_entry hR) (fun j => (value (v j) : ℝ)) i
      have h4 := (h i).2
      have hB := fun j => (hv j).real
      have hpos : (0 : ℝ) < 2 ^ (200 : ℤ) := zpow_pos (by norm_num) _
      have hsm : (2 : ℝ) ^ (-1070 : ℤ) ≤ 2 ^ (200 : ℤ) :=
        zpow_le_zpow_right₀ (by norm_num) (by norm_num)
      have hbig : (7 : ℝ) * 2 ^ (200 : ℤ) ≤ 2 ^ (990 : ℤ) := by
        rw [show (990 : ℤ) = 790 + 200 by norm_num, zpow_add₀ (by norm_num)]
        refine mul_le_mul_of_nonneg_right ?_ hpos.le
        exact le_trans (by norm_num) (zpow_le_zpow_right₀ (by norm_num) (by norm_num : (3 : ℤ) ≤ 790))
      have h5 : |(value (w i) : ℝ)| ≤ 2 ^ (990 : ℤ) := by
        have h6 := abs_sub_abs_le_abs_sub (value (w i) : ℝ)
          ((alignK (realJ X Y Z) *ᵥ fun j => (value (v j) : ℝ)) i)
        have hB0 := hB 0
        have hB1 := hB 1
        have hB2 := hB 2
        have h7 : (|(value (v 0) : ℝ)| + |(value (v 1) : ℝ)| + |(value (v 2) : ℝ)|) / 2 ^ 47
            ≤ 3 * 2 ^ (200 : ℤ) := by
          rw [div_le_iff₀ (by norm_num)]
          generalize (2 : ℝ) ^ (200 : ℤ) = B at *
          norm_num
          linarith
        generalize (2 : ℝ) ^ (200 : ℤ) = B at *
        generalize (2 : ℝ) ^ (-1070 : ℤ) = e at *
        generalize (2 : ℝ) ^ (990 : ℤ) = M at *
        linarith
      have h8 : (((|value (w i)| : ℚ)) : ℝ) ≤ (((2 : ℚ) ^ (990 : ℤ) : ℚ) : ℝ) := by
        rw [Rat.cast_abs, Rat.cast_zpow, Rat.cast_ofNat]
        exact h5
      exact Rat.cast_le.1 h8
    exact fun i => ⟨small (fun i => ((hw c hc).2 i).1) r1 i, small (fun i => ((hw c hc).2 i).2) r2 i⟩
  obtain ⟨R, hR, hRJ, b2, h1, h2, h3⟩ := C81_rotation sm dt hdt b1 none (by simp) _ _ _
    (by rw [hall]) (by rw [hall]) (by rw [hall]) hT1 hw1
  refine ⟨R, hR, b2, h1, h2, fun j a1 a2 g1 g2 => ?_⟩
  obtain ⟨r1, r2, -⟩ := h3 j a1 a2 g1 g2
  have hε : κ / 2 ^ 48 ≤ 1 / 2 := by
    rw [div_le_iff₀ (by norm_num)]
    refine hκ.trans (by norm_num)
  have main : ∀ {v w : Fin 3 → Float64}, RotatedTo R v w →
      |(value (w 2) : ℝ) - value (v 2)| ≤ (κ + 1) / 2 ^ 46 *
        (|(value (v 0) : ℝ)| + |(value (v 1) : ℝ)| + |(value (v 2) : ℝ)|) + 2 ^ (-1070 : ℤ) := by
    intro v w h
    have k1 := (h 2).2
    have k2 := z_kept hR T0 hRJ (by simp [vlength, realJ]) hε (by simpa [realJ] using t0)
      (by simpa [realJ] using t1) (by simpa [realJ] using t2) fun j => (value (v j) : ℝ)
    have k3 := abs_sub_le (value (w 2) : ℝ) ((R *ᵥ fun j => (value (v j) : ℝ)) 2) (value (v 2))
    have hS : 0 ≤ |(value (v 0) : ℝ)| + |(value (v 1) : ℝ)| + |(value (v 2) : ℝ)| := by positivity
    generalize |(value (v 0) : ℝ)| + |(value (v 1) : ℝ)| + |(value (v 2) : ℝ)| = S at *
    have : (κ + 1) / 2 ^ 46 * S = 4 * (κ / 2 ^ 48) * S + S / 2 ^ 47 + S / 2 ^ 47 := by ring
    have : 0 ≤ S / 2 ^ 47 := by positivity
    linarith
  exact ⟨r1, r2, main r1, main r2⟩

/-! ## Examples -/

/-- one star with `J = (-1, 2, -1)` -/
def exTurn : BGalaxy Float64 := starsOnly [starAt (dv 1 2 3) (dv 3 5 7)]

/-- C104 (the second alignment turns the galaxy about the z axis): for one star at (1, 2, 3) with
velocity (3, 5, 7), the first alignment gives y < -3 and the second one |y| < 1/1000. -/
theorem C104_second_turns : ∃ b1 b2 : BGalaxy Float64,
    starAlign (Galaxy.ofBodies exTurn) none = .ok (Galaxy.ofBodies b1) ∧
    starAlign (Galaxy.ofBodies b1) none = .ok (Galaxy.ofBodies b2) ∧
    b1.stars.map (fun a => decide (value a.y < -3)) = [true] ∧
    b2.stars.map (fun a => decide (|value a.y| < 1 / 1000) && Num.isFinite a.y) = [true] :=
  ⟨_, _, starAlign_ofBodies _ none rfl, starAlign_ofBodies _ none rfl, by decide +kernel,
    by decide +kernel⟩

/-- C104 (the second alignment gives NaN): one star at (1, 0, 0) with velocity (0, 1, 1). -/
theorem C104_second_nan : ∃ b1 b2 : BGalaxy Float64,
    starAlign (Galaxy.ofBodies exOneStar) none = .ok (Galaxy.ofBodies b1) ∧
    starAlign (Galaxy.ofBodies b1) none = .ok (Galaxy.ofBodies b2) ∧
    b1.stars.map (fun a => Num.isFinite a.x && Num.isFinite a.y) = [true] ∧
    b2.stars.map (fun a => Num.isNaN a.x && Num.isNaN a.y) = [true] :=
  ⟨_, _, starAlign_ofBodies _ none rfl, starAlign_ofBodies _ none rfl, by decide +kernel,
    by decide +kernel⟩

/-- the hypotheses of `C104_twice` hold for the star that is turned, with κ = 1000 -/
example : Tilted (Num.sum (exTurn.stars.map fun a => a.m *. a.jx))
      (Num.sum (exTurn.stars.map fun a => a.m *. a.jy))
      (Num.sum (exTurn.stars.map fun a => a.m *. a.jz)) ∧
    (∀ a ∈ exTurn.all, a.Ordinary) ∧
    (exTurn.stars.length + 20) * (exTurn.stars.map Body.weight).sum
      ≤ 1000 * euclid (exactTotal exTurn.stars) ∧
    ∃ b1 : BGalaxy Float64, starAlign (Galaxy.ofBodies exTurn) none = .ok (Galaxy.ofBodies b1) ∧
      Tilted (Num.sum (b1.stars.map fun a => a.m *. a.jx))
        (Num.sum (b1.stars.map fun a => a.m *. a.jy)) (Num.sum (b1.stars.map fun a => a.m *. a.jz)) := by
  have v1 : value (Num.ofRat 1 : Float64) = 1 := by decide +kernel
  have v2 : value (Num.ofRat 2 : Float64) = 2 := by decide +kernel
  have v3 : value (Num.ofRat 3 : Float64) = 3 := by decide +kernel
  have v5 : value (Num.ofRat 5 : Float64) = 5 := by decide +kernel
  have v7 : value (Num.ofRat 7 : Float64) = 7 := by decide +kernel
  refine ⟨?_, ?_, ?_, _, starAlign_ofBodies exTurn none rfl, ?_⟩
  · refine ⟨?_, ?_, ?_, ?_⟩ <;> (try unfold Within) <;> decide +kernel
  · unfold Body.Ordinary Within
    decide +kernel
  · have hL : exactTotal exTurn.stars = ![-1, 2, -1] := by
      ext i
      rw [exactTotal_apply]
      fin_cases i <;>
        simp [exTurn, starsOnly, starAt, Body.realL, Body.realPos, Body.realVel, Body.pos, Body.vel,
          dv, cross_apply, v1, v2, v3, v5, v7] <;> norm_num
    have hS : (exTurn.stars.map Body.weight).sum = 90 := by
      simp [exTurn, starsOnly, starAt, Body.weight, sizeOf3, Body.realPos, Body.realVel, Body.pos,
        Body.vel, dv, v1, v2, v3, v5, v7]
      rw [max_eq_left (by norm_num), max_eq_left (by norm_num), max_eq_left (by norm_num)]
      norm_num
    have hE : 2 ≤ euclid ![-1, 2, -1] := by
      rw [euclid]
      apply Real.le_sqrt_of_sq_le
      simp
      norm_num
    rw [hL, hS]
    have : (exTurn.stars.length : ℝ) = 1 := by simp [exTurn, starsOnly]
    rw [this]
    norm_num
    linarith
  · refine ⟨?_, ?_, ?_, ?_⟩ <;> (try unfold Within) <;> decide +kernel

/-- two stars in the plane z = 0 -/
def exPlane : BGalaxy Float64 :=
  starsOnly [starAt (dv 1 2 0) (dv (-1) 1 0), starAt (dv 3 0 0) (dv 0 2 0)]

/-- `C104_planar` applies to these stars -/
example : ∀ a ∈ exPlane.stars, Body.inside none a = true → a.AllFinite ∧ toExt a.z = .fin 0 ∧
    toExt a.vz = .fin 0 := by
  unfold Body.AllFinite
  decide +kernel

/-- C104: `is_star_aligned` says that these stars are aligned, and `star_align` makes their x and y
coordinates NaN. -/
theorem C104_aligned_lost :
    isStarAligned (Galaxy.ofBodies exPlane) none (Num.ofRat (1 / 10 ^ 5)) (Num.ofRat (1 / 10 ^ 8))
      = .ok true ∧
    ∃ b' : BGalaxy Float64, starAlign (Galaxy.ofBodies exPlane) none = .ok (Galaxy.ofBodies b') ∧
      ∀ a ∈ b'.all, a.x = Flt.nan ∧ a.y = Flt.nan :=
  ⟨by rw [isStarAligned_ofBodies]; decide +kernel, _, starAlign_ofBodies _ none rfl,
    by decide +kernel⟩

end GChop
