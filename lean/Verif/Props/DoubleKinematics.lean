import Verif.Props.Data
import Verif.Props.DoubleAligned

/-!
# C84: energies and angular momenta in double precision
-/

namespace GChop
open Flt

/-! ## One operation -/

theorem up_big {M : ℝ} (h : M ≤ 2 ^ (1000 : ℤ)) : M ≤ 2 ^ (1010 : ℤ) :=
  h.trans (zpow_le_zpow_right₀ (by norm_num) (by norm_num))

theorem err_mul {a b : Float64} (fa : Num.isFinite a = true) (fb : Num.isFinite b = true)
    (hB : |(value a * value b : ℝ)| ≤ 2 ^ (1000 : ℤ)) :
    Num.isFinite (a *. b) = true ∧
      |(value (a *. b) : ℝ) - value a * value b| ≤ |(value a * value b : ℝ)| / 2 ^ 53 + tiny := by
  have e := toExt_mul (toExt_value fa) (toExt_value fb)
  rw [clip64 (cast_big (by rw [Rat.cast_mul]; exact up_big hB))] at e
  refine ⟨isFinite_of e, ?_⟩
  rw [value_eq e]
  have := srnd64_err (value a * value b)
  rw [Rat.cast_mul] at this
  exact this

theorem err_add {a b : Float64} (fa : Num.isFinite a = true) (fb : Num.isFinite b = true)
    (hB : |(value a + value b : ℝ)| ≤ 2 ^ (1000 : ℤ)) :
    Num.isFinite (a +. b) = true ∧
      |(value (a +. b) : ℝ) - (value a + value b)| ≤ |(value a + value b : ℝ)| / 2 ^ 53 + tiny := by
  have e := toExt_add (toExt_value fa) (toExt_value fb)
  rw [clip64 (cast_big (by rw [Rat.cast_add]; exact up_big hB))] at e
  refine ⟨isFinite_of e, ?_⟩
  rw [value_eq e]
  have := srnd64_err (value a + value b)
  rw [Rat.cast_add] at this
  exact this

theorem err_sub {a b : Float64} (fa : Num.isFinite a = true) (fb : Num.isFinite b = true)
    (hB : |(value a - value b : ℝ)| ≤ 2 ^ (1000 : ℤ)) :
    Num.isFinite (a -. b) = true ∧
      |(value (a -. b) : ℝ) - (value a - value b)| ≤ |(value a - value b : ℝ)| / 2 ^ 53 + tiny := by
  have e := toExt_sub (toExt_value fa) (toExt_value fb)
  rw [clip64 (cast_big (by rw [Rat.cast_sub]; exact up_big hB))] at e
  refine ⟨isFinite_of e, ?_⟩
  rw [value_eq e]
  have := srnd64_err (value a - value b)
  rw [Rat.cast_sub] at this
  exact this

/-! ## Kinetic energy, angular momentum, total energy -/

/-- a bound for products of coordinates, with room to overflow -/
theorem room : ∃ N : ℝ, 1 ≤ N ∧ (∀ {a b : Float64}, Within 490 a → Within 490 b →
      Num.isFinite (a *. b) = true ∧ |(value a * value b : ℝ)| ≤ N ∧
      |(value (a *. b) : ℝ) - value a * value b| ≤ |(value a * value b : ℝ)| / 2 ^ 53 + tiny) ∧
    (∀ {a : Float64}, Within 980 a → |(value a : ℝ)| ≤ N) ∧
    ∀ {v : ℝ}, v ≤ 1024 * N → v ≤ 2 ^ (1000 : ℤ) := by
  refine ⟨2 ^ (980 : ℤ), one_le_zpow₀ (by norm_num) (by norm_num), ?_, fun h => h.real, ?_⟩
  · intro a b ha hb
    have h1 : |(value a * value b : ℝ)| ≤ 2 ^ (980 : ℤ) := by
      rw [abs_mul, show (980 : ℤ) = 490 + 490 by norm_num, zpow_add₀ (by norm_num)]
      exact mul_le_mul ha.real hb.real (abs_nonneg _) (zpow_pos (by norm_num) _).le
    have h2 := err_mul ha.1 hb.1 (h1.trans (zpow_le_zpow_right₀ (by norm_num) (by norm_num)))
    exact ⟨h2.1, h1, h2.2⟩
  · intro v h
    refine h.trans ?_
    rw [show (1024 : ℝ) = 2 ^ (10 : ℤ) by norm_num, ← zpow_add₀ (by norm_num)]
    exact zpow_le_zpow_right₀ (by norm_num) (by norm_num)

/-- one component of the angular momentum -/
theorem cross_err {a b c d : Float64} (ha : Within 490 a) (hb : Within 490 b) (hc : Within 490 c)
    (hd : Within 490 d) :
    Num.isFinite (a *. b -. c *. d) = true ∧
    |(value (a *. b -. c *. d) : ℝ) - (value a * value b - value c * value d)|
      ≤ (|(value a * value b : ℝ)| + |(value c * value d : ℝ)|) / 2 ^ 51 + 4 * tiny := by
  obtain ⟨N, hN, mul, -, lim⟩ := room
  obtain ⟨f1, m1, e1⟩ := mul ha hb
  obtain ⟨f2, m2, e2⟩ := mul hc hd
  have t0 : (0 : ℝ) < tiny := by exact_mod_cast tiny_pos
  have t1 : (tiny : ℝ) ≤ 1 := by exact_mod_cast tiny_le
  have n1 := abs_nonneg (value a * value b : ℝ)
  have n2 := abs_nonneg (value c * value d : ℝ)
  have hs : |((value (a *. b) : ℝ) - value (c *. d))|
      ≤ |(value a * value b : ℝ)| + |(value c * value d : ℝ)|
        + (|(value a * value b : ℝ)| / 2 ^ 53 + tiny) + (|(value c * value d : ℝ)| / 2 ^ 53 + tiny) := by
    rw [abs_le] at e1 e2 ⊢
    have := abs_le.1 (le_refl |(value a * value b : ℝ)|)
    have := abs_le.1 (le_refl |(value c * value d : ℝ)|)
    constructor <;> linarith
  obtain ⟨f3, e3⟩ := err_sub f1 f2 (lim (by linarith))
  refine ⟨f3, ?_⟩
  clear mul lim
  generalize |(value a * value b : ℝ)| = A at *
  generalize |(value c * value d : ℝ)| = C at *
  generalize |((value (a *. b) : ℝ) - value (c *. d))| = D at *
  generalize (value (a *. b -. c *. d) : ℝ) = V at *
  generalize (value (a *. b) : ℝ) = P at *
  generalize (value (c *. d) : ℝ) = Q at *
  generalize (value a : ℝ) * value b = p at *
  generalize (value c : ℝ) * value d = q at *
  generalize (tiny : ℝ) = T at *
  rw [abs_le] at e1 e2 e3 ⊢
  norm_num at *
  constructor <;> linarith

/-- the kinetic energy, the exact one -/
noncomputable def exactKinetic (vx vy vz : Float64) : ℝ :=
  ((value vx : ℝ) ^ 2 + (value vy : ℝ) ^ 2 + (value vz : ℝ) ^ 2) / 2

theorem kinetic_err {u v w : Float64} (hu : Within 490 u) (hv : Within 490 v) (hw : Within 490 w) :
    Num.isFinite (Num.ofRat (1 / 2) *. ((u *. u +. v *. v) +. w *. w)) = true ∧
    |(value (Num.ofRat (1 / 2) *. ((u *. u +. v *. v) +. w *. w)) : ℝ) - exactKinetic u v w|
      ≤ exactKinetic u v w * (5 / 2 ^ 53) + 6 * tiny := by
  obtain ⟨N, hN, mul, -, lim⟩ := room
  obtain ⟨f1, m1, e1⟩ := mul hu hu
  obtain ⟨f2, m2, e2⟩ := mul hv hv
  obtain ⟨f3, m3, e3⟩ := mul hw hw
  have t0 : (0 : ℝ) < tiny := by exact_mod_cast tiny_pos
  have t1 : (tiny : ℝ) ≤ 1 := by exact_mod_cast tiny_le
  have n1 := mul_self_nonneg (value u : ℝ)
  have n2 := mul_self_nonneg (value v : ℝ)
  have n3 := mul_self_nonneg (value w : ℝ)
  rw [abs_of_nonneg n1] at m1 e1
  rw [abs_of_nonneg n2] at m2 e2
  rw [abs_of_nonneg n3] at m3 e3
  have hK : exactKinetic u v w
      = ((value u : ℝ) * value u + value v * value v + value w * value w) / 2 := by
    unfold exactKinetic
    ring
  rw [hK]
  have hh : toExt (Num.ofRat (1 / 2) : Float64) = .fin (1 / 2) := by decide +kernel
  have hv2 : value (Num.ofRat (1 / 2) : Float64) = 1 / 2 := value_eq hh
  have sz : ∀ {p q r d : ℝ}, |p - q| ≤ d → |q| ≤ r → |p| ≤ r + d := by
    intro p q r d h1 h2
    have := abs_sub_abs_le_abs_sub p q
    linarith
  have d1 : |((value (u *. u) : ℝ) + value (v *. v)) - (value u * value u + value v * value v)|
      ≤ (value u * value u + value v * value v : ℝ) / 2 ^ 53 + 2 * tiny := by
    rw [abs_le] at e1 e2 ⊢
    constructor <;> linarith
  have s1 := sz d1 (abs_of_nonneg (add_nonneg n1 n2)).le
  obtain ⟨f4, e4⟩ := err_add f1 f2 (lim (by linarith))
  have d2 : |((value (u *. u +. v *. v) : ℝ) + value (w *. w))
      - (value u * value u + value v * value v + value w * value w)|
      ≤ (value u * value u + value v * value v + value w * value w : ℝ) * (5 / 2 / 2 ^ 53) + 5 * tiny := by
    rw [abs_le] at d1 e3 e4 ⊢
    constructor <;> linarith
  have s2 := sz d2 (abs_of_nonneg (add_nonneg (add_nonneg n1 n2) n3)).le
  obtain ⟨f5, e5⟩ := err_add f4 f3 (lim (by linarith))
  have d3 : |(value (u *. u +. v *. v +. w *. w) : ℝ)
      - (value u * value u + value v * value v + value w * value w)|
      ≤ (value u * value u + value v * value v + value w * value w : ℝ) * (15 / 4 / 2 ^ 53) + 7 * tiny := by
    rw [abs_le] at d2 e5 ⊢
    constructor <;> linarith
  have s3 := sz d3 (abs_of_nonneg (add_nonneg (add_nonneg n1 n2) n3)).le
  have hp : |(value (Num.ofRat (1 / 2) : Float64) : ℝ) * value (u *. u +. v *. v +. w *. w)|
      = 1 / 2 * |(value (u *. u +. v *. v +. w *. w) : ℝ)| := by
    rw [hv2, abs_mul]
    norm_num
  obtain ⟨f6, e6⟩ := err_mul (isFinite_of hh) f5 (lim (by rw [hp]; linarith))
  refine ⟨f6, ?_⟩
  rw [hp, hv2] at e6
  clear mul lim sz hp
  push_cast at e6
  rw [abs_le] at d3 e6 ⊢
  constructor <;> linarith

/-- the total energy -/
theorem total_err {K p : Float64} {k : ℝ} (fK : Num.isFinite K = true) (hk : 0 ≤ k)
    (hK : |(value K : ℝ) - k| ≤ k * (5 / 2 ^ 53) + 6 * tiny) (hk2 : k ≤ 4 * 2 ^ (980 : ℤ))
    (hp : Within 980 p) :
    Num.isFinite (K +. p) = true ∧
    |(value (K +. p) : ℝ) - (k + value p)| ≤ (k + |(value p : ℝ)|) * (7 / 2 ^ 53) + 8 * tiny := by
  have t0 : (0 : ℝ) < tiny := by exact_mod_cast tiny_pos
  have t1 : (tiny : ℝ) ≤ 1 := by exact_mod_cast tiny_le
  have hp1 := hp.real
  obtain ⟨N, hN, lim⟩ : ∃ N : ℝ, N = 2 ^ (980 : ℤ) ∧ ∀ {v : ℝ}, v ≤ 1024 * N → v ≤ 2 ^ (1000 : ℤ) := by
    refine ⟨_, rfl, fun {v} h => h.trans ?_⟩
    rw [show (1024 : ℝ) = 2 ^ (10 : ℤ) by norm_num, ← zpow_add₀ (by norm_num)]
    exact zpow_le_zpow_right₀ (by norm_num) (by norm_num)
  have hN1 : 1 ≤ N := by rw [hN]; exact one_le_zpow₀ (by norm_num) (by norm_num)
  rw [← hN] at hk2 hp1
  clear hN
  have n1 := abs_nonneg (value p : ℝ)
  have h1 : |(value K : ℝ) + value p| ≤ k + |(value p : ℝ)| + (k * (5 / 2 ^ 53) + 6 * tiny) := by
    have := abs_le.1 (le_refl |(value p : ℝ)|)
    rw [abs_le] at hK ⊢
    constructor <;> linarith
  obtain ⟨f, e⟩ := err_add fK hp.1 (lim (by linarith))
  refine ⟨f, ?_⟩
  clear lim
  rw [abs_le] at e hK ⊢
  constructor <;> linarith

theorem exactKinetic_le {u v w : Float64} (hu : Within 490 u) (hv : Within 490 v) (hw : Within 490 w) :
    0 ≤ exactKinetic u v w ∧ exactKinetic u v w ≤ 4 * 2 ^ (980 : ℤ) := by
  have h : ∀ {a : Float64}, Within 490 a → (value a : ℝ) ^ 2 ≤ 2 ^ (980 : ℤ) := by
    intro a ha
    rw [← sq_abs, sq, show (980 : ℤ) = 490 + 490 by norm_num, zpow_add₀ (by norm_num)]
    exact mul_le_mul ha.real ha.real (abs_nonneg _) (zpow_pos (by norm_num) _).le
  have h1 := h hu
  have h2 := h hv
  have h3 := h hw
  have h0 : (0 : ℝ) < 2 ^ (980 : ℤ) := zpow_pos (by norm_num) _
  generalize (2 : ℝ) ^ (980 : ℤ) = N at *
  unfold exactKinetic
  exact ⟨by positivity, by linarith⟩

/-! ## C84 -/

/-- C84: the derived columns of a particle set in double precision.  With coordinates and velocities up
to `2^490` and potentials up to `2^980` in size, everything is finite; kinetic energies have a relative
error of at most `5 / 2^53`, total energies an error of at most `7 / 2^53` of the sum of the sizes of
both energies, angular momenta an error of at most `2^-51` of the sizes of the two products (plus a
few times the smallest double). -/
theorem C84_columns {t : PType} {a : PArgs Float64} {p : ParticleSet Float64}
    (h : ParticleSet.new t a = .ok p)
    (hc : ∀ c, (c ∈ a.x ∨ c ∈ a.y ∨ c ∈ a.z ∨ c ∈ a.vx ∨ c ∈ a.vy ∨ c ∈ a.vz) → Within 490 c)
    (hp : ∀ pots, a.potential = some pots → ∀ c ∈ pots, Within 980 c) (i : Nat) (hi : i < a.m.length) :
    ∃ x y z vx vy vz K jx jy jz : Float64,
      a.x[i]? = some x ∧ a.y[i]? = some y ∧ a.z[i]? = some z ∧
      a.vx[i]? = some vx ∧ a.vy[i]? = some vy ∧ a.vz[i]? = some vz ∧
      p.kineticEnergy[i]? = some K ∧ p.Jx[i]? = some jx ∧ p.Jy[i]? = some jy ∧ p.Jz[i]? = some jz ∧
      Num.isFinite K = true ∧ Num.isFinite jx = true ∧ Num.isFinite jy = true ∧
      Num.isFinite jz = true ∧
      |(value K : ℝ) - exactKinetic vx vy vz| ≤ exactKinetic vx vy vz * (5 / 2 ^ 53) + 6 * tiny ∧
      |(value jx : ℝ) - (value y * value vz - value z * value vy)|
        ≤ (|(value y * value vz : ℝ)| + |(value z * value vy : ℝ)|) / 2 ^ 51 + 4 * tiny ∧
      |(value jy : ℝ) - (value z * value vx - value x * value vz)|
        ≤ (|(value z * value vx : ℝ)| + |(value x * value vz : ℝ)|) / 2 ^ 51 + 4 * tiny ∧
      |(value jz : ℝ) - (value x * value vy - value y * value vx)|
        ≤ (|(value x * value vy : ℝ)| + |(value y * value vx : ℝ)|) / 2 ^ 51 + 4 * tiny ∧
      ∀ pots, a.potential = some pots → ∃ te pe E, p.totalEnergy = some te ∧ pots[i]? = some pe ∧
        te[i]? = some E ∧ Num.isFinite E = true ∧
        |(value E : ℝ) - (exactKinetic vx vy vz + value pe)|
          ≤ (exactKinetic vx vy vz + |(value pe : ℝ)|) * (7 / 2 ^ 53) + 8 * tiny := by
  obtain ⟨-, -, -, -, hcell, -⟩ := C02_derived_kinematics h
  obtain ⟨x, y, z, vx, vy, vz, h1, h2, h3, h4, h5, h6, hK, hJx, hJy, hJz, hE⟩ := hcell i hi
  have wx := hc x (Or.inl (List.mem_of_getElem? h1))
  have wy := hc y (Or.inr (Or.inl (List.mem_of_getElem? h2)))
  have wz := hc z (Or.inr (Or.inr (Or.inl (List.mem_of_getElem? h3))))
  have wu := hc vx (Or.inr (Or.inr (Or.inr (Or.inl (List.mem_of_getElem? h4)))))
  have wv := hc vy (Or.inr (Or.inr (Or.inr (Or.inr (Or.inl (List.mem_of_getElem? h5))))))
  have ww := hc vz (Or.inr (Or.inr (Or.inr (Or.inr (Or.inr (List.mem_of_getElem? h6))))))
  obtain ⟨fK, eK⟩ := kinetic_err wu wv ww
  obtain ⟨f1, e1⟩ := cross_err wy ww wz wv
  obtain ⟨f2, e2⟩ := cross_err wz wu wx ww
  obtain ⟨f3, e3⟩ := cross_err wx wv wy wu
  refine ⟨x, y, z, vx, vy, vz, _, _, _, _, h1, h2, h3, h4, h5, h6, hK, hJx, hJy, hJz, fK, f1, f2, f3, eK,
    e1, e2, e3, fun pots hpots => ?_⟩
  obtain ⟨te, ke, pe, g1, g2, g3, -, g4⟩ := hE pots hpots
  rw [hK] at g2
  obtain rfl := Option.some.inj g2
  have hk := exactKinetic_le wu wv ww
  obtain ⟨fE, eE⟩ := total_err fK hk.1 eK hk.2 (hp pots hpots pe (List.mem_of_getElem? g3))
  exact ⟨te, pe, _, g1, g3, g4, fE, eE⟩

/-- C84: so the test `E <= 0` of `jcirc` is right for every particle whose exact energy is farther from
zero than that error. -/
theorem C84_bound {t : PType} {a : PArgs Float64} {p : ParticleSet Float64}
    (h : ParticleSet.new t a = .ok p)
    (hc : ∀ c, (c ∈ a.x ∨ c ∈ a.y ∨ c ∈ a.z ∨ c ∈ a.vx ∨ c ∈ a.vy ∨ c ∈ a.vz) → Within 490 c)
    {pots : List Float64} (hpots : a.potential = some pots) (hp : ∀ c ∈ pots, Within 980 c)
    {i : Nat} {vx vy vz pe : Float64} (hx : a.vx[i]? = some vx) (hy : a.vy[i]? = some vy)
    (hz : a.vz[i]? = some vz) (hpe : pots[i]? = some pe) (hi : i < a.m.length)
    (hfar : (exactKinetic vx vy vz + |(value pe : ℝ)|) * (7 / 2 ^ 53) + 8 * tiny
      < |exactKinetic vx vy vz + value pe|) :
    ∃ te E, p.totalEnergy = some te ∧ te[i]? = some E ∧
      ((E <=. Num.ofRat 0) = true ↔ exactKinetic vx vy vz + value pe ≤ 0) := by
  obtain ⟨x, y, z, vx', vy', vz', K, jx, jy, jz, -, -, -, h4, h5, h6, -, -, -, -, -, -, -, -, -, -, -, -, hE⟩ :=
    C84_columns h hc (fun q hq => by rw [hpots] at hq; obtain rfl := Option.some.inj hq; exact hp) i hi
  obtain ⟨te, pe', E, g1, g2, g3, g4, g5⟩ := hE pots hpots
  rw [hx] at h4
  rw [hy] at h5
  rw [hz] at h6
  rw [hpe] at g2
  obtain rfl := Option.some.inj h4
  obtain rfl := Option.some.inj h5
  obtain rfl := Option.some.inj h6
  obtain rfl := Option.some.inj g2
  refine ⟨te, E, g1, g3, ?_⟩
  have hle : (E <=. Num.ofRat 0) = true ↔ (value E : ℝ) ≤ 0 := by
    have h0 : toExt (Num.ofRat 0 : Float64) = .fin 0 := toExt_zero
    rw [show (E <=. Num.ofRat 0) = Ext.le (toExt E) (toExt (Num.ofRat 0 : Float64)) from rfl,
      toExt_value g4, h0]
    simp [Ext.le]
  rw [hle]
  rw [abs_le] at g5
  rcases lt_abs.1 hfar with h7 | h7
  · constructor <;> intro <;> linarith
  · constructor <;> intro <;> linarith

/-- one star at the origin -/
def oneStar (vx vy vz pot : ℚ) : PArgs Float64 where
  m := [Num.ofRat 1]
  x := [Num.ofRat 0]
  y := [Num.ofRat 0]
  z := [Num.ofRat 0]
  vx := [Num.ofRat vx]
  vy := [Num.ofRat vy]
  vz := [Num.ofRat vz]
  potential := some [Num.ofRat pot]
  softening := Num.ofRat 0

/-- C84 (negation near zero): a star with a positive energy for which the test says bound. -/
theorem C84_unbound_kept :
    let v : ℚ := 1 + 1 / 2 ^ 52
    let pot : ℚ := -(1 / 2 + 1 / 2 ^ 52)
    (value (Num.ofRat v : Float64) = v ∧ value (Num.ofRat pot : Float64) = pot ∧ 0 < v ^ 2 / 2 + pot) ∧
    ∃ p E, ParticleSet.new .stars (oneStar v 0 0 pot) = .ok p ∧ p.totalEnergy = some [E] ∧
      (E <=. Num.ofRat 0) = true := by
  refine ⟨⟨by decide +kernel, by decide +kernel, by norm_num⟩, _, _, rfl, rfl, by decide +kernel⟩

/-- C84 (negation near zero): a star with a negative energy for which the test says unbound. -/
theorem C84_bound_lost :
    let v : ℚ := 1 + 47453133 / 2 ^ 52
    let w : ℚ := 46341 / 2 ^ 42
    let pot : ℚ := -(1 + (2 * 47453133 + 2) / 2 ^ 52) / 2
    (value (Num.ofRat v : Float64) = v ∧ value (Num.ofRat w : Float64) = w ∧
      value (Num.ofRat pot : Float64) = pot ∧ (v ^ 2 + w ^ 2 + w ^ 2) / 2 + pot < 0) ∧
    ∃ p E, ParticleSet.new .stars (oneStar v w w pot) = .ok p ∧ p.totalEnergy = some [E] ∧
      (E <=. Num.ofRat 0) = false := by
  refine ⟨⟨by decide +kernel, by decide +kernel, by decide +kernel, by norm_num⟩, _, _, rfl, rfl,
    by decide +kernel⟩

/-- the hypotheses of `C84_columns` and `C84_bound` hold for a star -/
example : ∃ p te E, ParticleSet.new .stars (oneStar 1 0 0 (-2)) = .ok p ∧ p.totalEnergy = some te ∧
    te[0]? = some E ∧ (E <=. Num.ofRat 0) = true := by
  have hk : exactKinetic (Num.ofRat 1) (Num.ofRat 0) (Num.ofRat 0) = 1 / 2 := by
    have v1 : value (Num.ofRat 1 : Float64) = 1 := by decide +kernel
    have v0 : value (Num.ofRat 0 : Float64) = 0 := by decide +kernel
    simp [exactKinetic, v0, v1]
  have hv : value (Num.ofRat (-2) : Float64) = -2 := by decide +kernel
  have ht : (tiny : ℝ) ≤ 1 / 2 ^ 40 := by
    have : tiny ≤ 1 / 2 ^ 40 := by
      unfold tiny
      rw [show (1 : ℚ) / 2 ^ 40 = 2 ^ (-40 : ℤ) by norm_num]
      exact zpow_le_zpow_right₀ (by norm_num) (by norm_num)
    have := (Rat.cast_le (K := ℝ)).2 this
    push_cast at this
    exact this
  obtain ⟨te, E, h1, h2, h3⟩ := C84_bound (i := 0) (vx := Num.ofRat 1) (vy := Num.ofRat 0)
    (vz := Num.ofRat 0) (pe := Num.ofRat (-2)) (a := oneStar 1 0 0 (-2)) (t := .stars) rfl (by
      have w0 : Within 490 (Num.ofRat 0) := by unfold Within; decide +kernel
      have w1 : Within 490 (Num.ofRat 1) := by unfold Within; decide +kernel
      simp only [oneStar, List.mem_singleton]
      rintro c (rfl | rfl | rfl | rfl | rfl | rfl) <;> assumption) rfl (by
      simp only [List.mem_singleton]
      rintro c rfl
      unfold Within
      decide +kernel) rfl rfl rfl rfl (by decide) (by
      rw [hk, hv]
      norm_num
      norm_num at ht
      linarith)
  refine ⟨_, te, E, rfl, h1, h2, h3.2 ?_⟩
  rw [hk, hv]
  norm_num

end GChop
