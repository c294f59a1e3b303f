import Verif.Lemmas.CutRadius
import Verif.Props.Pipeline
import Verif.Props.RawHistogram

/-! # Centring, aligning and labelling in doubles and in exact arithmetic

C112: `star_align(center(galaxy))` in doubles, followed by the circularities and the labels, against the
same steps in exact arithmetic. -/

namespace GChop

open Flt Matrix

/-! ## The exact quantities -/

/-- the particle in exact arithmetic with the potential `φ` -/
noncomputable def potBody (φ : Body Float64 → ℝ) (a : Body Float64) : KBody ℝ :=
  { kBody a with pot := .fin (φ a) }

/-- the galaxy in exact arithmetic with the potential `φ` -/
noncomputable def potGalaxy (φ : Body Float64 → ℝ) (b : BGalaxy Float64) : KGalaxy ℝ where
  stars := b.stars.map (potBody φ)
  dm := b.dm.map (potBody φ)
  gas := b.gas.map (potBody φ)
  hasPot := b.hasPot
  softS := .fin (value b.softS)
  softDm := .fin (value b.softDm)
  softG := .fin (value b.softG)

/-- specific energy -/
noncomputable def orbitE (φ : Body Float64 → ℝ) (a : Body Float64) : ℝ :=
  exactKinetic a.vx a.vy a.vz + φ a

/-- the particle seen from `c` -/
noncomputable def seenFrom (φ : Body Float64 → ℝ) (c a : Body Float64) : KBody ℝ :=
  (potBody φ a).translate (kBody c).r

/-- specific angular momentum about `c` -/
noncomputable def aboutL (c a : Body Float64) : Fin 3 → ℝ :=
  crossProduct ((kBody a).r - (kBody c).r) (kBody a).v

/-- the square of the distance from `c` -/
def cutDist (c a : Body Float64) : ℚ :=
  (value a.x - value c.x) ^ 2 + (value a.y - value c.y) ^ 2 + (value a.z - value c.z) ^ 2

/-- the stars inside the cut radius about `c`; all stars if there is none -/
def cutStars (rc : Option Float64) (b : BGalaxy Float64) (c : Body Float64) : List (Body Float64) :=
  match rc with
  | none => b.stars
  | some r => b.stars.filter fun a => decide (cutDist c a < value r ^ 2)

/-- the cut radius in exact arithmetic -/
noncomputable def exactCut (rc : Option Float64) : Option (Ext ℝ) := rc.map fun r => .fin (value r : ℝ)

/-- The cut radius is positive and no star is so close to it that rounding could matter. -/
def CutClear (rc : Option Float64) (b : BGalaxy Float64) (c : Body Float64) : Prop :=
  ∀ r, rc = some r → Num.isFinite r = true ∧ 0 < value r ∧
    ∀ a ∈ b.stars, sizeOf3 ((kBody a).r - (kBody c).r) ^ 2 / 2 ^ 47 < |(cutDist c a : ℝ) - (value r : ℝ) ^ 2|

/-- total angular momentum of the stars inside the cut radius about `c` -/
noncomputable def totalJ (rc : Option Float64) (b : BGalaxy Float64) (c : Body Float64) : Fin 3 → ℝ :=
  ((cutStars rc b c).map fun a => (value a.m : ℝ) • aboutL c a).sum

/-- specific angular momentum about the axis through `c` along the total angular momentum of the stars -/
noncomputable def axisJz (rc : Option Float64) (b : BGalaxy Float64) (c a : Body Float64) : ℝ :=
  (totalJ rc b c 0 * aboutL c a 0 + totalJ rc b c 1 * aboutL c a 1 + totalJ rc b c 2 * aboutL c a 2) /
    euclid (totalJ rc b c)

/-- the size of the position seen from `c` times the size of the velocity -/
noncomputable def moment (c a : Body Float64) : ℝ :=
  sizeOf3 ((kBody a).r - (kBody c).r) * sizeOf3 (kBody a).v

/-- what the stars can contribute to the total at most, times a number of operations -/
noncomputable def starLoad (rc : Option Float64) (b : BGalaxy Float64) (c : Body Float64) : ℝ :=
  ((cutStars rc b c).length + 4) * ((cutStars rc b c).map fun a => max |(value a.m : ℝ)| (2 ^ (-100 : ℤ)) * moment c a).sum

/-- error bound of the energy computed after centring and aligning -/
noncomputable def orbitErrE (φ η : Body Float64 → ℝ) (a : Body Float64) : ℝ :=
  sizeOf3 (kBody a).v * sizeOf3 (kBody a).v / 2 ^ 45 + |φ a| / 2 ^ 50 + 2 * η a

/-- error bound of the angular momentum computed after centring and aligning: rounding, and the direction
of the total -/
noncomputable def axisErrJz (rc : Option Float64) (b : BGalaxy Float64) (c a : Body Float64) : ℝ :=
  moment c a * (1 / 2 ^ 44 + starLoad rc b c / (2 ^ 48 * euclid (totalJ rc b c)))

/-- The particle `c` at index `i0` is the lowest in doubles and in exact arithmetic, coordinates are far
from overflow, no star is near the cut radius, and the stars inside it rotate about an axis that is not
the z axis and that rounding does not change much.  `φ` is the exact potential, and the given potential differs from it by `η` at most. -/
structure Turning (rc : Option Float64) (b : BGalaxy Float64) (φ η : Body Float64 → ℝ) (i0 : Nat)
    (c : Body Float64) : Prop where
  hasPot : b.hasPot = true
  mass : ∀ a ∈ b.all, Within 200 a.m
  pos : ∀ a ∈ b.all, ∀ i, Within 199 (a.pos i)
  vel : ∀ a ∈ b.all, ∀ i, Within 200 (a.vel i)
  pot : ∀ a ∈ b.all, Within 980 a.pot ∧ |(value a.pot : ℝ) - φ a| ≤ η a
  centre : b.all[i0]? = some c
  lowest : ∀ (j : Nat) d, b.all[j]? = some d → j ≠ i0 → φ c + η c < φ d - η d
  size : b.stars.length ≤ 2 ^ 30
  cut : CutClear rc b c
  total : ∀ i, |totalJ rc b c i| ≤ 2 ^ (199 : ℤ)
  axis : ∃ i, i ≠ 2 ∧ (2 : ℝ) ^ (-199 : ℤ) ≤ |totalJ rc b c i| ∧ starLoad rc b c ≤ 2 ^ 48 * |totalJ rc b c i|

/-- `M` is the size of the lowest energy and `J` the largest angular momentum about the axis of the bound
particles, in exact arithmetic; the errors of bound particles are at most `θ` times these, no error is
large enough to move an energy across zero, and only particles at the centre or at rest have no angular
momentum about the axis. -/
structure AxisResolved (rc : Option Float64) (b : BGalaxy Float64) (φ η : Body Float64 → ℝ) (c : Body Float64) (M J θ : ℝ) :
    Prop where
  zero : ∀ a ∈ b.all, axisJz rc b c a = 0 → (∀ i, value (a.pos i) = value (c.pos i)) ∨ ∀ i, value (a.vel i) = 0
  sign : ∀ a ∈ b.all, orbitErrE φ η a < |orbitE φ a|
  M_pos : 0 < M
  M_le : ∀ a ∈ b.all, -M ≤ orbitE φ a
  M_eq : ∃ a ∈ b.all, orbitE φ a = -M
  J_pos : 0 < J
  J_le : ∀ a ∈ b.all, orbitE φ a < 0 → |axisJz rc b c a| ≤ J
  J_eq : ∃ a ∈ b.all, orbitE φ a < 0 ∧ |axisJz rc b c a| = J
  E : ∀ a ∈ b.all, orbitE φ a < 0 → orbitErrE φ η a ≤ θ * M
  Jz : ∀ a ∈ b.all, orbitE φ a < 0 → axisErrJz rc b c a ≤ θ * J

/-! ## The two pipelines -/

section
variable {rc : Option Float64} {φ η : Body Float64 → ℝ} {b : BGalaxy Float64} {i0 : Nat} {c : Body Float64}

theorem potBody_r (φ : Body Float64 → ℝ) (a : Body Float64) (i : Fin 3) :
    (potBody φ a).r i = value (a.pos i) := by
  fin_cases i <;> rfl

theorem potBody_v (φ : Body Float64 → ℝ) (a : Body Float64) (i : Fin 3) :
    (potBody φ a).v i = value (a.vel i) := by
  fin_cases i <;> rfl

theorem potGalaxy_all (φ : Body Float64 → ℝ) (b : BGalaxy Float64) :
    (potGalaxy φ b).all = b.all.map (potBody φ) := by
  simp [potGalaxy, KGalaxy.all, BGalaxy.all]

theorem Turning.mem (h : Turning rc b φ η i0 c) : c ∈ b.all := List.mem_of_getElem? h.centre

theorem Turning.low (h : Turning rc b φ η i0 c) : LowestParticle b.all i0 c := by
  refine ⟨h.centre, NumOrd.finite_not_nan (h.pot c h.mem).1.1, ?_⟩
  have pc := h.pot c h.mem
  have hc2 := abs_le.1 pc.2
  have main : ∀ (j : Nat) d, b.all[j]? = some d → j ≠ i0 → (value c.pot : ℝ) < value d.pot := by
    intro j d hj hne
    have hd := abs_le.1 (h.pot d (List.mem_of_getElem? hj)).2
    have := h.lowest j d hj hne
    linarith
  intro j d hj _
  have fd := (h.pot d (List.mem_of_getElem? hj)).1.1
  constructor
  · rw [real_le pc.1.1 fd]
    by_cases hij : j = i0
    · subst hij
      rw [h.centre] at hj
      rw [Option.some.inj hj]
    · exact (main j d hj hij).le
  · intro hlt
    rw [real_lt pc.1.1 fd]
    exact main j d hj hlt.ne

theorem finite_lt_pinf {a : Float64} (h : Num.isFinite a = true) : (a <. Num.pinf) = true := by
  obtain ⟨s, m, rfl⟩ := isFinite_iff.1 h
  cases s <;> rfl

/-- `center` in doubles -/
theorem Turning.center_double (h : Turning rc b φ η i0 c) :
    center (Galaxy.ofBodies b) = .ok (Galaxy.ofBodies (b.mapBodies (·.shift c.x c.y c.z))) :=
  C09_center_vector b h.hasPot i0 c h.low (finite_lt_pinf (h.pot c h.mem).1.1)

/-- `center` in exact arithmetic -/
theorem Turning.center_exact (h : Turning rc b φ η i0 c) :
    center (Galaxy.ofBodies (potGalaxy φ b).toB)
      = .ok (Galaxy.ofBodies ((potGalaxy φ b).map (KBody.translate (kBody c).r)).toB) := by
  have hall := potGalaxy_all φ b
  have hlow : LowestParticle (potGalaxy φ b).toB.all i0 (potBody φ c).body := by
    rw [KGalaxy.toB_all, hall, List.map_map]
    refine ⟨by rw [List.getElem?_map, h.centre]; rfl, rfl, ?_⟩
    intro j d hj _
    rw [List.getElem?_map] at hj
    cases hd : b.all[j]? with
    | none => rw [hd] at hj; cases hj
    | some a =>
      rw [hd] at hj
      have hj := Option.some.inj hj
      subst hj
      have e1 : ((Ext.fin (φ c) : Ext ℝ) <=. Ext.fin (φ a)) = decide (φ c ≤ φ a) := Ext.num_le _ _
      have e2 : ((Ext.fin (φ c) : Ext ℝ) <. Ext.fin (φ a)) = decide (φ c < φ a) := Ext.num_lt _ _
      have main : j ≠ i0 → φ c < φ a := by
        intro hne
        have h1 := h.lowest j a hd hne
        have h2 := (abs_nonneg _).trans (h.pot c h.mem).2
        have h3 := (abs_nonneg _).trans (h.pot a (List.mem_of_getElem? hd)).2
        linarith
      constructor
      · show ((Ext.fin (φ c) : Ext ℝ) <=. Ext.fin (φ a)) = true
        rw [e1, decide_eq_true_eq]
        by_cases hij : j = i0
        · subst hij
          rw [h.centre] at hd
          rw [Option.some.inj hd]
        · exact (main hij).le
      · intro hlt
        show ((Ext.fin (φ c) : Ext ℝ) <. Ext.fin (φ a)) = true
        rw [e2, decide_eq_true_eq]
        exact main hlt.ne
  have hi := hlow.lowIdx_eq rfl
  have hpots : (potGalaxy φ b).toB.all.map (·.pot) = (potGalaxy φ b).all.map (·.pot) := by
    rw [KGalaxy.toB_all, List.map_map]; rfl
  rw [hpots] at hi
  have hne : (potGalaxy φ b).all ≠ [] := by
    rw [hall]
    simpa using List.ne_nil_of_mem h.mem
  obtain ⟨k, -, hk, hcen⟩ := center_toB (potGalaxy φ b) h.hasPot hne
  rw [hi, hall, List.getElem?_map, h.centre] at hk
  have hk := Option.some.inj hk
  rw [hcen, ← hk]
  rfl

theorem cutStars_sub {a : Body Float64} (h : a ∈ cutStars rc b c) : a ∈ b.stars := by
  cases rc with
  | none => exact h
  | some r => exact (List.mem_filter.1 h).1

theorem cutStars_length : (cutStars rc b c).length ≤ b.stars.length := by
  cases rc with
  | none => exact le_rfl
  | some r => exact List.length_filter_le _ _

theorem seenFrom_dist (φ : Body Float64 → ℝ) (c a : Body Float64) :
    (seenFrom φ c a).r ⬝ᵥ (seenFrom φ c a).r = (cutDist c a : ℝ) := by
  rw [dot_self]
  simp [seenFrom, KBody.translate, potBody, kBody, cutDist]
  ring

theorem totalL_orbit (φ : Body Float64 → ℝ) (h : CutClear rc b c) :
    totalL (rc.map fun r => (value r : ℝ)) ((potGalaxy φ b).map (KBody.translate (kBody c).r)).stars
      = totalJ rc b c := by
  have key : ((potGalaxy φ b).map (KBody.translate (kBody c).r)).stars.filter
      (KBody.inside (rc.map fun r => (value r : ℝ))) = (cutStars rc b c).map (seenFrom φ c) := by
    have e : ((potGalaxy φ b).map (KBody.translate (kBody c).r)).stars = b.stars.map (seenFrom φ c) := by
      simp only [KGalaxy.map, potGalaxy, List.map_map]
      rfl
    rw [e]
    cases rc with
    | none => exact List.filter_eq_self.2 fun _ _ => rfl
    | some r =>
      rw [List.filter_map]
      congr 1
      refine List.filter_congr fun a _ => ?_
      show decide ((0 : ℝ) < value r ∧ (seenFrom φ c a).r ⬝ᵥ (seenFrom φ c a).r < value r * value r) = _
      have h0 : (0 : ℝ) < value r := by exact_mod_cast (h r rfl).2.1
      rw [seenFrom_dist, decide_eq_decide]
      constructor
      · rintro ⟨-, h1⟩
        rw [← sq] at h1
        exact_mod_cast h1
      · intro h1
        refine ⟨h0, ?_⟩
        rw [← sq]
        exact_mod_cast h1
  unfold totalL totalJ
  rw [key, List.map_map]
  rfl

theorem Turning.perp (h : Turning rc b φ η i0 c) : totalJ rc b c 0 ≠ 0 ∨ totalJ rc b c 1 ≠ 0 := by
  obtain ⟨i, hi, h1, -⟩ := h.axis
  have hpos : 0 < |totalJ rc b c i| := lt_of_lt_of_le (zpow_pos (by norm_num) _) h1
  fin_cases i
  · exact Or.inl (abs_pos.1 hpos)
  · exact Or.inr (abs_pos.1 hpos)
  · exact absurd rfl hi

/-- both steps in exact arithmetic -/
theorem Turning.exact (h : Turning rc b φ η i0 c) :
    (center (Galaxy.ofBodies (potGalaxy φ b).toB) >>= fun g => starAlign g (exactCut rc))
      = .ok (Galaxy.ofBodies (((potGalaxy φ b).map (KBody.translate (kBody c).r)).rotate
          (alignK (totalJ rc b c))).toB) := by
  rw [h.center_exact, Py.ok_bind]
  have hpos : ∀ x ∈ rc.map (fun r => (value r : ℝ)), 0 < x := by
    intro x hx
    obtain ⟨r, hr, rfl⟩ := Option.mem_map.1 hx
    exact_mod_cast (h.cut r hr).2.1
  have := starAlign_toB ((potGalaxy φ b).map (KBody.translate (kBody c).r))
    (rc.map fun r => (value r : ℝ)) hpos (by rw [totalL_orbit φ h.cut]; exact h.perp)
  rw [totalL_orbit φ h.cut, Option.map_map] at this
  exact this

/-! ## The total in doubles -/

/-- the particle after `center` is next to the exact one -/
theorem Turning.near (h : Turning rc b φ η i0 c) {a : Body Float64} (ha : a ∈ b.all) :
    NearBody (a.shift c.x c.y c.z) (seenFrom φ c a) := by
  have hpc := h.pos c h.mem
  have off : ∀ i, Offset (a.pos i) (c.pos i) ((a.shift c.x c.y c.z).pos i) := by
    have w : ∀ {x : Float64}, Within 199 x → Within 1022 x := fun hx =>
      ⟨hx.1, hx.2.trans (zpow_le_zpow_right₀ (by norm_num) (by norm_num))⟩
    intro i
    have := sub_offset (w (h.pos a ha i)) (w (hpc i))
    fin_cases i <;> exact this
  have hr : ∀ i, (seenFrom φ c a).r i = (value (a.pos i) : ℝ) - value (c.pos i) := by
    intro i
    fin_cases i <;> rfl
  refine ⟨⟨h.mass a ha, rfl⟩, fun i => ?_, fun i => ⟨h.vel a ha i, ?_⟩⟩
  · rw [hr]
    refine ⟨(off i).1, ?_, ?_⟩
    · have := (Rat.cast_le (K := ℝ)).2 (off i).2.1
      push_cast at this
      exact this
    · have h1 := (h.pos a ha i).real
      have h2 := (hpc i).real
      refine (abs_sub _ _).trans ((add_le_add h1 h2).trans (le_of_eq ?_))
      rw [← two_mul, ← zpow_one_add₀ (by norm_num)]
      norm_num
  · fin_cases i <;> rfl

theorem seenFrom_L (φ : Body Float64 → ℝ) (c a : Body Float64) : (seenFrom φ c a).L = aboutL c a := rfl

theorem seenFrom_weight (φ : Body Float64 → ℝ) (c a : Body Float64) :
    (seenFrom φ c a).weight = max |(value a.m : ℝ)| (2 ^ (-100 : ℤ)) * moment c a := rfl

theorem moment_pos (c a : Body Float64) : 0 < moment c a := by
  have h : ∀ v, 0 < sizeOf3 v := fun v => lt_of_lt_of_le (zpow_pos (by norm_num) _) (le_max_right _ _)
  exact mul_pos (h _) (h _)

theorem totalJ_apply (rc : Option Float64) (b : BGalaxy Float64) (c : Body Float64) (i : Fin 3) :
    totalJ rc b c i = ((cutStars rc b c).map fun a => ((value a.m : ℝ) • aboutL c a) i).sum := by
  unfold totalJ
  induction cutStars rc b c with
  | nil => rfl
  | cons a l ih => simp [ih]

variable {sm : List Float64 → Float64}

/-- the totals that `star_align` computes -/
theorem Turning.totals (h : Turning rc b φ η i0 c) (hs : ∀ l, Added l (sm l)) (i : Fin 3) :
    ∀ f : Body Float64 → Float64, (i = 0 ∧ f = fun a => a.m *. a.jx) ∨ (i = 1 ∧ f = fun a => a.m *. a.jy) ∨
      (i = 2 ∧ f = fun a => a.m *. a.jz) →
    Num.isFinite (sm (((cutStars rc b c).map (·.shift c.x c.y c.z)).map f)) = true ∧
      |(value (sm (((cutStars rc b c).map (·.shift c.x c.y c.z)).map f)) : ℝ) - totalJ rc b c i|
        ≤ starLoad rc b c / 2 ^ 51 := by
  intro f hf
  set n : ℝ := ((cutStars rc b c).length : ℝ) with hn
  set W : ℝ := ((cutStars rc b c).map fun a => max |(value a.m : ℝ)| (2 ^ (-100 : ℤ)) * moment c a).sum with hW
  have n0 : 0 ≤ n := Nat.cast_nonneg _
  have n1 : n ≤ 2 ^ 30 := by rw [hn]; exact_mod_cast cutStars_length.trans h.size
  have mem : ∀ a ∈ cutStars rc b c, a ∈ b.all := fun a ha => by simp [BGalaxy.all, cutStars_sub ha]
  have term : ∀ a ∈ cutStars rc b c, Fuzzy (f (a.shift c.x c.y c.z)) (((value a.m : ℝ) • aboutL c a) i)
      (2 * (max |(value a.m : ℝ)| (2 ^ (-100 : ℤ)) * moment c a)) 8 := by
    intro a ha
    obtain ⟨t0, t1, t2⟩ := (h.near (mem a ha)).star_fuzzy
    rcases hf with ⟨rfl, rfl⟩ | ⟨rfl, rfl⟩ | ⟨rfl, rfl⟩
    · exact t0
    · exact t1
    · exact t2
  have hsum : ((cutStars rc b c).map fun a => 2 * (max |(value a.m : ℝ)| (2 ^ (-100 : ℤ)) * moment c a)).sum
      = 2 * W := by
    rw [hW, List.sum_map_mul_left]
  have hle : ∀ a ∈ cutStars rc b c, 2 * (max |(value a.m : ℝ)| (2 ^ (-100 : ℤ)) * moment c a) ≤ 2 ^ (700 : ℤ) := by
    intro a ha
    have hb := h.near (mem a ha)
    have := (hb.mass_mod.triple hb.pos_mod hb.vel_mod).2
    refine le_trans (le_of_eq ?_) this
    have e : max |(seenFrom φ c a).m| (2 ^ (-100 : ℤ)) * (sizeOf3 (seenFrom φ c a).r * sizeOf3 (seenFrom φ c a).v
        + sizeOf3 (seenFrom φ c a).r * sizeOf3 (seenFrom φ c a).v) = 2 * (seenFrom φ c a).weight := by
      unfold KBody.weight
      ring
    rw [e]
    rfl
  have hW1 : 2 * W ≤ 2 ^ (1000 : ℤ) := by
    rw [← hsum]
    have h1 := List.sum_le_card_nsmul
      ((cutStars rc b c).map fun a => 2 * (max |(value a.m : ℝ)| (2 ^ (-100 : ℤ)) * moment c a)) ((2 : ℝ) ^ (700 : ℤ)) (by
        intro x hx
        obtain ⟨a, ha, rfl⟩ := List.mem_map.1 hx
        exact hle a ha)
    rw [List.length_map, nsmul_eq_mul] at h1
    refine h1.trans ?_
    have h2 : ((cutStars rc b c).length : ℝ) * 2 ^ (700 : ℤ) ≤ 2 ^ (30 : ℤ) * 2 ^ (700 : ℤ) :=
      mul_le_mul_of_nonneg_right (by rw [← hn]; exact n1) (zpow_pos (by norm_num) _).le
    refine h2.trans ?_
    rw [← zpow_add₀ (by norm_num)]
    exact zpow_le_zpow_right₀ (by norm_num) (by norm_num)
  have hk : 8 + 2 * n ≤ 2 ^ 50 := by norm_num at n1 ⊢; linarith
  have := (hs (((cutStars rc b c).map (·.shift c.x c.y c.z)).map f)).fuzzy (k := 8) (by norm_num) (cutStars rc b c)
    (f := fun a => f (a.shift c.x c.y c.z)) (by rw [List.map_map]; rfl) term hk (by rw [hsum]; exact hW1)
  rw [hsum] at this
  rw [totalJ_apply]
  refine ⟨this.fin, this.err.trans ?_⟩
  have hW0 : 0 ≤ W := by
    apply List.sum_nonneg
    intro x hx
    obtain ⟨a, -, rfl⟩ := List.mem_map.1 hx
    exact mul_nonneg (le_max_of_le_right (zpow_pos (by norm_num) _).le) (moment_pos c a).le
  unfold starLoad
  rw [← hn, ← hW]
  have e1 : (8 + 2 * n) / 2 ^ 53 * (2 * W) = (n + 4) * W / 2 ^ 51 := by ring
  rw [e1]

theorem Turning.load_nonneg (rc : Option Float64) (b : BGalaxy Float64) (c : Body Float64) : 0 ≤ starLoad rc b c := by
  refine mul_nonneg (by positivity) (List.sum_nonneg ?_)
  intro x hx
  obtain ⟨a, -, rfl⟩ := List.mem_map.1 hx
  exact mul_nonneg (le_max_of_le_right (zpow_pos (by norm_num) _).le) (moment_pos c a).le

theorem le_euclid (v : Fin 3 → ℝ) (i : Fin 3) : |v i| ≤ euclid v := by
  apply Real.abs_le_sqrt
  fin_cases i
  · show v 0 ^ 2 ≤ _
    nlinarith [sq_nonneg (v 1), sq_nonneg (v 2)]
  · show v 1 ^ 2 ≤ _
    nlinarith [sq_nonneg (v 0), sq_nonneg (v 2)]
  · show v 2 ^ 2 ≤ _
    nlinarith [sq_nonneg (v 1), sq_nonneg (v 0)]

theorem Turning.euclid_pos (h : Turning rc b φ η i0 c) :
    0 < euclid (totalJ rc b c) ∧ starLoad rc b c ≤ 2 ^ 48 * euclid (totalJ rc b c) := by
  obtain ⟨i, -, h1, h2⟩ := h.axis
  have := le_euclid (totalJ rc b c) i
  exact ⟨lt_of_lt_of_le (lt_of_lt_of_le (zpow_pos (by norm_num) _) h1) this,
    h2.trans (mul_le_mul_of_nonneg_left this (by norm_num))⟩

/-- the three totals of the centred stars, in doubles -/
def totalX (sm : List Float64 → Float64) (rc : Option Float64) (b : BGalaxy Float64) (c : Body Float64) :
    Float64 :=
  sm (((cutStars rc b c).map (·.shift c.x c.y c.z)).map fun a => a.m *. a.jx)
def totalY (sm : List Float64 → Float64) (rc : Option Float64) (b : BGalaxy Float64) (c : Body Float64) :
    Float64 :=
  sm (((cutStars rc b c).map (·.shift c.x c.y c.z)).map fun a => a.m *. a.jy)
def totalZ (sm : List Float64 → Float64) (rc : Option Float64) (b : BGalaxy Float64) (c : Body Float64) :
    Float64 :=
  sm (((cutStars rc b c).map (·.shift c.x c.y c.z)).map fun a => a.m *. a.jz)

theorem Turning.realJ_near (h : Turning rc b φ η i0 c) (hs : ∀ l, Added l (sm l)) (i : Fin 3) :
    |realJ (totalX sm rc b c) (totalY sm rc b c) (totalZ sm rc b c) i - totalJ rc b c i| ≤ starLoad rc b c / 2 ^ 51 := by
  fin_cases i
  · exact (h.totals hs 0 _ (Or.inl ⟨rfl, rfl⟩)).2
  · exact (h.totals hs 1 _ (Or.inr (Or.inl ⟨rfl, rfl⟩))).2
  · exact (h.totals hs 2 _ (Or.inr (Or.inr ⟨rfl, rfl⟩))).2

/-- the computed total is of moderate size and not on the z axis -/
theorem Turning.tilted (h : Turning rc b φ η i0 c) (hs : ∀ l, Added l (sm l)) :
    Tilted (totalX sm rc b c) (totalY sm rc b c) (totalZ sm rc b c) := by
  have near := h.realJ_near hs
  obtain ⟨i, hi, h1, h2⟩ := h.axis
  have hd : starLoad rc b c / 2 ^ 51 ≤ |totalJ rc b c i| / 8 := by
    rw [div_le_div_iff₀ (by norm_num) (by norm_num)]
    norm_num at h2 ⊢
    linarith
  have e : (2 : ℝ) ^ (200 : ℤ) = 2 * 2 ^ (199 : ℤ) := by
    rw [← zpow_one_add₀ (by norm_num)]
    norm_num
  have within : ∀ {X : Float64} (j : Fin 3), Num.isFinite X = true →
      |(value X : ℝ) - totalJ rc b c j| ≤ starLoad rc b c / 2 ^ 51 → Within 200 X := by
    intro X j fX hX
    refine ⟨fX, ?_⟩
    rw [← Rat.cast_le (K := ℝ), Rat.cast_abs, Rat.cast_zpow, Rat.cast_ofNat, e]
    have h3 := h.total j
    have h4 := h.total i
    have h5 := abs_sub_abs_le_abs_sub (value X : ℝ) (totalJ rc b c j)
    have h6 := abs_nonneg (totalJ rc b c i)
    generalize (2 : ℝ) ^ (199 : ℤ) = B at *
    linarith
  have low : ∀ {X : Float64}, |(value X : ℝ) - totalJ rc b c i| ≤ starLoad rc b c / 2 ^ 51 →
      (2 : ℚ) ^ (-200 : ℤ) ≤ |value X| := by
    intro X hX
    rw [← Rat.cast_le (K := ℝ), Rat.cast_abs, Rat.cast_zpow, Rat.cast_ofNat]
    have e2 : (2 : ℝ) ^ (-199 : ℤ) = 2 * 2 ^ (-200 : ℤ) := by
      rw [← zpow_one_add₀ (by norm_num)]
      norm_num
    rw [e2] at h1
    have h5 := abs_sub_abs_le_abs_sub (totalJ rc b c i) (value X : ℝ)
    rw [abs_sub_comm] at h5
    have h6 : (0 : ℝ) < 2 ^ (-200 : ℤ) := zpow_pos (by norm_num) _
    generalize (2 : ℝ) ^ (-200 : ℤ) = B at *
    linarith
  refine ⟨within 0 (h.totals hs 0 _ (Or.inl ⟨rfl, rfl⟩)).1 (near 0),
    within 1 (h.totals hs 1 _ (Or.inr (Or.inl ⟨rfl, rfl⟩))).1 (near 1),
    within 2 (h.totals hs 2 _ (Or.inr (Or.inr ⟨rfl, rfl⟩))).1 (near 2), ?_⟩
  fin_cases i
  · exact Or.inl (low (near 0))
  · exact Or.inr (low (near 1))
  · exact absurd rfl hi

/-! ## The galaxy in doubles -/

theorem mul_zero_value {a x : Float64} (fa : Num.isFinite a = true) (fx : Num.isFinite x = true)
    (h : value x = 0) : Num.isFinite (a *. x) = true ∧ value (a *. x) = 0 := by
  have e := toExt_mul (toExt_value fa) (toExt_value fx)
  rw [h, mul_zero, Fmt.binary64.srnd_zero,
    Fmt.binary64.clip_fin (by simpa using Fmt.binary64.maxFin_nonneg)] at e
  exact ⟨isFinite_of e, value_eq e⟩

/-- the dot product with a zero vector is exactly zero -/
theorem row_zero {p q r x y z S : Float64} (hS : Fused [(p, x), (q, y), (r, z)] S)
    (fp : Num.isFinite p = true) (fq : Num.isFinite q = true) (fr : Num.isFinite r = true)
    (fx : Num.isFinite x = true) (fy : Num.isFinite y = true) (fz : Num.isFinite z = true)
    (hx : value x = 0) (hy : value y = 0) (hz : value z = 0) : value S = 0 := by
  have mk : ∀ {u : Float64}, Num.isFinite u = true → value u = 0 → toExt u = .fin 0 := fun f h => by
    rw [toExt_value f, h]
  refine value_eq (hS.zero_of fun u hu => ?_)
  simp only [List.mem_cons, List.not_mem_nil, or_false] at hu
  rcases hu with rfl | rfl | rfl
  · exact ⟨fp, mk fx hx⟩
  · exact ⟨fq, mk fy hy⟩
  · exact ⟨fr, mk fz hz⟩

variable {dt : List (Float64 × Float64) → Float64}

/-- the particle after `center` and `star_align` -/
def alignedBody (sm : List Float64 → Float64) (dt : List (Float64 × Float64) → Float64)
    (rc : Option Float64) (b : BGalaxy Float64) (c a : Body Float64) : Body Float64 :=
  @Body.rot _ (sumDot sm dt) (rotFromJ (totalX sm rc b c) (totalY sm rc b c) (totalZ sm rc b c)) (a.shift c.x c.y c.z)

/-- the mask of the stars in doubles is the exact one -/
theorem Turning.mask (h : Turning rc b φ η i0 c) :
    (b.stars.map (·.shift c.x c.y c.z)).filter (Body.inside rc)
      = (cutStars rc b c).map (·.shift c.x c.y c.z) := by
  have hcut := h.cut
  have near := fun {a} (ha : a ∈ b.all) => h.near ha
  clear h
  cases rc with
  | none => exact List.filter_eq_self.2 fun _ _ => rfl
  | some r =>
    obtain ⟨fr, r0, hcl⟩ := hcut r rfl
    rw [List.filter_map]
    congr 1
    refine List.filter_congr fun a ha => ?_
    have := (near (a := a) (by simp [BGalaxy.all, ha])).inside_cut fr r0 (by
      rw [seenFrom_dist]
      exact hcl a ha)
    rw [seenFrom_dist] at this
    rw [Bool.eq_iff_iff, decide_eq_true_eq]
    refine this.trans ?_
    exact_mod_cast Iff.rfl

theorem Turning.goodCut (h : Turning rc b φ η i0 c) : badCut rc = false := by
  cases rc with
  | none => rfl
  | some r =>
    obtain ⟨fr, r0, -⟩ := h.cut r rfl
    show (r <=. ofExact false 0) = false
    rw [Bool.eq_false_iff, ne_eq, le_value (toExt_value fr) toExt_zero]
    exact not_le.2 r0

/-- both steps in doubles -/
theorem Turning.double (h : Turning rc b φ η i0 c) :
    (center (Galaxy.ofBodies b) >>= fun g => @starAlign _ (sumDot sm dt) g rc)
      = .ok (Galaxy.ofBodies (b.mapBodies (alignedBody sm dt rc b c))) := by
  rw [h.center_double, Py.ok_bind]
  refine (@starAlign_ofBodies _ (sumDot sm dt) (b.mapBodies (·.shift c.x c.y c.z)) rc ?_).trans ?_
  · have := h.goodCut
    cases rc with
    | none => rfl
    | some r => exact this
  have hA : @alignMatrix _ (sumDot sm dt) rc (b.mapBodies (·.shift c.x c.y c.z)).stars
      = rotFromJ (totalX sm rc b c) (totalY sm rc b c) (totalZ sm rc b c) := by
    have hin : @Body.inside _ (sumDot sm dt) rc = Body.inside rc := by cases rc <;> rfl
    have : @alignMatrix _ (sumDot sm dt) rc (b.mapBodies (·.shift c.x c.y c.z)).stars
        = rotFromJ
          (sm (((b.stars.map (·.shift c.x c.y c.z)).filter (@Body.inside _ (sumDot sm dt) rc)).map fun a => a.m *. a.jx))
          (sm (((b.stars.map (·.shift c.x c.y c.z)).filter (@Body.inside _ (sumDot sm dt) rc)).map fun a => a.m *. a.jy))
          (sm (((b.stars.map (·.shift c.x c.y c.z)).filter (@Body.inside _ (sumDot sm dt) rc)).map fun a => a.m *. a.jz)) := rfl
    rw [this, hin, h.mask]
    rfl
  rw [hA]
  simp only [BGalaxy.mapBodies, List.map_map]
  rfl

/-- every position and velocity was rotated -/
theorem Turning.rotated (h : Turning rc b φ η i0 c) (hs : ∀ l, Added l (sm l)) (hdt : ∀ l, Fused l (dt l)) {a : Body Float64}
    (ha : a ∈ b.all) :
    let R := alignK (realJ (totalX sm rc b c) (totalY sm rc b c) (totalZ sm rc b c))
    RotatedTo R (a.shift c.x c.y c.z).pos (alignedBody sm dt rc b c a).pos ∧
      RotatedTo R (a.shift c.x c.y c.z).vel (alignedBody sm dt rc b c a).vel ∧
      (alignedBody sm dt rc b c a).m = a.m ∧ (alignedBody sm dt rc b c a).pot = a.pot := by
  have ht := h.tilted hs
  refine rot_rotated hdt (alignK_mem ht.perp_ne) (matrix_entries ht) (a := a.shift c.x c.y c.z) ?_
  have hn := h.near ha
  intro i
  constructor
  · refine ⟨(hn.r i).1, ?_⟩
    rw [← Rat.cast_le (K := ℝ), Rat.cast_abs, Rat.cast_zpow, Rat.cast_ofNat]
    have h1 := (hn.pos_fuzzy i).size
    have h2 := hn.pos_mod
    have h3 : (1 + 1 / 2 ^ 53 : ℝ) * sizeOf3 (seenFrom φ c a).r ≤ 2 * sizeOf3 (seenFrom φ c a).r :=
      mul_le_mul_of_nonneg_right (by norm_num) h2.pos.le
    have h4 := mul_le_mul_of_nonneg_left h2.2 (by norm_num : (0 : ℝ) ≤ 2)
    have h5 : (2 : ℝ) * 2 ^ (202 : ℤ) ≤ 2 ^ (990 : ℤ) := by
      rw [← zpow_one_add₀ (by norm_num)]
      exact zpow_le_zpow_right₀ (by norm_num) (by norm_num)
    exact h1.trans (h3.trans (h4.trans h5))
  · exact ⟨(hn.v i).1.1, (hn.v i).1.2.trans (zpow_le_zpow_right₀ (by norm_num) (by norm_num))⟩

theorem seenFrom_kin (φ : Body Float64 → ℝ) (c a : Body Float64) :
    (seenFrom φ c a).kin = exactKinetic a.vx a.vy a.vz := by
  unfold KBody.kin exactKinetic
  rw [dot_self]
  simp [seenFrom, KBody.translate, potBody, kBody]
  ring

/-- the energies after both steps -/
theorem Turning.energy (h : Turning rc b φ η i0 c) (hs : ∀ l, Added l (sm l)) (hdt : ∀ l, Fused l (dt l)) {a : Body Float64}
    (ha : a ∈ b.all) : ModerateCoords (alignedBody sm dt rc b c a) ∧
      Num.isFinite (alignedBody sm dt rc b c a).energy = true ∧
      |(value (alignedBody sm dt rc b c a).energy : ℝ) - orbitE φ a| ≤ orbitErrE φ η a := by
  obtain ⟨h1, h2, -, h4⟩ := h.rotated hs hdt ha
  have hp := h.pot a ha
  have := rotated_energy (alignK_mem (h.tilted hs).perp_ne) (h.near ha) h1 h2 (φ := φ a) (η := η a)
    (by rw [h4]; exact hp.1) (by rw [h4]; exact hp.2)
  rw [seenFrom_kin] at this
  exact this

theorem ksqrt_dot (J : Fin 3 → ℝ) : HasSqrt.ksqrt (J ⬝ᵥ J) = euclid J := by
  rw [dot_self]
  simp [euclid, HasSqrt.ksqrt, sq]

/-- the angular momenta after both steps -/
theorem Turning.jz (h : Turning rc b φ η i0 c) (hs : ∀ l, Added l (sm l)) (hdt : ∀ l, Fused l (dt l)) {a : Body Float64}
    (ha : a ∈ b.all) : Num.isFinite (alignedBody sm dt rc b c a).jz = true ∧
      |(value (alignedBody sm dt rc b c a).jz : ℝ) - axisJz rc b c a| ≤ axisErrJz rc b c a := by
  obtain ⟨h1, h2, -, -⟩ := h.rotated hs hdt ha
  have ht := h.tilted hs
  have hR := alignK_mem ht.perp_ne
  have f := rotated_jz hR (h.near ha) h1 h2
  refine ⟨f.fin, ?_⟩
  obtain ⟨hJ0, hload⟩ := h.euclid_pos
  have hl0 := Turning.load_nonneg rc b c
  have hd : 4 * (starLoad rc b c / 2 ^ 51) ≤ euclid (totalJ rc b c) := by
    norm_num at hload ⊢
    linarith
  obtain ⟨hI0, hnear⟩ := along_near (L := aboutL c a) (div_nonneg hl0 (by norm_num)) (h.realJ_near hs) hd hJ0
  have hrow := third_row hR hI0 (by rw [alignK_mulVec ht.perp_ne, ksqrt_dot]) (aboutL c a)
  have hL : |aboutL c a 0| + |aboutL c a 1| + |aboutL c a 2| ≤ moment c a := cross_size (seenFrom φ c a)
  have e1 := f.err
  rw [seenFrom_L, hrow] at e1
  have hm := moment_pos c a
  have e2 := (abs_sub_le _ _ _).trans (add_le_add e1 hnear)
  refine e2.trans ?_
  have e3 : 6 * (starLoad rc b c / 2 ^ 51) / euclid (totalJ rc b c)
        * (|aboutL c a 0| + |aboutL c a 1| + |aboutL c a 2|)
      ≤ 6 * (starLoad rc b c / 2 ^ 51) / euclid (totalJ rc b c) * moment c a :=
    mul_le_mul_of_nonneg_left hL (by positivity)
  have e4 : 6 * (starLoad rc b c / 2 ^ 51) / euclid (totalJ rc b c) ≤ starLoad rc b c / (2 ^ 48 * euclid (totalJ rc b c)) := by
    have e : starLoad rc b c / (2 ^ 48 * euclid (totalJ rc b c)) - 6 * (starLoad rc b c / 2 ^ 51) / euclid (totalJ rc b c)
        = 2 * (starLoad rc b c / 2 ^ 51) / euclid (totalJ rc b c) := by
      field_simp
      norm_num
    have : 0 ≤ 2 * (starLoad rc b c / 2 ^ 51) / euclid (totalJ rc b c) := by positivity
    linarith
  have e5 := mul_le_mul_of_nonneg_right e4 hm.le
  unfold axisErrJz
  have e6 : 140 / 2 ^ 53 * (sizeOf3 (seenFrom φ c a).r * sizeOf3 (seenFrom φ c a).v
      + sizeOf3 (seenFrom φ c a).r * sizeOf3 (seenFrom φ c a).v) ≤ moment c a * (1 / 2 ^ 44) := by
    show 140 / 2 ^ 53 * (moment c a + moment c a) ≤ _
    norm_num
    linarith
  have e7 : moment c a * (1 / 2 ^ 44 + starLoad rc b c / (2 ^ 48 * euclid (totalJ rc b c)))
      = moment c a * (1 / 2 ^ 44) + starLoad rc b c / (2 ^ 48 * euclid (totalJ rc b c)) * moment c a := by ring
  rw [e7]
  exact add_le_add e6 (e3.trans e5)

/-- a particle at the centre or at rest has exactly no angular momentum -/
theorem Turning.jz_zero (h : Turning rc b φ η i0 c) (hs : ∀ l, Added l (sm l)) (hdt : ∀ l, Fused l (dt l)) {a : Body Float64}
    (ha : a ∈ b.all)
    (h0 : (∀ i, value (a.pos i) = value (c.pos i)) ∨ ∀ i, value (a.vel i) = 0) :
    (value (alignedBody sm dt rc b c a).jz : ℝ) = 0 := by
  refine GChop.jz_zero (h.energy hs hdt ha).1 ?_
  have hn := h.near ha
  obtain ⟨e11, e12, e13, e21, e22, e23, e31, e32, e33⟩ := matrix_entries (h.tilted hs)
  unfold trueJz
  rcases h0 with h0 | h0
  · have hz : ∀ i, value ((a.shift c.x c.y c.z).pos i) = 0 := by
      intro i
      have h1 := (hn.r i).2.1
      have h2 : (seenFrom φ c a).r i = 0 := by
        have : (seenFrom φ c a).r i = (value (a.pos i) : ℝ) - value (c.pos i) := by fin_cases i <;> rfl
        rw [this, h0 i, sub_self]
      rw [h2] at h1
      simp at h1
      exact h1
    have fz := fun i => (hn.r i).1
    have hx : value (alignedBody sm dt rc b c a).x = 0 :=
      row_zero (hdt _) e11.1 e12.1 e13.1 (fz 0) (fz 1) (fz 2) (hz 0) (hz 1) (hz 2)
    have hy : value (alignedBody sm dt rc b c a).y = 0 :=
      row_zero (hdt _) e21.1 e22.1 e23.1 (fz 0) (fz 1) (fz 2) (hz 0) (hz 1) (hz 2)
    rw [hx, hy]
    simp
  · have fz := fun i => (hn.v i).1.1
    have hx : value (alignedBody sm dt rc b c a).vx = 0 :=
      row_zero (hdt _) e11.1 e12.1 e13.1 (fz 0) (fz 1) (fz 2) (h0 0) (h0 1) (h0 2)
    have hy : value (alignedBody sm dt rc b c a).vy = 0 :=
      row_zero (hdt _) e21.1 e22.1 e23.1 (fz 0) (fz 1) (fz 2) (h0 0) (h0 1) (h0 2)
    rw [hx, hy]
    simp

/-! ## The particle of real numbers for every particle in doubles -/

open Classical in
/-- the particle of `b` that became `a` -/
noncomputable def before (sm : List Float64 → Float64) (dt : List (Float64 × Float64) → Float64)
    (rc : Option Float64) (b : BGalaxy Float64) (c a : Body Float64) :
    Body Float64 :=
  if h : ∃ a0 ∈ b.all, alignedBody sm dt rc b c a0 = a then h.choose else a

/-- Particles that differ still differ after `center` and `star_align`. -/
def StayDistinct (sm : List Float64 → Float64) (dt : List (Float64 × Float64) → Float64)
    (rc : Option Float64) (b : BGalaxy Float64) (c : Body Float64) : Prop :=
  ∀ a ∈ b.all, ∀ d ∈ b.all, alignedBody sm dt rc b c a = alignedBody sm dt rc b c d → a = d

theorem before_aligned (hd : StayDistinct sm dt rc b c) {a : Body Float64} (ha : a ∈ b.all) :
    before sm dt rc b c (alignedBody sm dt rc b c a) = a := by
  unfold before
  have h : ∃ a0 ∈ b.all, alignedBody sm dt rc b c a0 = alignedBody sm dt rc b c a := ⟨a, ha, rfl⟩
  rw [dif_pos h]
  exact hd _ h.choose_spec.1 _ ha h.choose_spec.2

/-- the exact particles after both steps -/
noncomputable def alignRef (sm : List Float64 → Float64) (dt : List (Float64 × Float64) → Float64) (h : Turning rc b φ η i0 c) : Ref where
  body a := ((seenFrom φ c (before sm dt rc b c a)).rotate (alignK (totalJ rc b c))).body
  E a := orbitE φ (before sm dt rc b c a)
  Jz a := axisJz rc b c (before sm dt rc b c a)
  errE a := orbitErrE φ η (before sm dt rc b c a)
  errJz a := axisErrJz rc b c (before sm dt rc b c a)
  body_energy a := by
    rw [(C14_rotation_preserves (alignK_mem h.perp) (seenFrom φ c (before sm dt rc b c a)) (seenFrom φ c c)).2.2.1]
    show (seenFrom φ c (before sm dt rc b c a)).body.kinetic +. _ = _
    have hk : (seenFrom φ c (before sm dt rc b c a)).body.kinetic
        = .fin (exactKinetic (before sm dt rc b c a).vx (before sm dt rc b c a).vy (before sm dt rc b c a).vz) := by
      simp only [Body.kinetic, KBody.body, seenFrom, KBody.translate, potBody, kBody, exactKinetic,
        Ext.num_ofRat, Ext.num_sq, Ext.num_add, Ext.num_mul]
      congr 1
      push_cast
      simp
      ring
    rw [hk]
    rfl
  body_jz a := by
    have hj : ∀ k : KBody ℝ, k.body.jz = .fin (k.L 2) := by
      intro k
      simp [Body.jz, KBody.body, KBody.L, crossProduct]
    rw [hj]
    have hL : ((seenFrom φ c (before sm dt rc b c a)).rotate (alignK (totalJ rc b c))).L
        = alignK (totalJ rc b c) *ᵥ aboutL c (before sm dt rc b c a) :=
      (C14_rotation_preserves (alignK_mem h.perp) (seenFrom φ c (before sm dt rc b c a)) (seenFrom φ c c)).2.2.2.2.2
    rw [hL, third_row (alignK_mem h.perp) h.euclid_pos.1 (by rw [alignK_mulVec h.perp, ksqrt_dot])]
    rfl

theorem mapBodies_soft (f : Body Float64 → Body Float64) (b : BGalaxy Float64) :
    (b.mapBodies f).softS = b.softS ∧ (b.mapBodies f).softDm = b.softDm ∧ (b.mapBodies f).softG = b.softG ∧
      (b.mapBodies f).hasPot = b.hasPot := ⟨rfl, rfl, rfl, rfl⟩

theorem alignRef_galaxy (h : Turning rc b φ η i0 c) (hd : StayDistinct sm dt rc b c) :
    (alignRef sm dt h).galaxy (b.mapBodies (alignedBody sm dt rc b c))
      = (((potGalaxy φ b).map (KBody.translate (kBody c).r)).rotate (alignK (totalJ rc b c))).toB := by
  have aux : ∀ l : List (Body Float64), (∀ a ∈ l, a ∈ b.all) →
      (l.map (alignedBody sm dt rc b c)).map (alignRef sm dt h).body
        = (((l.map (potBody φ)).map (KBody.translate (kBody c).r)).map
            (KBody.rotate (alignK (totalJ rc b c)))).map KBody.body := by
    intro l hl
    simp only [List.map_map]
    apply List.map_congr_left
    intro a ha
    show ((seenFrom φ c (before sm dt rc b c (alignedBody sm dt rc b c a))).rotate (alignK (totalJ rc b c))).body = _
    rw [before_aligned hd (hl a ha)]
    rfl
  unfold Ref.galaxy
  simp only [BGalaxy.mapBodies]
  rw [aux b.stars fun a ha => by simp [BGalaxy.all, ha], aux b.dm fun a ha => by simp [BGalaxy.all, ha],
    aux b.gas fun a ha => by simp [BGalaxy.all, ha]]
  rfl

/-- the galaxy in doubles is near the exact one after both steps -/
theorem Turning.nearRef (h : Turning rc b φ η i0 c) (hs : ∀ l, Added l (sm l)) (hdt : ∀ l, Fused l (dt l)) (hd : StayDistinct sm dt rc b c)
    {M J θ : ℝ} (hr : AxisResolved rc b φ η c M J θ) :
    NearRef (alignRef sm dt h) (b.mapBodies (alignedBody sm dt rc b c)) M J θ := by
  have all : ∀ {P : Body Float64 → Prop}, (∀ a ∈ b.all, P (alignedBody sm dt rc b c a)) →
      ∀ a ∈ (b.mapBodies (alignedBody sm dt rc b c)).all, P a := by
    intro P hP a ha
    rw [mapBodies_all] at ha
    obtain ⟨a0, h0, rfl⟩ := List.mem_map.1 ha
    exact hP a0 h0
  have mem : ∀ {a}, a ∈ b.all → alignedBody sm dt rc b c a ∈ (b.mapBodies (alignedBody sm dt rc b c)).all := by
    intro a ha
    rw [mapBodies_all]
    exact List.mem_map_of_mem ha
  have eE : ∀ {a}, a ∈ b.all → (alignRef sm dt h).E (alignedBody sm dt rc b c a) = orbitE φ a := fun ha => by
    show orbitE φ _ = _
    rw [before_aligned hd ha]
  have eJ : ∀ {a}, a ∈ b.all → (alignRef sm dt h).Jz (alignedBody sm dt rc b c a) = axisJz rc b c a := fun ha => by
    show axisJz rc b c _ = _
    rw [before_aligned hd ha]
  have eEE : ∀ {a}, a ∈ b.all → (alignRef sm dt h).errE (alignedBody sm dt rc b c a) = orbitErrE φ η a := fun ha => by
    show orbitErrE φ η _ = _
    rw [before_aligned hd ha]
  have eJJ : ∀ {a}, a ∈ b.all → (alignRef sm dt h).errJz (alignedBody sm dt rc b c a) = axisErrJz rc b c a := fun ha => by
    show axisErrJz rc b c _ = _
    rw [before_aligned hd ha]
  refine ⟨all fun a ha => ?_, all fun a ha => ?_, all fun a ha => ?_, all fun a ha => ?_, hr.M_pos,
    all fun a ha => ?_, ?_, hr.J_pos, all fun a ha => ?_, ?_, all fun a ha => ?_, all fun a ha => ?_⟩
  · rw [eE ha, eEE ha]
    exact (h.energy hs hdt ha).2
  · rw [eJ ha, eJJ ha]
    exact h.jz hs hdt ha
  · rw [eJ ha]
    exact fun h0 => h.jz_zero hs hdt ha (hr.zero a ha h0)
  · rw [eE ha, eEE ha]
    exact hr.sign a ha
  · rw [eE ha]
    exact hr.M_le a ha
  · obtain ⟨a, ha, e⟩ := hr.M_eq
    exact ⟨_, mem ha, (eE ha).trans e⟩
  · rw [eE ha, eJ ha]
    exact hr.J_le a ha
  · obtain ⟨a, ha, e1, e2⟩ := hr.J_eq
    exact ⟨_, mem ha, by rw [eE ha]; exact e1, by rw [eJ ha]; exact e2⟩
  · rw [eE ha, eEE ha]
    exact hr.E a ha
  · rw [eE ha, eJJ ha]
    exact hr.Jz a ha

/-- the bound particles in exact arithmetic -/
noncomputable def orbitBound (φ : Body Float64 → ℝ) (b : BGalaxy Float64) : List (Body Float64) :=
  b.all.filter fun a => decide (orbitE φ a < 0)

theorem alignRef_bound (h : Turning rc b φ η i0 c) (hd : StayDistinct sm dt rc b c) :
    (alignRef sm dt h).boundOf (b.mapBodies (alignedBody sm dt rc b c))
      = (orbitBound φ b).map (alignedBody sm dt rc b c) := by
  unfold Ref.boundOf orbitBound
  rw [mapBodies_all, List.filter_map]
  congr 1
  apply List.filter_congr
  intro a ha
  show decide (orbitE φ (before sm dt rc b c (alignedBody sm dt rc b c a)) < 0) = _
  rw [before_aligned hd ha]

/-- `b1` is a galaxy in doubles and `b1'` one of real numbers, both made from the particles of `b`, and
`E` and `Jz` are the energies and angular momenta of the latter: the circular orbits, the circularities
and the labels agree as far as the margins allow. -/
structure AgreesFor (b : BGalaxy Float64) (E Jz : Body Float64 → ℝ) (M J δ : ℝ) (env : CircEnv Float64)
    (env' : CircEnv (Ext ℝ)) (b1 : Galaxy Float64) (b1' : Galaxy (Ext ℝ)) : Prop where
  /-- jcirc succeeds for both or for none -/
  succeeds : (∃ j, jcirc env b1 defaultCbin.1 defaultCbin.2 = .ok j) ↔
    ∃ j', jcirc env' b1' defaultCbin.1 defaultCbin.2 = .ok j'
  /-- the tables of circular orbits have the same particles, and close corners -/
  profile : ∀ j j', jcirc env b1 defaultCbin.1 defaultCbin.2 = .ok j →
    jcirc env' b1' defaultCbin.1 defaultCbin.2 = .ok j' →
    ∃ C : List (Body Float64), (∀ a ∈ C, a ∈ b.all ∧ E a < 0) ∧
      j'.x = C.map (fun a => .fin (E a / M)) ∧ j'.y = C.map (fun a => .fin |Jz a / J|) ∧
      j.x.length = C.length ∧ j.y.length = C.length ∧
      (∀ (k : Nat) x a, j.x[k]? = some x → C[k]? = some a →
        Num.isFinite x = true ∧ |(value x : ℝ) - E a / M| ≤ δ) ∧
      ∀ (k : Nat) y a, j.y[k]? = some y → C[k]? = some a →
        Num.isFinite y = true ∧ |(value y : ℝ) - abs (Jz a / J)| ≤ δ
  /-- a finite circularity is close to the exact one, relative to the circular orbit -/
  circularity : ∀ j j', jcirc env b1 defaultCbin.1 defaultCbin.2 = .ok j →
    jcirc env' b1' defaultCbin.1 defaultCbin.2 = .ok j' →
    ∀ (xs ys : List ℝ) (γ : ℝ), j'.x = xs.map .fin → j'.y = ys.map .fin → 0 < γ →
    (xs.Pairwise fun u v => γ ≤ v - u) → ∀ (i : Nat) a, b.stars[i]? = some a →
    ∀ t : Float64, j.eps[i]? = some t → Num.isFinite t = true →
    E a < 0 ∧ ∃ P : ℝ, OnPolygon xs ys (E a / M) P ∧ (0 ≤ P ∧ P ≤ 1) ∧
      |value t * P - Jz a / J| ≤ 2 * δ + 2 * δ / γ ∧
      ∀ x : ℝ, j'.eps[i]? = some (.fin x) →
        x * P = Jz a / J ∧ |value t - x| * P ≤ 2 * δ + 2 * δ / γ
  /-- JThreshold gives the same labels when the stars are clear of the threshold -/
  threshold : ∀ j', jcirc env' b1' defaultCbin.1 defaultCbin.2 = .ok j' →
    ∀ (xs ys : List ℝ) (γ : ℝ), j'.x = xs.map .fin → j'.y = ys.map .fin → 0 < γ →
    (xs.Pairwise fun u v => γ ≤ v - u) →
    ∀ (junk junk' : Nat → Int) (cut : Float64), Num.isFinite cut = true →
    (∀ a ∈ b.stars, E a < 0 → (E a / M, |Jz a / J|) ∈ xs.zip ys ∨
      ∀ P, OnPolygon xs ys (E a / M) P →
        2 * δ + 2 * δ / γ < |(|Jz a / J| - P)| ∧ 2 * δ + 2 * δ / γ < |Jz a / J - value cut * P|) →
    ∃ k k', decompose env defaultCbin (jThreshold junk cut) b1 = .ok k ∧
      decompose env' defaultCbin (jThreshold junk' (.fin (value cut))) b1' = .ok k' ∧
      k.labels = k'.labels ∧ k.ptypes = k'.ptypes
  /-- JHistogram gives the same labels with the same random generator when the stars are clear of the
  edges of the bins -/
  jhistogram : ∀ j', jcirc env' b1' defaultCbin.1 defaultCbin.2 = .ok j' →
    ∀ (xs ys : List ℝ) (γ : ℝ), j'.x = xs.map .fin → j'.y = ys.map .fin → 0 < γ →
    (xs.Pairwise fun u v => γ ≤ v - u) →
    ∀ (σ : Type) (junk : Nat → Int) (rng : Rng σ), rng.OK → ∀ (m d : Nat), 0 < m → m ∣ 10 ^ d → d ≤ 14 →
    ∀ s : σ,
    (∀ a ∈ b.stars, E a < 0 → (E a / M, |Jz a / J|) ∈ xs.zip ys ∨
      ∀ P, OnPolygon xs ys (E a / M) P → 2 * δ + 2 * δ / γ < |(|Jz a / J| - P)| ∧
        ∀ k : Nat, 0 < k → k < 2 * m → 3 * δ + 2 * δ / γ < |Jz a / J - ((k : ℝ) / m - 1) * P|) →
    ∃ k k', decompose env defaultCbin (jHistogram junk rng (2 * m : ℤ) d s) b1 = .ok k ∧
      decompose env' defaultCbin (jHistogram junk rng (2 * m : ℤ) d s) b1' = .ok k' ∧ k.labels = k'.labels
  /-- so does JEHistogram, when they are clear of the edges of the energy bins too -/
  jehistogram : ∀ j', jcirc env' b1' defaultCbin.1 defaultCbin.2 = .ok j' →
    ∀ (xs ys : List ℝ) (γ : ℝ), j'.x = xs.map .fin → j'.y = ys.map .fin → 0 < γ →
    (xs.Pairwise fun u v => γ ≤ v - u) →
    ∀ (σ : Type) (junk : Nat → Int) (rng : Rng σ), rng.OK → ∀ (m d nE : Nat), 0 < m → m ∣ 10 ^ d → d ≤ 14 →
    0 < nE → nE ≤ 2 ^ 53 → ∀ s : σ,
    (∀ a ∈ b.stars, E a < 0 → (E a / M, |Jz a / J|) ∈ xs.zip ys ∨
      ∀ P, OnPolygon xs ys (E a / M) P → 2 * δ + 2 * δ / γ < |(|Jz a / J| - P)| ∧
        ∀ k : Nat, 0 < k → k < 2 * m → 3 * δ + 2 * δ / γ < |Jz a / J - ((k : ℝ) / m - 1) * P|) →
    (∀ a ∈ b.stars, E a < 0 → ∀ k : Nat, 0 < k → k ≤ nE → 2 * δ < |E a / M - ((k : ℝ) / nE - 1)|) →
    ∃ k k', decompose env defaultCbin (jeHistogram junk rng (2 * m : ℤ) d nE s) b1 = .ok k ∧
      decompose env' defaultCbin (jeHistogram junk rng (2 * m : ℤ) d nE s) b1' = .ok k' ∧ k.labels = k'.labels

/-- a galaxy near `R` whose particles come from those of `b` -/
theorem agreesFor_of_near {R : Ref} {f : Body Float64 → Body Float64} {E Jz : Body Float64 → ℝ}
    (hE : ∀ a ∈ b.all, R.E (f a) = E a) (hJz : ∀ a ∈ b.all, R.Jz (f a) = Jz a) {M J θ δ : ℝ}
    (hn : NearRef R (b.mapBodies f) M J θ) (hθ : θ ≤ 1 / 4) (hδ : 3 * θ + 1 / 2 ^ 49 ≤ δ)
    (hcl : Clear (R.boundOf (b.mapBodies f)) (fun a => R.E a / M) (fun a => R.Jz a / J) defaultEdges δ)
    (env : CircEnv Float64) (henv : env.OK) (env' : CircEnv (Ext ℝ)) (henv' : env'.OK) :
    AgreesFor b E Jz M J δ env env' (Galaxy.ofBodies (b.mapBodies f))
      (Galaxy.ofBodies (R.galaxy (b.mapBodies f))) := by
  have hsuc := C109_succeeds env env' _ _ _ _ hn
  have star : ∀ {P : Body Float64 → Prop}, (∀ a ∈ b.stars, a ∈ b.all → P (f a)) →
      ∀ a ∈ (b.mapBodies f).stars, P a := by
    intro P hP a ha
    obtain ⟨a0, h0, rfl⟩ := List.mem_map.1 ha
    exact hP a0 h0 (by simp [BGalaxy.all, h0])
  refine ⟨hsuc, ?_, ?_, ?_, ?_, ?_⟩
  · intro j j' hj hj'
    obtain ⟨k', hk', C, hC, -, hx, hy, hxl, hyl, hxn, hyn⟩ := C109_profile env henv env' henv' _ j hj M J θ δ
      hn hθ hδ hcl
    rw [hj'] at hk'
    have hk' := Except.ok.inj hk'
    subst hk'
    obtain ⟨D, hD⟩ : ∃ D : List {a // a ∈ b.all}, D.map (fun i => f i.1) = C :=
      exists_preimage _ C fun a ha => by
        have := (hC a ha).1
        rw [mapBodies_all] at this
        obtain ⟨a0, h0, e⟩ := List.mem_map.1 this
        exact ⟨⟨a0, h0⟩, e⟩
    rw [← hD] at hC hx hy hxl hyl hxn hyn
    clear hD
    have get : ∀ {k : Nat} {a}, (D.map (·.1))[k]? = some a →
        a ∈ b.all ∧ (D.map fun i => f i.1)[k]? = some (f a) := by
      intro k a hk
      rw [List.getElem?_map] at hk ⊢
      obtain ⟨i, hi, rfl⟩ := Option.map_eq_some_iff.1 hk
      exact ⟨i.2, by rw [hi]; rfl⟩
    refine ⟨D.map (·.1), fun a ha => ?_, ?_, ?_, ?_, ?_, fun k x a hk ha => ?_, fun k y a hk ha => ?_⟩
    · obtain ⟨i, hi, rfl⟩ := List.mem_map.1 ha
      have := (hC _ (List.mem_map_of_mem hi)).2
      rw [hE _ i.2] at this
      exact ⟨i.2, this⟩
    · rw [hx, List.map_map, List.map_map]
      exact List.map_congr_left fun i _ => by rw [Function.comp_apply, Function.comp_apply, hE _ i.2]
    · rw [hy, List.map_map, List.map_map]
      exact List.map_congr_left fun i _ => by rw [Function.comp_apply, Function.comp_apply, hJz _ i.2]
    · rw [hxl, List.length_map, List.length_map]
    · rw [hyl, List.length_map, List.length_map]
    · have := hxn k x _ hk (get ha).2
      rwa [hE _ (get ha).1] at this
    · have := hyn k y _ hk (get ha).2
      rwa [hJz _ (get ha).1] at this
  · intro j j' hj hj' xs ys γ hx hy hγ hgap i a ha t ht ft
    have hmem : a ∈ b.all := by simp [BGalaxy.all, List.mem_of_getElem? ha]
    have := C109_circularity (R := R) env henv env' henv' _ j hj M J θ δ γ hn hθ hδ hcl j' hj'
      xs ys hx hy hγ hgap i (f a) (by simp [BGalaxy.mapBodies, ha]) t ht ft
    rwa [hE _ hmem, hJz _ hmem] at this
  · intro j' hj' xs ys γ hx hy hγ hgap junk junk' cut fcut hstar
    obtain ⟨j, hj⟩ := hsuc.2 ⟨j', hj'⟩
    refine C109_labels (R := R) env henv env' henv' _ j hj M J θ δ γ hn hθ hδ hcl j' hj' xs ys
      hx hy hγ hgap junk junk' cut fcut (star fun a ha hm h0 => ?_)
    rw [hE _ hm] at h0 ⊢
    rw [hJz _ hm]
    exact hstar a ha h0
  · intro j' hj' xs ys γ hx hy hγ hgap σ junk rng hrng m d hm hmd hd s hstar
    obtain ⟨j, hj⟩ := hsuc.2 ⟨j', hj'⟩
    refine C111_jhistogram (R := R) env henv env' henv' _ j hj M J θ δ γ hn hθ hδ hcl j' hj' xs ys
      hx hy hγ hgap junk rng hrng hm hmd hd s (star fun a ha hm h0 => ?_)
    rw [hE _ hm] at h0 ⊢
    rw [hJz _ hm]
    exact hstar a ha h0
  · intro j' hj' xs ys γ hx hy hγ hgap σ junk rng hrng m d nE hm hmd hd hE0 hE1 s hstar hen
    obtain ⟨j, hj⟩ := hsuc.2 ⟨j', hj'⟩
    refine C111_jehistogram (R := R) env henv env' henv' _ j hj M J θ δ γ hn hθ hδ hcl j' hj' xs
      ys hx hy hγ hgap junk rng hrng hm hmd hd hE0 hE1 s (star fun a ha hm h0 => ?_)
      (star fun a ha hm h0 => ?_)
    · rw [hE _ hm] at h0 ⊢
      rw [hJz _ hm]
      exact hstar a ha h0
    · rw [hE _ hm] at h0 ⊢
      exact hen a ha h0

theorem stayDistinct_of {f : Body Float64 → Body Float64} {l : List (Body Float64)}
    (h : ∀ i j : Nat, (l.map f)[i]? = (l.map f)[j]? → l[i]? = l[j]?) :
    ∀ a ∈ l, ∀ d ∈ l, f a = f d → a = d := by
  intro a ha d hd e
  obtain ⟨i, hi⟩ := List.mem_iff_getElem?.1 ha
  obtain ⟨j, hj⟩ := List.mem_iff_getElem?.1 hd
  have := h i j (by rw [List.getElem?_map, List.getElem?_map, hi, hj, Option.map_some, Option.map_some, e])
  rw [hi, hj] at this
  exact Option.some.inj this

theorem Turning.agrees (hs : ∀ l, Added l (sm l)) (hdt : ∀ l, Fused l (dt l))
    (h : Turning rc b φ η i0 c) {M J θ δ : ℝ} (hr : AxisResolved rc b φ η c M J θ) (hθ : θ ≤ 1 / 4)
    (hδ : 3 * θ + 1 / 2 ^ 49 ≤ δ)
    (hc : Clear (orbitBound φ b) (fun a => orbitE φ a / M) (fun a => axisJz rc b c a / J) defaultEdges δ)
    (env : CircEnv Float64) (henv : env.OK) (env' : CircEnv (Ext ℝ)) (henv' : env'.OK)
    (hd : StayDistinct sm dt rc b c) :
    AgreesFor b (orbitE φ) (axisJz rc b c) M J δ env env'
      (Galaxy.ofBodies (b.mapBodies (alignedBody sm dt rc b c)))
      (Galaxy.ofBodies (((potGalaxy φ b).map (KBody.translate (kBody c).r)).rotate (alignK (totalJ rc b c))).toB) := by
  have hn := h.nearRef hs hdt hd hr
  have hE : ∀ a ∈ b.all, (alignRef sm dt h).E (alignedBody sm dt rc b c a) = orbitE φ a := fun a ha => by
    show orbitE φ _ = _
    rw [before_aligned hd ha]
  have hJ : ∀ a ∈ b.all, (alignRef sm dt h).Jz (alignedBody sm dt rc b c a) = axisJz rc b c a := fun a ha => by
    show axisJz rc b c _ = _
    rw [before_aligned hd ha]
  have hδ0 : 0 ≤ δ := by
    have := resolved_nonneg hn
    have h2 : (0 : ℝ) ≤ 1 / 2 ^ 49 := by norm_num
    linarith
  rw [← alignRef_galaxy h hd]
  refine agreesFor_of_near hE hJ hn hθ hδ ?_ env henv env' henv'
  rw [alignRef_bound h hd]
  refine hc.map hδ0 _ (fun a ha => ?_) fun a ha => ?_
  · rw [hE a (List.mem_filter.1 ha).1]
  · rw [hJ a (List.mem_filter.1 ha).1]

/-- C112: `center` and `star_align` in doubles, for every order of the additions and with
or without fused multiply-add, and in exact arithmetic give galaxies whose circularities and labels agree.  In exact arithmetic the energies are
those of the input, and the angular momenta are about the axis through the lowest particle along the
total angular momentum of the stars (with a cut radius, C117, of the stars inside it).  Rounding must not make different particles equal. -/
theorem C112_center_align (sm : List Float64 → Float64) (dt : List (Float64 × Float64) → Float64)
    (hs : ∀ l, Added l (sm l)) (hdt : ∀ l, Fused l (dt l))
    (h : Turning rc b φ η i0 c) {M J θ δ : ℝ} (hr : AxisResolved rc b φ η c M J θ) (hθ : θ ≤ 1 / 4)
    (hδ : 3 * θ + 1 / 2 ^ 49 ≤ δ)
    (hc : Clear (orbitBound φ b) (fun a => orbitE φ a / M) (fun a => axisJz rc b c a / J) defaultEdges δ)
    (env : CircEnv Float64) (henv : env.OK) (env' : CircEnv (Ext ℝ)) (henv' : env'.OK) :
    ∃ b2 b2', (center (Galaxy.ofBodies b) >>= fun g => @starAlign _ (sumDot sm dt) g rc)
        = .ok (Galaxy.ofBodies b2) ∧
      (center (Galaxy.ofBodies (potGalaxy φ b).toB) >>= fun g => starAlign g (exactCut rc))
        = .ok (Galaxy.ofBodies b2') ∧
      ((∀ i j : Nat, b2.all[i]? = b2.all[j]? → b.all[i]? = b.all[j]?) →
        AgreesFor b (orbitE φ) (axisJz rc b c) M J δ env env' (Galaxy.ofBodies b2) (Galaxy.ofBodies b2')) := by
  refine ⟨_, _, h.double, h.exact, fun hdist => ?_⟩
  rw [mapBodies_all] at hdist
  exact h.agrees hs hdt hr hθ hδ hc env henv env' henv' (stayDistinct_of hdist)

/-- C112: the computed energies and angular momenta after both steps, whether or not particles stay
distinct. -/
theorem C112_kinematics (sm : List Float64 → Float64) (dt : List (Float64 × Float64) → Float64)
    (hs : ∀ l, Added l (sm l)) (hdt : ∀ l, Fused l (dt l))
    (h : Turning rc b φ η i0 c) :
    ∃ b2, (center (Galaxy.ofBodies b) >>= fun g => @starAlign _ (sumDot sm dt) g rc)
        = .ok (Galaxy.ofBodies b2) ∧ b2.all.length = b.all.length ∧
      ∀ (i : Nat) a a2, b.all[i]? = some a → b2.all[i]? = some a2 →
        a2.m = a.m ∧ a2.pot = a.pot ∧
        (Num.isFinite a2.energy = true ∧ |(value a2.energy : ℝ) - orbitE φ a| ≤ orbitErrE φ η a) ∧
        (Num.isFinite a2.jz = true ∧ |(value a2.jz : ℝ) - axisJz rc b c a| ≤ axisErrJz rc b c a) ∧
        (((∀ i, value (a.pos i) = value (c.pos i)) ∨ ∀ i, value (a.vel i) = 0) → value a2.jz = 0) := by
  refine ⟨_, h.double, by rw [mapBodies_all, List.length_map], ?_⟩
  intro i a a2 ha ha2
  rw [mapBodies_all, List.getElem?_map, ha] at ha2
  have ha2 := Option.some.inj ha2
  subst ha2
  have hm := List.mem_of_getElem? ha
  obtain ⟨-, -, h3, h4⟩ := h.rotated hs hdt hm
  exact ⟨h3, h4, (h.energy hs hdt hm).2, h.jz hs hdt hm, fun h0 => by exact_mod_cast h.jz_zero hs hdt hm h0⟩

end

end GChop
