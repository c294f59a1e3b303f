import Verif.Props.AlignedLabels

/-!
# An example for `Props/AlignedLabels.lean`

C112: stars on circles about a particle away from the origin, in a plane across `(3, 4, 12)`.  The
hypotheses are checked in fractions.
-/

namespace GChop
open Flt Matrix

/-! ## The quantities as fractions -/

def aboutQ (c a : Body Float64) : Fin 3 → ℚ :=
  ![(value a.y - value c.y) * value a.vz - (value a.z - value c.z) * value a.vy,
    (value a.z - value c.z) * value a.vx - (value a.x - value c.x) * value a.vz,
    (value a.x - value c.x) * value a.vy - (value a.y - value c.y) * value a.vx]

theorem aboutL_Q (c a : Body Float64) (i : Fin 3) : aboutL c a i = (aboutQ c a i : ℝ) := by
  unfold aboutL aboutQ
  rw [cross_apply]
  fin_cases i <;> simp [kBody]

def totalQ (rc : Option Float64) (b : BGalaxy Float64) (c : Body Float64) (i : Fin 3) : ℚ :=
  ((cutStars rc b c).map fun a => value a.m * aboutQ c a i).sum

theorem totalJ_Q (rc : Option Float64) (b : BGalaxy Float64) (c : Body Float64) (i : Fin 3) : totalJ rc b c i = (totalQ rc b c i : ℝ) := by
  unfold totalJ totalQ
  generalize cutStars rc b c = l
  induction l with
  | nil => simp
  | cons a l ih =>
    simp only [List.map_cons, List.sum_cons, Pi.add_apply, Pi.smul_apply, smul_eq_mul, Rat.cast_add,
      Rat.cast_mul, aboutL_Q]
    rw [ih]

def sizeQ (x y z : ℚ) : ℚ := max (|x| + |y| + |z|) (1 / 2 ^ 100)

theorem sizeOf3_Q (v : Fin 3 → ℝ) (x y z : ℚ) (hx : v 0 = x) (hy : v 1 = y) (hz : v 2 = z) :
    sizeOf3 v = (sizeQ x y z : ℝ) := by
  unfold sizeOf3 sizeQ
  rw [hx, hy, hz]
  push_cast
  rw [zpow_neg]
  norm_num

def momentQ (c a : Body Float64) : ℚ :=
  sizeQ (value a.x - value c.x) (value a.y - value c.y) (value a.z - value c.z)
    * sizeQ (value a.vx) (value a.vy) (value a.vz)

theorem moment_Q (c a : Body Float64) : moment c a = (momentQ c a : ℝ) := by
  unfold moment momentQ
  rw [sizeOf3_Q _ (value a.x - value c.x) (value a.y - value c.y) (value a.z - value c.z)
      (by simp [kBody]) (by simp [kBody]) (by simp [kBody]),
    sizeOf3_Q _ (value a.vx) (value a.vy) (value a.vz) rfl rfl rfl, Rat.cast_mul]

def loadQ (rc : Option Float64) (b : BGalaxy Float64) (c : Body Float64) : ℚ :=
  ((cutStars rc b c).length + 4) * ((cutStars rc b c).map fun a => max |value a.m| (1 / 2 ^ 100) * momentQ c a).sum

theorem starLoad_Q (rc : Option Float64) (b : BGalaxy Float64) (c : Body Float64) : starLoad rc b c = (loadQ rc b c : ℝ) := by
  unfold starLoad loadQ
  push_cast
  congr 1
  generalize cutStars rc b c = l
  induction l with
  | nil => simp
  | cons a l ih =>
    simp only [List.map_cons, List.sum_cons, Rat.cast_mul]
    rw [ih, moment_Q, zpow_neg]
    push_cast
    norm_num

/-- specific energy with the given potential -/
def orbitQ (a : Body Float64) : ℚ := (value a.vx ^ 2 + value a.vy ^ 2 + value a.vz ^ 2) / 2 + value a.pot

/-- the given potential -/
noncomputable def givenPot (a : Body Float64) : ℝ := value a.pot

theorem orbitE_Q (a : Body Float64) : orbitE givenPot a = (orbitQ a : ℝ) := by
  unfold orbitE givenPot exactKinetic orbitQ
  push_cast
  ring

def orbitErrQ (a : Body Float64) : ℚ :=
  sizeQ (value a.vx) (value a.vy) (value a.vz) * sizeQ (value a.vx) (value a.vy) (value a.vz) / 2 ^ 45
    + |value a.pot| / 2 ^ 50

theorem orbitErr_Q (a : Body Float64) : orbitErrE givenPot (fun _ => 0) a = (orbitErrQ a : ℝ) := by
  unfold orbitErrE orbitErrQ givenPot
  rw [sizeOf3_Q _ (value a.vx) (value a.vy) (value a.vz) rfl rfl rfl]
  push_cast
  ring

def axisQ (rc : Option Float64) (b : BGalaxy Float64) (c : Body Float64) (n : ℚ) (a : Body Float64) : ℚ :=
  (totalQ rc b c 0 * aboutQ c a 0 + totalQ rc b c 1 * aboutQ c a 1 + totalQ rc b c 2 * aboutQ c a 2) / n

theorem axis_Q {rc : Option Float64} {b : BGalaxy Float64} {c : Body Float64} {n : ℚ} (hn : euclid (totalJ rc b c) = n)
    (a : Body Float64) : axisJz rc b c a = (axisQ rc b c n a : ℝ) := by
  unfold axisJz axisQ
  rw [hn]
  simp only [totalJ_Q, aboutL_Q]
  push_cast
  rfl

def axisErrQ (rc : Option Float64) (b : BGalaxy Float64) (c : Body Float64) (n : ℚ) (a : Body Float64) : ℚ :=
  momentQ c a * (1 / 2 ^ 44 + loadQ rc b c / (2 ^ 48 * n))

theorem axisErr_Q {rc : Option Float64} {b : BGalaxy Float64} {c : Body Float64} {n : ℚ} (hn : euclid (totalJ rc b c) = n)
    (a : Body Float64) : axisErrJz rc b c a = (axisErrQ rc b c n a : ℝ) := by
  unfold axisErrJz axisErrQ
  rw [hn, moment_Q, starLoad_Q]
  push_cast
  rfl

theorem euclid_Q {rc : Option Float64} {b : BGalaxy Float64} {c : Body Float64} {n : ℚ} (h0 : 0 ≤ n)
    (h : totalQ rc b c 0 ^ 2 + totalQ rc b c 1 ^ 2 + totalQ rc b c 2 ^ 2 = n ^ 2) : euclid (totalJ rc b c) = n := by
  unfold euclid
  rw [totalJ_Q, totalJ_Q, totalJ_Q]
  have : ((totalQ rc b c 0 : ℝ) ^ 2 + (totalQ rc b c 1 : ℝ) ^ 2 + (totalQ rc b c 2 : ℝ) ^ 2) = (n : ℝ) ^ 2 := by
    exact_mod_cast h
  rw [this]
  exact Real.sqrt_sq (by exact_mod_cast h0)

/-! ## The galaxy -/

/-- a star at distance `5 r` from the centre, with speed `65 s` and energy `e` -/
def exTiltStar (r s e : ℚ) : Body Float64 :=
  ⟨Num.ofRat 1, Num.ofRat (1 / 2 + 4 * r), Num.ofRat (-3 - 3 * r), Num.ofRat 2,
    Num.ofRat (36 * s), Num.ofRat (48 * s), Num.ofRat (-25 * s), Num.ofRat (e - 4225 / 2 * s ^ 2)⟩

/-- the particle at the centre -/
def exTiltCentre : Body Float64 :=
  ⟨Num.ofRat 1, Num.ofRat (1 / 2), Num.ofRat (-3), Num.ofRat 2, Num.ofRat 0, Num.ofRat 0, Num.ofRat 0,
    Num.ofRat (-1)⟩

/-- the example -/
def exTilt : BGalaxy Float64 where
  stars := [exTiltStar 3 (1/128) (-9/16), exTiltStar 1 (1/128) (-71/128), exTiltStar 5 (-1/128) (-15/64),
    exTiltStar (7/2) (1/128) (-73/128), exTiltStar 8 (1/128) (-1/1024)]
  dm := [exTiltCentre]
  gas := []
  hasPot := true
  softS := Num.ofRat 0
  softDm := Num.ofRat 0
  softG := Num.ofRat 0

/-- the length of the total angular momentum -/
def exTiltN : ℚ := 6825 / 256

theorem exTilt_euclid : euclid (totalJ none exTilt exTiltCentre) = exTiltN :=
  euclid_Q (by decide +kernel) (by decide +kernel)

theorem exTilt_turning : Turning none exTilt givenPot (fun _ => 0) 5 exTiltCentre where
  hasPot := rfl
  mass := by unfold Within; decide +kernel
  pos := by unfold Within; decide +kernel
  vel := by unfold Within; decide +kernel
  pot := by
    have : ∀ a ∈ exTilt.all, Within 980 a.pot := by unfold Within; decide +kernel
    exact fun a ha => ⟨this a ha, by simp [givenPot]⟩
  centre := rfl
  lowest := by
    have h : ∀ j : Fin 6, (j : Nat) ≠ 5 → ∀ d ∈ exTilt.all[(j : Nat)]?, value exTiltCentre.pot < value d.pot := by
      decide +kernel
    intro j d hj hne
    have hlt : j < 6 := (List.getElem?_eq_some_iff.1 hj).1
    have := h ⟨j, hlt⟩ hne d hj
    rw [add_zero, sub_zero]
    unfold givenPot
    exact_mod_cast this
  size := by decide
  cut := by rintro r ⟨⟩
  total i := by
    rw [totalJ_Q]
    have h : ∀ i, |totalQ none exTilt exTiltCentre i| ≤ 2 ^ (199 : ℤ) := by decide +kernel
    exact_mod_cast h i
  axis := ⟨0, by decide, by
      rw [totalJ_Q]
      have h : (2 : ℚ) ^ (-199 : ℤ) ≤ |totalQ none exTilt exTiltCentre 0| := by decide +kernel
      have h := (Rat.cast_le (K := ℝ)).2 h
      rwa [Rat.cast_zpow, Rat.cast_abs, Rat.cast_ofNat] at h, by
      rw [totalJ_Q, starLoad_Q]
      have h : loadQ none exTilt exTiltCentre ≤ 2 ^ 48 * |totalQ none exTilt exTiltCentre 0| := by decide +kernel
      exact_mod_cast h⟩

/-- the largest angular momentum -/
def exTiltJ : ℚ := 325 / 16

theorem exTilt_resolved : AxisResolved none exTilt givenPot (fun _ => 0) exTiltCentre 1 (exTiltJ : ℝ)
    ((1 / 2 ^ 32 : ℚ) : ℝ) where
  zero a ha h := by
    have hq : ∀ a ∈ exTilt.all, axisQ none exTilt exTiltCentre exTiltN a = 0 →
      (∀ i, value (a.pos i) = value (exTiltCentre.pos i)) ∨ ∀ i, value (a.vel i) = 0 := by decide +kernel
    rw [axis_Q exTilt_euclid] at h
    exact hq a ha (by exact_mod_cast h)
  sign a ha := by
    rw [orbitE_Q, orbitErr_Q, ← Rat.cast_abs, Rat.cast_lt]
    revert a; decide +kernel
  M_pos := by norm_num
  M_le a ha := by
    rw [orbitE_Q, show (-1 : ℝ) = ((-1 : ℚ) : ℝ) by norm_num, Rat.cast_le]
    revert a; decide +kernel
  M_eq := ⟨exTiltCentre, by simp [exTilt, BGalaxy.all], by
    rw [orbitE_Q, show (-1 : ℝ) = ((-1 : ℚ) : ℝ) by norm_num, Rat.cast_inj]
    decide +kernel⟩
  J_pos := by unfold exTiltJ; norm_num
  J_le a ha := by
    rw [orbitE_Q, axis_Q exTilt_euclid, ← Rat.cast_abs, Rat.cast_le, show (0 : ℝ) = ((0 : ℚ) : ℝ) by norm_num,
      Rat.cast_lt]
    revert a; decide +kernel
  J_eq := ⟨exTiltStar 8 (1/128) (-1/1024), by simp [exTilt, BGalaxy.all], by
    rw [orbitE_Q, axis_Q exTilt_euclid, ← Rat.cast_abs, Rat.cast_inj, show (0 : ℝ) = ((0 : ℚ) : ℝ) by norm_num,
      Rat.cast_lt]
    decide +kernel⟩
  E a ha := by
    rw [orbitE_Q, orbitErr_Q, mul_one, Rat.cast_le, show (0 : ℝ) = ((0 : ℚ) : ℝ) by norm_num, Rat.cast_lt]
    revert a; decide +kernel
  Jz a ha := by
    rw [orbitE_Q, axisErr_Q exTilt_euclid, ← Rat.cast_mul, Rat.cast_le, show (0 : ℝ) = ((0 : ℚ) : ℝ) by norm_num,
      Rat.cast_lt]
    revert a; decide +kernel

theorem exTilt_clear : Clear (orbitBound givenPot exTilt) (fun a => orbitE givenPot a / 1)
    (fun a => axisJz none exTilt exTiltCentre a / (exTiltJ : ℝ)) defaultEdges ((1 / 2 ^ 29 : ℚ) : ℝ) := by
  have hb : orbitBound givenPot exTilt = exTilt.all.filter fun a => decide (orbitQ a < 0) := by
    unfold orbitBound
    apply List.filter_congr
    intro a _
    rw [orbitE_Q, Bool.eq_iff_iff, decide_eq_true_eq, decide_eq_true_eq]
    exact Rat.cast_lt_zero
  rw [hb, defaultEdges_eq]
  exact clear_of_Q (Eq := orbitQ) (Jq := fun a => axisQ none exTilt exTiltCentre exTiltN a / exTiltJ)
    (fun a => by rw [div_one, orbitE_Q])
    (fun a => by rw [axis_Q exTilt_euclid]; push_cast; ring) (by decide +kernel)

/-! ## Its labels -/

/-- the corners: the particle at the centre and the first, third and fifth star -/
def exTiltTable : List (Body Float64) :=
  [exTiltCentre, exTiltStar 3 (1/128) (-9/16), exTiltStar 5 (-1/128) (-15/64), exTiltStar 8 (1/128) (-1/1024)]

/-- `center` and `star_align` on the example -/
def exTiltRun : Py (Galaxy Float64) := center (Galaxy.ofBodies exTilt) >>= fun g => starAlign g none

/-- the corners found in doubles are those of `exTiltTable` -/
def TiltTable (run : Py (Galaxy Float64)) : Prop := (run.toOption.bind fun b2 =>
    (jcirc (sortEnv (F := Float64)) b2 defaultCbin.1 defaultCbin.2).toOption.map fun j =>
      decide (j.x.length = exTiltTable.length) && exTilt.all.all fun a => (j.x.zip exTiltTable).all fun p =>
        !decide (|value p.1 - orbitQ a| ≤ 1 / 2 ^ 29) || decide (a = p.2)) = some true

theorem exTiltRun_table : TiltTable exTiltRun := by
  unfold TiltTable
  decide +kernel

theorem exTiltRun_threshold : (exTiltRun.toOption.bind fun b2 =>
    (decompose sortEnv defaultCbin (jThreshold (fun _ => 9) (Num.ofRat (1/2))) b2).toOption.map
      Components.labels) = some [some 1, some 0, some 0, none, some 1, none] := by
  decide +kernel

theorem exTiltRun_jhistogram : (exTiltRun.toOption.bind fun b2 =>
    (decompose sortEnv defaultCbin (jHistogram (fun _ => 9) firstRng 100 2 ()) b2).toOption.map
      Components.labels) = some [some 0, some 1, some 0, none, some 1, none] := by
  decide +kernel

theorem exTiltRun_jehistogram : (exTiltRun.toOption.bind fun b2 =>
    (decompose sortEnv defaultCbin (jeHistogram (fun _ => 9) firstRng 100 2 20 ()) b2).toOption.map
      Components.labels) = some [some 1, some 1, some 0, none, some 1, none] := by
  decide +kernel

/-- rounding does not make particles of the example equal -/
theorem exTilt_distinct : StayDistinct Num.sum Num.dot none exTilt exTiltCentre := by
  have h : ∀ a ∈ exTilt.all, ∀ d ∈ exTilt.all, alignedBody Num.sum Num.dot none exTilt exTiltCentre a
      = alignedBody Num.sum Num.dot none exTilt exTiltCentre d → a = d := by decide +kernel
  exact h

/-- the energy and the angular momentum of a particle of the example -/
def exTiltAt (a : Body Float64) (e t : ℝ) : Prop :=
  orbitE givenPot a / 1 = e ∧ axisJz none exTilt exTiltCentre a / (exTiltJ : ℝ) = t

theorem exTiltAt_of {a : Body Float64} {e t : ℚ} (he : orbitQ a = e)
    (ht : axisQ none exTilt exTiltCentre exTiltN a / exTiltJ = t) : exTiltAt a e t := by
  refine ⟨by rw [div_one, orbitE_Q, he], ?_⟩
  rw [axis_Q exTilt_euclid, ← ht]
  push_cast
  rfl

theorem exTilt_cases {P : Body Float64 → Prop}
    (h0 : ∀ a, exTiltAt a (-9/16) (3/8) → P a) (h1 : ∀ a, exTiltAt a (-71/128) (1/8) → P a)
    (h2 : ∀ a, exTiltAt a (-15/64) (-5/8) → P a) (h3 : ∀ a, exTiltAt a (-73/128) (7/16) → P a)
    (h4 : ∀ a, exTiltAt a (-1/1024) 1 → P a) : ∀ a ∈ exTilt.stars, P a := by
  have mk : ∀ {a : Body Float64} {e t : ℚ} {e' t' : ℝ}, orbitQ a = e →
      axisQ none exTilt exTiltCentre exTiltN a / exTiltJ = t → (e : ℝ) = e' → (t : ℝ) = t' → exTiltAt a e' t' := by
    intro a e t e' t' he ht h1 h2
    rw [← h1, ← h2]
    exact exTiltAt_of he ht
  intro a ha
  simp only [exTilt, List.mem_cons, List.not_mem_nil, or_false] at ha
  rcases ha with rfl | rfl | rfl | rfl | rfl
  · exact h0 _ (mk (e := -9/16) (t := 3/8) (by decide +kernel) (by decide +kernel) (by norm_num) (by norm_num))
  · exact h1 _ (mk (e := -71/128) (t := 1/8) (by decide +kernel) (by decide +kernel) (by norm_num) (by norm_num))
  · exact h2 _ (mk (e := -15/64) (t := -5/8) (by decide +kernel) (by decide +kernel) (by norm_num) (by norm_num))
  · exact h3 _ (mk (e := -73/128) (t := 7/16) (by decide +kernel) (by decide +kernel) (by norm_num) (by norm_num))
  · exact h4 _ (mk (e := -1/1024) (t := 1) (by decide +kernel) (by decide +kernel) (by norm_num) (by norm_num))

/-- energies and angular momenta of the corners -/
noncomputable def exTiltX : List ℝ := [-1, -9/16, -15/64, -1/1024]

noncomputable def exTiltY : List ℝ := [0, 3/8, 5/8, 1]

theorem exTilt_gaps : exTiltX.Pairwise fun u v => 1 / 8 ≤ v - u := by
  simp only [exTiltX, List.pairwise_cons, List.mem_cons, List.not_mem_nil,
    or_false, forall_eq_or_imp, forall_eq, false_implies, implies_true, List.Pairwise.nil, and_true]
  norm_num

/-- exact arithmetic finds the corners of `exTiltTable` -/
theorem exTilt_tables {run : Py (Galaxy Float64)} {b2 : Galaxy Float64} {b2' : Galaxy (Ext ℝ)}
    (hp : run = .ok b2) (htab : TiltTable run)
    (hag : AgreesFor exTilt (orbitE givenPot) (axisJz none exTilt exTiltCentre) 1 (exTiltJ : ℝ)
      ((1 / 2 ^ 29 : ℚ) : ℝ) sortEnv sortEnv b2 b2') :
    ∃ j', jcirc sortEnv b2' defaultCbin.1 defaultCbin.2 = .ok j' ∧
      j'.x = exTiltX.map .fin ∧ j'.y = exTiltY.map .fin := by
  unfold TiltTable at htab
  rw [hp] at htab
  simp only [Except.toOption, Option.bind_some] at htab
  cases hj : jcirc (sortEnv (F := Float64)) b2 defaultCbin.1 defaultCbin.2 with
  | error e => rw [hj] at htab; cases htab
  | ok j =>
  rw [hj] at htab
  simp only [Option.map_some, Option.some.injEq, Bool.and_eq_true, decide_eq_true_eq,
    List.all_eq_true, Bool.or_eq_true, Bool.not_eq_true', decide_eq_false_iff_not] at htab
  obtain ⟨hlen, htab⟩ := htab
  obtain ⟨j', hj'⟩ := hag.succeeds.1 ⟨j, hj⟩
  obtain ⟨C, hC, hx, hy, hxl, -, hxn, -⟩ := hag.profile j j' hj hj'
  have hCe : C = exTiltTable := by
    apply List.ext_getElem?
    intro k
    cases ha : C[k]? with
    | none =>
      symm
      rw [List.getElem?_eq_none_iff, ← hlen, hxl]
      exact List.getElem?_eq_none_iff.1 ha
    | some a =>
      have hk : k < C.length := (List.getElem?_eq_some_iff.1 ha).1
      have hk1 : k < j.x.length := by rw [hxl]; exact hk
      have hk2 : k < exTiltTable.length := by rw [← hlen]; exact hk1
      have hn := (hxn k _ a (List.getElem?_eq_getElem hk1) ha).2
      rw [div_one, orbitE_Q, ← Rat.cast_sub, ← Rat.cast_abs, Rat.cast_le] at hn
      have hm : (j.x[k], exTiltTable[k]) ∈ j.x.zip exTiltTable := List.mem_of_getElem? (i := k)
        (List.getElem?_zip_eq_some.2 ⟨List.getElem?_eq_getElem hk1, List.getElem?_eq_getElem hk2⟩)
      rcases htab a (hC a (List.mem_of_getElem? ha)).1 _ hm with h | h
      · exact absurd hn h
      · rw [List.getElem?_eq_getElem hk2, h]
  subst hCe
  have mk : ∀ {a : Body Float64} (e t : ℚ), orbitQ a = e →
      axisQ none exTilt exTiltCentre exTiltN a / exTiltJ = t → exTiltAt a e t := fun _ _ => exTiltAt_of
  obtain ⟨E0, J0⟩ := mk (a := exTiltCentre) (-1) 0 (by decide +kernel) (by decide +kernel)
  obtain ⟨E1, J1⟩ := mk (a := exTiltStar 3 (1/128) (-9/16)) (-9/16) (3/8) (by decide +kernel) (by decide +kernel)
  obtain ⟨E2, J2⟩ := mk (a := exTiltStar 5 (-1/128) (-15/64)) (-15/64) (-5/8) (by decide +kernel) (by decide +kernel)
  obtain ⟨E3, J3⟩ := mk (a := exTiltStar 8 (1/128) (-1/1024)) (-1/1024) 1 (by decide +kernel) (by decide +kernel)
  have hxs : (exTiltTable.map fun a => orbitE givenPot a / 1) = exTiltX := by
    simp only [exTiltTable, exTiltX, List.map_cons, List.map_nil, E0, E1, E2, E3]
    norm_num
  have hys : (exTiltTable.map fun a => |axisJz none exTilt exTiltCentre a / (exTiltJ : ℝ)|) = exTiltY := by
    simp only [exTiltTable, exTiltY, List.map_cons, List.map_nil, J0, J1, J2, J3]
    push_cast
    rw [show |(-5 / 8 : ℝ)| = 5 / 8 by rw [abs_of_neg] <;> norm_num]
    norm_num
  exact ⟨j', hj', by rw [← hxs, hx, List.map_map]; rfl, by rw [← hys, hy, List.map_map]; rfl⟩

/-- the margin of the example -/
theorem exTilt_margin : 3 * ((1 / 2 ^ 29 : ℚ) : ℝ) + 2 * ((1 / 2 ^ 29 : ℚ) : ℝ) / (1 / 8) < 1 / 2 ^ 20 ∧
    2 * ((1 / 2 ^ 29 : ℚ) : ℝ) + 2 * ((1 / 2 ^ 29 : ℚ) : ℝ) / (1 / 8) < 1 / 2 ^ 20 := by norm_num

/-- the second star is below the circular orbit, the fourth above it -/
theorem exTilt_polygon {P : ℝ} : (OnPolygon exTiltX exTiltY (-71/128) P → P = 8 / 21) ∧
    (OnPolygon exTiltX exTiltY (-73/128) P → 0 ≤ P ∧ P ≤ 3 / 8) := by
  have hs := exTilt_gaps.imp fun {u v} (h : (1 / 8 : ℝ) ≤ v - u) => (by linarith : u < v)
  constructor
  · intro hP
    have := polygon_value hs (k := 1) (y0 := 3 / 8) (y1 := 5 / 8) rfl rfl rfl rfl (by norm_num) (by norm_num) hP
    norm_num at this
    exact this
  · intro hP
    exact polygon_between hs (k := 0) (y0 := 0) (y1 := 3 / 8) rfl rfl rfl rfl (by norm_num) (by norm_num)
      (by norm_num) hP

/-- the stars are corners, or clear of the circular orbit and of the edges of the hundred bins -/
theorem exTilt_bins : ∀ a ∈ exTilt.stars,
    (orbitE givenPot a / 1, |axisJz none exTilt exTiltCentre a / (exTiltJ : ℝ)|) ∈ exTiltX.zip exTiltY ∨
    ∀ P, OnPolygon exTiltX exTiltY (orbitE givenPot a / 1) P →
      2 * ((1 / 2 ^ 29 : ℚ) : ℝ) + 2 * ((1 / 2 ^ 29 : ℚ) : ℝ) / (1 / 8)
        < |(|axisJz none exTilt exTiltCentre a / (exTiltJ : ℝ)| - P)| ∧
      ∀ k : Nat, 0 < k → k < 2 * 50 → 3 * ((1 / 2 ^ 29 : ℚ) : ℝ) + 2 * ((1 / 2 ^ 29 : ℚ) : ℝ) / (1 / 8)
        < |axisJz none exTilt exTiltCentre a / (exTiltJ : ℝ) - ((k : ℝ) / (50 : Nat) - 1) * P| := by
  obtain ⟨B2, B⟩ := exTilt_margin
  generalize 2 * ((1 / 2 ^ 29 : ℚ) : ℝ) + 2 * ((1 / 2 ^ 29 : ℚ) : ℝ) / (1 / 8) = B' at B ⊢
  generalize 3 * ((1 / 2 ^ 29 : ℚ) : ℝ) + 2 * ((1 / 2 ^ 29 : ℚ) : ℝ) / (1 / 8) = B2' at B2 ⊢
  norm_num at B B2
  refine exTilt_cases ?_ ?_ ?_ ?_ ?_ <;> rintro a ⟨hE, hJ⟩ <;> rw [hE, hJ]
  · left; unfold exTiltX exTiltY; norm_num
  · right
    intro P hP
    obtain rfl := exTilt_polygon.1 hP
    refine ⟨?_, fun k hk0 hk => ?_⟩
    · rw [abs_of_pos (show (0 : ℝ) < 1 / 8 by norm_num), abs_of_neg (by norm_num)]
      norm_num
      linarith
    · push_cast
      rcases Nat.lt_or_ge k 67 with h | h
      · have hk' : (k : ℝ) ≤ 66 := by exact_mod_cast Nat.le_of_lt_succ h
        rw [abs_of_pos (by linarith)]
        linarith
      · have hk' : (67 : ℝ) ≤ k := by exact_mod_cast h
        rw [abs_of_neg (by linarith)]
        linarith
  · left
    rw [show |(-5 / 8 : ℝ)| = 5 / 8 by rw [abs_of_neg] <;> norm_num]
    unfold exTiltX exTiltY; norm_num
  · right
    intro P hP
    obtain ⟨p1, p2⟩ := exTilt_polygon.2 hP
    refine ⟨?_, fun k hk0 hk => ?_⟩
    · rw [abs_of_pos (show (0 : ℝ) < 7 / 16 by norm_num), abs_of_pos (by linarith)]
      linarith
    · have hk' : (k : ℝ) ≤ 2 * 50 := by exact_mod_cast hk.le
      have hq : (k : ℝ) / (50 : Nat) - 1 ≤ 1 := by
        push_cast
        linarith
      have : ((k : ℝ) / (50 : Nat) - 1) * P ≤ 1 * P := mul_le_mul_of_nonneg_right hq p1
      rw [abs_of_pos (by linarith)]
      linarith
  · left; unfold exTiltX exTiltY; norm_num

/-- the stars are corners, or clear of the circular orbit and of the threshold 1/2 -/
theorem exTilt_half : ∀ a ∈ exTilt.stars,
    (orbitE givenPot a / 1, |axisJz none exTilt exTiltCentre a / (exTiltJ : ℝ)|) ∈ exTiltX.zip exTiltY ∨
    ∀ P, OnPolygon exTiltX exTiltY (orbitE givenPot a / 1) P →
      2 * ((1 / 2 ^ 29 : ℚ) : ℝ) + 2 * ((1 / 2 ^ 29 : ℚ) : ℝ) / (1 / 8)
        < |(|axisJz none exTilt exTiltCentre a / (exTiltJ : ℝ)| - P)| ∧
      2 * ((1 / 2 ^ 29 : ℚ) : ℝ) + 2 * ((1 / 2 ^ 29 : ℚ) : ℝ) / (1 / 8)
        < |axisJz none exTilt exTiltCentre a / (exTiltJ : ℝ) - ((1 / 2 : ℚ) : ℝ) * P| := by
  intro a ha
  rcases exTilt_bins a ha with h | h
  · exact Or.inl h
  · right
    intro P hP
    refine ⟨(h P hP).1, ?_⟩
    have := (h P hP).2 75 (by norm_num) (by norm_num)
    have e : ((75 : Nat) : ℝ) / (50 : Nat) - 1 = ((1 / 2 : ℚ) : ℝ) := by norm_num
    rw [e] at this
    refine lt_trans ?_ this
    norm_num

/-- the energies of the example are clear of the twenty energy bins -/
theorem exTilt_energies (k : Nat) : ∀ a ∈ exTilt.stars,
    2 * ((1 / 2 ^ 29 : ℚ) : ℝ) < |orbitE givenPot a / 1 - ((k : ℝ) / (20 : Nat) - 1)| := by
  have B : 2 * ((1 / 2 ^ 29 : ℚ) : ℝ) < 1 / 2000 := by norm_num
  generalize 2 * ((1 / 2 ^ 29 : ℚ) : ℝ) = B' at B ⊢
  have key : ∀ (t : ℝ) (n : Nat), (n : ℝ) / 20 - 1 + 1 / 2000 ≤ t → t ≤ ((n + 1 : Nat) : ℝ) / 20 - 1 - 1 / 2000 →
      B' < |t - ((k : ℝ) / (20 : Nat) - 1)| := by
    intro t n h1 h2
    push_cast at h2 ⊢
    rcases Nat.lt_or_ge n k with h | h
    · have hk' : (n : ℝ) + 1 ≤ k := by exact_mod_cast h
      rw [abs_of_neg (by linarith)]
      linarith
    · have hk' : (k : ℝ) ≤ n := by exact_mod_cast h
      rw [abs_of_pos (by linarith)]
      linarith
  refine exTilt_cases ?_ ?_ ?_ ?_ ?_ <;> rintro a ⟨hE, -⟩ <;> rw [hE]
  · exact key _ 8 (by norm_num) (by norm_num)
  · exact key _ 8 (by norm_num) (by norm_num)
  · exact key _ 15 (by norm_num) (by norm_num)
  · exact key _ 8 (by norm_num) (by norm_num)
  · exact key _ 19 (by norm_num) (by norm_num)

/-- C112: the example satisfies the hypotheses, so the labels of all three models after `center` and
`star_align` are those of exact arithmetic.  The third star moves backwards and the fourth is above the
circular orbit. -/
theorem C112_example : ∃ b2 b2' c c' h h' k k',
    (center (Galaxy.ofBodies exTilt) >>= fun g => starAlign g none) = .ok b2 ∧
    (center (Galaxy.ofBodies (potGalaxy givenPot exTilt).toB) >>= fun g => starAlign g none) = .ok b2' ∧
    decompose sortEnv defaultCbin (jThreshold (fun _ => 9) (Num.ofRat (1/2))) b2 = .ok c ∧
    decompose sortEnv defaultCbin (jThreshold (fun _ => 9) (.fin (1/2))) b2' = .ok c' ∧
    c'.labels = [some 1, some 0, some 0, none, some 1, none] ∧ c.labels = c'.labels ∧
    decompose sortEnv defaultCbin (jHistogram (fun _ => 9) firstRng 100 2 ()) b2 = .ok h ∧
    decompose sortEnv defaultCbin (jHistogram (fun _ => 9) firstRng 100 2 ()) b2' = .ok h' ∧
    h'.labels = [some 0, some 1, some 0, none, some 1, none] ∧ h.labels = h'.labels ∧
    decompose sortEnv defaultCbin (jeHistogram (fun _ => 9) firstRng 100 2 20 ()) b2 = .ok k ∧
    decompose sortEnv defaultCbin (jeHistogram (fun _ => 9) firstRng 100 2 20 ()) b2' = .ok k' ∧
    k'.labels = [some 1, some 1, some 0, none, some 1, none] ∧ k.labels = k'.labels := by
  have δ49 : 3 * ((1 / 2 ^ 32 : ℚ) : ℝ) + 1 / 2 ^ 49 ≤ ((1 / 2 ^ 29 : ℚ) : ℝ) := by norm_num
  have θ4 : ((1 / 2 ^ 32 : ℚ) : ℝ) ≤ 1 / 4 := by norm_num
  have hp : exTiltRun = .ok _ := exTilt_turning.double (sm := Num.sum) (dt := Num.dot)
  have hp' := exTilt_turning.exact
  have hag := exTilt_turning.agrees (sm := Num.sum) (dt := Num.dot) C81_orders.1 fused_dot exTilt_resolved θ4 δ49
    exTilt_clear sortEnv sortEnv_ok sortEnv sortEnv_ok exTilt_distinct
  obtain ⟨j', hj', hx, hy⟩ := exTilt_tables hp exTiltRun_table hag
  have hcut : value (Num.ofRat (1/2) : Float64) = 1 / 2 := by decide +kernel
  have fcut : Num.isFinite (Num.ofRat (1/2) : Float64) = true := by decide +kernel
  obtain ⟨c, c', hc, hc', hl1, -⟩ := hag.threshold j' hj' _ _ (1 / 8) hx hy (by norm_num) exTilt_gaps
    (fun _ => 9) (fun _ => 9) (Num.ofRat (1/2)) fcut (by rw [hcut]; exact fun a ha _ => exTilt_half a ha)
  obtain ⟨h, h', hh, hh', hl2⟩ := hag.jhistogram j' hj' _ _ (1 / 8) hx hy (by norm_num) exTilt_gaps Unit
    (fun _ => 9) firstRng firstRng_ok 50 2 (by norm_num) (by norm_num) (by norm_num) ()
    fun a ha _ => exTilt_bins a ha
  obtain ⟨k, k', hk, hk', hl3⟩ := hag.jehistogram j' hj' _ _ (1 / 8) hx hy (by norm_num) exTilt_gaps Unit
    (fun _ => 9) firstRng firstRng_ok 50 2 20 (by norm_num) (by norm_num) (by norm_num) (by norm_num)
    (by norm_num) () (fun a ha _ => exTilt_bins a ha) fun a ha _ n _ _ => exTilt_energies n a ha
  have r1 := exTiltRun_threshold
  have r2 := exTiltRun_jhistogram
  have r3 := exTiltRun_jehistogram
  rw [hp] at r1 r2 r3
  simp only [Except.toOption, Option.bind_some] at r1 r2 r3
  refine ⟨_, _, c, c', h, h', k, k', hp, hp', hc, ?_, ?_, hl1, hh, hh', ?_, hl2, hk, hk', ?_, hl3⟩
  · rw [hcut] at hc'
    push_cast at hc'
    exact hc'
  · rw [← hl1]
    rw [hc] at r1
    exact Option.some.inj r1
  · rw [← hl2]
    have hh : decompose sortEnv defaultCbin (jHistogram (fun _ => 9) firstRng 100 2 ())
      _ = .ok h := hh
    rw [hh] at r2
    exact Option.some.inj r2
  · rw [← hl3]
    have hk : decompose sortEnv defaultCbin (jeHistogram (fun _ => 9) firstRng 100 2 20 ())
      _ = .ok k := hk
    rw [hk] at r3
    exact Option.some.inj r3

end GChop
