import Verif.Props.RawAligned

/-!
# An example for `Props/RawAligned.lean`

C113: five stars and a light particle on a line through a heavy particle, moving across the line.  The
distances are fractions, so that the hypotheses can be checked in fractions.
-/

namespace GChop
open Flt Matrix

/-- a particle at `5 r` from the light particle, with speed `65 s` -/
def exSpoke (m r s : ℚ) : Body Float64 :=
  ⟨Num.ofRat m, Num.ofRat (1 / 2 + 4 * r), Num.ofRat (-3 - 3 * r), Num.ofRat 2,
    Num.ofRat (36 * s), Num.ofRat (48 * s), Num.ofRat (-25 * s), Num.ofRat 0⟩

/-- the example -/
def exWhirl : BGalaxy Float64 where
  stars := [exSpoke 160 3 (89/8192), exSpoke 160 (3/4) (1/128), exSpoke 160 (5/4) (3/1024),
    exSpoke 160 (1/2) (85/8192), exSpoke 160 2 (-17/2048)]
  dm := [exSpoke (5 * 2 ^ 17) (-1) (1/32), exSpoke 160 0 0]
  gas := []
  hasPot := false
  softS := Num.ofRat 0
  softDm := Num.ofRat 0
  softG := Num.ofRat 0

/-- the light particle -/
def exWhirlCentre : Body Float64 := exSpoke 160 0 0

/-- minus the potential, where distances are `5/4` of the distance in `x` -/
def lineU (l : List (Body Float64)) (g : ℚ) (a : Body Float64) : ℚ :=
  g * (l.map fun d => value d.m / (5 / 4 * |value a.x - value d.x|)).sum

def lineE (a : Body Float64) : ℚ :=
  (value a.vx ^ 2 + value a.vy ^ 2 + value a.vz ^ 2) / 2 - lineU exWhirl.all exGrav a

def exWhirlRun : Py (Galaxy Float64) :=
  potential (singleEnv (Num.ofRat (1 / 2 ^ 17)) true fun _ _ => Num.ofRat 0) (Galaxy.ofBodies exWhirl) "fortran"
    >>= center >>= fun g => starAlign g none

/-! ## Conditions on stars, in fractions -/

/-- where the polygon passes at `t`, from the two corners next to it -/
def chordQ : List ℚ → List ℚ → ℚ → Option ℚ
  | x0 :: x1 :: xs, y0 :: y1 :: ys, t =>
    if x0 < t ∧ t < x1 then some (y0 + (y1 - y0) * ((t - x0) / (x1 - x0))) else chordQ (x1 :: xs) (y1 :: ys) t
  | _, _, _ => none

theorem chordQ_spec {t q : ℚ} : ∀ {xs ys : List ℚ}, chordQ xs ys t = some q → ∃ k x0 x1 y0 y1,
    xs[k]? = some x0 ∧ xs[k + 1]? = some x1 ∧ ys[k]? = some y0 ∧ ys[k + 1]? = some y1 ∧ x0 < t ∧ t < x1 ∧
      q = y0 + (y1 - y0) * ((t - x0) / (x1 - x0))
  | [], _, h => by simp [chordQ] at h
  | [_], _, h => by simp [chordQ] at h
  | _ :: _ :: _, [], h => by simp [chordQ] at h
  | _ :: _ :: _, [_], h => by simp [chordQ] at h
  | x0 :: x1 :: xs, y0 :: y1 :: ys, h => by
    rw [chordQ] at h
    split at h
    · rename_i ht
      exact ⟨0, x0, x1, y0, y1, rfl, rfl, rfl, rfl, ht.1, ht.2, (Option.some.inj h).symm⟩
    · obtain ⟨k, u0, u1, v0, v1, h1, h2, h3, h4, r⟩ := chordQ_spec h
      exact ⟨k + 1, u0, u1, v0, v1, h1, h2, h3, h4, r⟩

theorem chordQ_polygon {xs ys : List ℚ} (hs : xs.Pairwise (· < ·)) {t q : ℚ} (h : chordQ xs ys t = some q) {P : ℝ}
    (hP : OnPolygon (xs.map fun q : ℚ => (q : ℝ)) (ys.map fun q : ℚ => (q : ℝ)) (t : ℝ) P) : P = (q : ℝ) := by
  obtain ⟨k, x0, x1, y0, y1, h1, h2, h3, h4, l0, l1, rfl⟩ := chordQ_spec h
  have hs' : (xs.map fun q : ℚ => (q : ℝ)).Pairwise (· < ·) :=
    List.Pairwise.map _ (fun a b h => by exact_mod_cast h) hs
  have get : ∀ {l : List ℚ} {k : Nat} {v : ℚ}, l[k]? = some v → (l.map fun q : ℚ => (q : ℝ))[k]? = some (v : ℝ) := by
    intro l k v h
    rw [List.getElem?_map, h]
    rfl
  have := polygon_value hs' (get h1) (get h2) (get h3) (get h4) (by exact_mod_cast l0) (by exact_mod_cast l1) hP
  rw [this]
  push_cast
  rfl

/-- a star at energy `e` and angular momentum `t` is a corner, or clear of the circular orbit by `B` and of
the given multiples of it by `B'` -/
def starQ (xs ys : List ℚ) (B B' : ℚ) (cuts : List ℚ) (e t : ℚ) : Bool :=
  (xs.zip ys).any (fun p => p.1 == e && p.2 == |t|) ||
    match chordQ xs ys e with
    | none => false
    | some q => decide (B < |(|t| - q)|) && cuts.all fun c => decide (B' < |t - c * q|)

theorem starQ_spec {xs ys cuts : List ℚ} (hs : xs.Pairwise (· < ·)) {B B' e t : ℚ}
    (h : starQ xs ys B B' cuts e t = true) {E T : ℝ} (hE : E = e) (hT : T = t) :
    (E, |T|) ∈ (xs.map fun q : ℚ => (q : ℝ)).zip (ys.map fun q : ℚ => (q : ℝ)) ∨
    ∀ P, OnPolygon (xs.map fun q : ℚ => (q : ℝ)) (ys.map fun q : ℚ => (q : ℝ)) E P →
      (B : ℝ) < |(|T| - P)| ∧ ∀ c ∈ cuts, (B' : ℝ) < |T - (c : ℝ) * P| := by
  subst hE hT
  rw [starQ, Bool.or_eq_true] at h
  rcases h with h | h
  · left
    obtain ⟨⟨u, v⟩, hp, h⟩ := List.any_eq_true.1 h
    simp only [Bool.and_eq_true, beq_iff_eq] at h
    obtain ⟨rfl, rfl⟩ := h
    rw [List.zip_map, ← Rat.cast_abs]
    exact List.mem_map_of_mem (f := Prod.map _ _) hp
  · right
    intro P hP
    split at h
    · cases h
    · rename_i q hq
      obtain rfl := chordQ_polygon hs hq hP
      simp only [Bool.and_eq_true, decide_eq_true_eq, List.all_eq_true] at h
      refine ⟨by exact_mod_cast h.1, fun c hc => by exact_mod_cast h.2 c hc⟩

/-! ## The hypotheses -/

theorem exWhirl_data : SingleData (Num.ofRat (1 / 2 ^ 17) : Float32') exGrav exWhirl (Num.ofRat 0) where
  noPot := rfl
  gval := by decide +kernel
  grange := by decide +kernel
  soft := by unfold LargestSoftening; decide +kernel
  size := by decide +kernel
  pos := by unfold Moderate; decide +kernel
  mass := by unfold Moderate; decide +kernel
  softRange := by unfold Moderate; decide +kernel
  sep := by decide +kernel

theorem exWhirl_input : SingleInput exWhirl (Num.ofRat 0) where
  pos := by unfold IsSingle; decide +kernel
  mass := by unfold IsSingle; decide +kernel
  soft := by unfold IsSingle; decide +kernel
  vel := by unfold Within; decide +kernel

theorem exWhirl_pull (a : Body Float64) (ha : a ∈ exWhirl.all) :
    (exGrav : ℝ) * pullSum exWhirl.all (Num.ofRat 0) a = (lineU exWhirl.all exGrav a : ℝ) := by
  have hpair : ∀ a ∈ exWhirl.all, ∀ d ∈ exWhirl.all, sv d.m = value d.m ∧
      (sv a.x - sv d.x) ^ 2 + (sv a.y - sv d.y) ^ 2 + (sv a.z - sv d.z) ^ 2 + sv (Num.ofRat 0) ^ 2
        = (5 / 4 * |value a.x - value d.x|) ^ 2 := by decide +kernel
  have hpull : ∀ d ∈ exWhirl.all, pairPull (Num.ofRat 0) a d
      = ((value d.m / (5 / 4 * |value a.x - value d.x|) : ℚ) : ℝ) := by
    intro d hd
    obtain ⟨h1, h2⟩ := hpair a ha d hd
    unfold pairPull
    rw [h1]
    have h3 := congrArg (fun q : ℚ => (q : ℝ)) h2
    push_cast at h3
    rw [h3, Real.sqrt_sq (by positivity)]
    push_cast
    rfl
  unfold pullSum lineU
  have h1 := Fin.sum_univ_fun_getElem exWhirl.all fun d => pairPull (Num.ofRat 0) a d
  have h2 : pairPull (Num.ofRat 0) a a = 0 := by
    rw [hpull a ha]
    simp
  rw [h2, sub_zero, Rat.cast_mul, Rat.cast_list_sum, List.map_map]
  refine congrArg _ (h1.trans (congrArg _ (List.map_congr_left hpull)))

theorem exWhirl_phi {a : Body Float64} (ha : a ∈ exWhirl.all) :
    gravPhi exGrav exWhirl (Num.ofRat 0) a = ((-lineU exWhirl.all exGrav a : ℚ) : ℝ) := by
  unfold gravPhi
  rw [exWhirl_pull a ha, Rat.cast_neg]

theorem exWhirl_eta {a : Body Float64} (ha : a ∈ exWhirl.all) :
    gravEta exGrav exWhirl (Num.ofRat 0) a = ((13 / 2 ^ 23 * lineU exWhirl.all exGrav a : ℚ) : ℝ) := by
  unfold gravEta
  rw [exWhirl_pull a ha, show exWhirl.all.length = 7 from rfl]
  push_cast
  norm_num

theorem exWhirl_E {a : Body Float64} (ha : a ∈ exWhirl.all) :
    orbitE (gravPhi exGrav exWhirl (Num.ofRat 0)) a = (lineE a : ℝ) := by
  unfold orbitE lineE exactKinetic
  rw [exWhirl_phi ha]
  push_cast
  ring

def lineErr (a : Body Float64) : ℚ :=
  26 / 2 ^ 23 * lineU exWhirl.all exGrav a
    + sizeQ (value a.vx) (value a.vy) (value a.vz) * sizeQ (value a.vx) (value a.vy) (value a.vz) / 2 ^ 45
    + |lineU exWhirl.all exGrav a| / 2 ^ 50

theorem exWhirl_err {a : Body Float64} (ha : a ∈ exWhirl.all) :
    orbitErrE (gravPhi exGrav exWhirl (Num.ofRat 0)) (gravEta exGrav exWhirl (Num.ofRat 0)) a = (lineErr a : ℝ) := by
  unfold orbitErrE lineErr
  rw [exWhirl_phi ha, exWhirl_eta ha, sizeOf3_Q _ (value a.vx) (value a.vy) (value a.vz) rfl rfl rfl,
    ← Rat.cast_abs, abs_neg]
  push_cast
  ring

/-- the length of the total angular momentum, the lowest energy and the largest angular momentum -/
def exWhirlN : ℚ := 817375 / 512
def exWhirlM : ℚ := 123029 / 122880
def exWhirlJ : ℚ := 86775 / 8192

theorem exWhirl_euclid : euclid (totalJ none exWhirl exWhirlCentre) = exWhirlN :=
  euclid_Q (by decide +kernel) (by decide +kernel)

theorem exWhirl_turning : RawTurning none exGrav exWhirl (Num.ofRat 0) 6 exWhirlCentre where
  vel := by unfold Within; decide +kernel
  centre := rfl
  lowest := by
    have h : ∀ j : Fin 7, (j : Nat) ≠ 6 → ∀ d ∈ exWhirl.all[(j : Nat)]?,
        -lineU exWhirl.all exGrav exWhirlCentre + 13 / 2 ^ 23 * lineU exWhirl.all exGrav exWhirlCentre
          < -lineU exWhirl.all exGrav d - 13 / 2 ^ 23 * lineU exWhirl.all exGrav d := by
      decide +kernel
    intro j d hj hne
    have hlt : j < 7 := (List.getElem?_eq_some_iff.1 hj).1
    have := h ⟨j, hlt⟩ hne d hj
    have hc : exWhirlCentre ∈ exWhirl.all := List.mem_of_getElem? (i := 6) rfl
    rw [exWhirl_phi hc, exWhirl_eta hc, exWhirl_phi (List.mem_of_getElem? hj), exWhirl_eta (List.mem_of_getElem? hj)]
    exact_mod_cast this
  cut := by rintro r ⟨⟩
  total i := by
    rw [totalJ_Q]
    have h : ∀ i, |totalQ none exWhirl exWhirlCentre i| ≤ 2 ^ (199 : ℤ) := by decide +kernel
    exact_mod_cast h i
  axis := ⟨0, by decide, by
      rw [totalJ_Q]
      have h : (2 : ℚ) ^ (-199 : ℤ) ≤ |totalQ none exWhirl exWhirlCentre 0| := by decide +kernel
      have h := (Rat.cast_le (K := ℝ)).2 h
      rwa [Rat.cast_zpow, Rat.cast_abs, Rat.cast_ofNat] at h, by
      rw [totalJ_Q, starLoad_Q]
      have h : loadQ none exWhirl exWhirlCentre ≤ 2 ^ 48 * |totalQ none exWhirl exWhirlCentre 0| := by decide +kernel
      exact_mod_cast h⟩

theorem exWhirl_resolved : AxisResolved none exWhirl (gravPhi exGrav exWhirl (Num.ofRat 0))
    (gravEta exGrav exWhirl (Num.ofRat 0)) exWhirlCentre (exWhirlM : ℝ) (exWhirlJ : ℝ) ((1 / 2 ^ 18 : ℚ) : ℝ) where
  zero a ha h := by
    have hq : ∀ a ∈ exWhirl.all, axisQ none exWhirl exWhirlCentre exWhirlN a = 0 →
      (∀ i, value (a.pos i) = value (exWhirlCentre.pos i)) ∨ ∀ i, value (a.vel i) = 0 := by decide +kernel
    rw [axis_Q exWhirl_euclid] at h
    exact hq a ha (by exact_mod_cast h)
  sign a ha := by
    rw [exWhirl_E ha, exWhirl_err ha, ← Rat.cast_abs, Rat.cast_lt]
    revert a; decide +kernel
  M_pos := by unfold exWhirlM; norm_num
  M_le a ha := by
    rw [exWhirl_E ha, ← Rat.cast_neg, Rat.cast_le]
    revert a; decide +kernel
  M_eq := ⟨exWhirlCentre, List.mem_of_getElem? (i := 6) rfl, by
    rw [exWhirl_E (a := exWhirlCentre) (List.mem_of_getElem? (i := 6) rfl), ← Rat.cast_neg, Rat.cast_inj]
    decide +kernel⟩
  J_pos := by unfold exWhirlJ; norm_num
  J_le a ha := by
    rw [exWhirl_E ha, axis_Q exWhirl_euclid, ← Rat.cast_abs, Rat.cast_le, show (0 : ℝ) = ((0 : ℚ) : ℝ) by norm_num,
      Rat.cast_lt]
    revert a; decide +kernel
  J_eq := ⟨exSpoke 160 3 (89/8192), List.mem_of_getElem? (i := 0) rfl, by
    rw [exWhirl_E (List.mem_of_getElem? (i := 0) rfl), axis_Q exWhirl_euclid, ← Rat.cast_abs, Rat.cast_inj,
      show (0 : ℝ) = ((0 : ℚ) : ℝ) by norm_num, Rat.cast_lt]
    decide +kernel⟩
  E a ha := by
    rw [exWhirl_E ha, exWhirl_err ha, ← Rat.cast_mul, Rat.cast_le, show (0 : ℝ) = ((0 : ℚ) : ℝ) by norm_num,
      Rat.cast_lt]
    revert a; decide +kernel
  Jz a ha := by
    rw [exWhirl_E ha, axisErr_Q exWhirl_euclid, ← Rat.cast_mul, Rat.cast_le, show (0 : ℝ) = ((0 : ℚ) : ℝ) by norm_num,
      Rat.cast_lt]
    revert a; decide +kernel

/-- scaled energy and angular momentum -/
def lineE1 (a : Body Float64) : ℚ := lineE a / exWhirlM
def lineJ1 (a : Body Float64) : ℚ := axisQ none exWhirl exWhirlCentre exWhirlN a / exWhirlJ

theorem exWhirl_E1 {a : Body Float64} (ha : a ∈ exWhirl.all) :
    orbitE (gravPhi exGrav exWhirl (Num.ofRat 0)) a / (exWhirlM : ℝ) = (lineE1 a : ℝ) := by
  rw [exWhirl_E ha, lineE1, Rat.cast_div]

theorem exWhirl_J1 (a : Body Float64) :
    axisJz none exWhirl exWhirlCentre a / (exWhirlJ : ℝ) = (lineJ1 a : ℝ) := by
  rw [axis_Q exWhirl_euclid, lineJ1, Rat.cast_div]

theorem exWhirl_clear : Clear (rawBound exWhirl (orbitE (gravPhi exGrav exWhirl (Num.ofRat 0))))
    (fun i => orbitE (gravPhi exGrav exWhirl (Num.ofRat 0)) exWhirl.all[i] / (exWhirlM : ℝ))
    (fun i => axisJz none exWhirl exWhirlCentre exWhirl.all[i] / (exWhirlJ : ℝ)) defaultEdges
    ((1 / 2 ^ 16 : ℚ) : ℝ) := by
  have hb : rawBound exWhirl (orbitE (gravPhi exGrav exWhirl (Num.ofRat 0)))
      = (List.finRange exWhirl.all.length).filter fun i => decide (lineE exWhirl.all[i] < 0) := by
    unfold rawBound
    apply List.filter_congr
    intro i _
    rw [exWhirl_E (a := exWhirl.all[i]) (List.getElem_mem i.2), Bool.eq_iff_iff, decide_eq_true_eq, decide_eq_true_eq]
    exact Rat.cast_lt_zero
  rw [hb, defaultEdges_eq]
  exact clear_of_Q (Eq := fun i : Fin exWhirl.all.length => lineE1 exWhirl.all[i])
    (Jq := fun i : Fin exWhirl.all.length => lineJ1 exWhirl.all[i])
    (fun i => exWhirl_E1 (List.getElem_mem i.2)) (fun i => exWhirl_J1 _) (by decide +kernel)

/-! ## The run -/

/-- the corners: the light particle and the fourth, fifth and first star -/
def exWhirlTable : List (Body Float64) :=
  [exWhirlCentre, exSpoke 160 (1/2) (85/8192), exSpoke 160 2 (-17/2048), exSpoke 160 3 (89/8192)]

theorem exWhirlTable_mem : ∀ a ∈ exWhirlTable, a ∈ exWhirl.all := by decide +kernel

theorem exWhirlRun_table : (exWhirlRun.toOption.bind fun b2 =>
    (jcirc (sortEnv (F := Float64)) b2 defaultCbin.1 defaultCbin.2).toOption.map fun j =>
      decide (j.x.length = exWhirlTable.length) && exWhirl.all.all fun a => (j.x.zip exWhirlTable).all fun p =>
        !decide (|value p.1 - lineE1 a| ≤ 1 / 2 ^ 16) || decide (a = p.2)) = some true := by
  decide +kernel

theorem exWhirlRun_threshold : (exWhirlRun.toOption.bind fun b2 =>
    (decompose sortEnv defaultCbin (jThreshold (fun _ => 9) (Num.ofRat (1/2))) b2).toOption.map
      Components.labels) = some [some 1, none, some 1, some 1, some 0, none, none] := by
  decide +kernel

theorem exWhirlRun_jhistogram : (exWhirlRun.toOption.bind fun b2 =>
    (decompose sortEnv defaultCbin (jHistogram (fun _ => 9) firstRng 100 2 ()) b2).toOption.map
      Components.labels) = some [some 0, none, some 1, some 1, some 0, none, none] := by
  decide +kernel

theorem exWhirlRun_jehistogram : (exWhirlRun.toOption.bind fun b2 =>
    (decompose sortEnv defaultCbin (jeHistogram (fun _ => 9) firstRng 100 2 20 ()) b2).toOption.map
      Components.labels) = some [some 1, none, some 1, some 1, some 0, none, none] := by
  decide +kernel

/-- rounding does not make particles of the example equal -/
theorem exWhirl_distinct {b2 : BGalaxy Float64} (hp : exWhirlRun = .ok (Galaxy.ofBodies b2)) :
    ∀ i j : Nat, b2.all[i]? = b2.all[j]? → exWhirl.all[i]? = exWhirl.all[j]? := by
  have h : (exWhirlRun.toOption.map fun g => decide (g.stars.x ++ g.darkMatter.x ++ g.gas.x).Nodup) = some true := by
    decide +kernel
  have hlen : (exWhirlRun.toOption.map fun g => (g.stars.x ++ g.darkMatter.x ++ g.gas.x).length) = some 7 := by
    decide +kernel
  rw [hp] at h hlen
  have h := of_decide_eq_true (Option.some.inj h)
  have hlen : ((Galaxy.ofBodies b2).stars.x ++ (Galaxy.ofBodies b2).darkMatter.x ++ (Galaxy.ofBodies b2).gas.x).length
      = 7 := Option.some.inj hlen
  have hx : (Galaxy.ofBodies b2).stars.x ++ (Galaxy.ofBodies b2).darkMatter.x ++ (Galaxy.ofBodies b2).gas.x
      = b2.all.map (·.x) := by
    simp only [BGalaxy.all, List.map_append]
    rfl
  rw [hx] at h hlen
  rw [List.length_map] at hlen
  have h := List.Nodup.of_map _ h
  intro i j hij
  by_cases hi : i < b2.all.length
  · rw [(List.getElem?_inj hi h).1 hij]
  · have hj : ¬ j < b2.all.length := fun hj => by
      rw [List.getElem?_eq_none (not_lt.1 hi), List.getElem?_eq_getElem hj] at hij
      cases hij
    have h7 : exWhirl.all.length = 7 := rfl
    rw [List.getElem?_eq_none (by omega), List.getElem?_eq_none (by omega)]

def exWhirlX : List ℚ := exWhirlTable.map lineE1
def exWhirlY : List ℚ := exWhirlTable.map fun a => |lineJ1 a|

theorem exWhirl_sorted : exWhirlX.Pairwise (· < ·) := by decide +kernel

theorem exWhirl_gaps : (exWhirlX.map fun q : ℚ => (q : ℝ)).Pairwise fun u v => 1 / 8 ≤ v - u := by
  have h : exWhirlX.Pairwise fun u v => 1 / 8 ≤ v - u := by decide +kernel
  refine List.Pairwise.map _ (fun u v h => ?_) h
  have h := (Rat.cast_le (K := ℝ)).2 h
  push_cast at h
  exact h

/-- exact arithmetic finds the corners of `exWhirlTable` -/
theorem exWhirl_tables {b2 : Galaxy Float64} {b2' : Galaxy (Ext ℝ)} (hp : exWhirlRun = .ok b2)
    (hag : AgreesFor exWhirl (orbitE (gravPhi exGrav exWhirl (Num.ofRat 0))) (axisJz none exWhirl exWhirlCentre)
      (exWhirlM : ℝ) (exWhirlJ : ℝ) ((1 / 2 ^ 16 : ℚ) : ℝ) sortEnv sortEnv b2 b2') :
    ∃ j', jcirc sortEnv b2' defaultCbin.1 defaultCbin.2 = .ok j' ∧
      j'.x = (exWhirlX.map fun q : ℚ => (q : ℝ)).map .fin ∧ j'.y = (exWhirlY.map fun q : ℚ => (q : ℝ)).map .fin := by
  have htab := exWhirlRun_table
  rw [hp] at htab
  simp only [Except.toOption, Option.bind_some] at htab
  cases hj : jcirc (sortEnv (F := Float64)) b2 defaultCbin.1 defaultCbin.2 with
  | error e => rw [hj] at htab; cases htab
  | ok j =>
  rw [hj] at htab
  simp only [Option.map_some, Option.some.injEq, Bool.and_eq_true, decide_eq_true_eq,
    List.all_eq_true, Bool.or_eq_true, Bool.not_eq_true', decide_eq_false_iff_not] at htab
  obtain ⟨hlen, htab⟩ := htab
  obtain ⟨j', hj'⟩ := hag.succeeds.1 ⟨j, hj⟩
  obtain ⟨C, hC, hx, hy, hxl, -, hxn, -⟩ := hag.profile j j' hj hj'
  have hCe : C = exWhirlTable := by
    apply List.ext_getElem?
    intro k
    cases ha : C[k]? with
    | none =>
      symm
      rw [List.getElem?_eq_none_iff, ← hlen, hxl]
      exact List.getElem?_eq_none_iff.1 ha
    | some a =>
      have hk : k < C.length := (List.getElem?_eq_some_iff.1 ha).1
      have hk1 : k < j.x.length := by rw [hxl]; exact hk
      have hk2 : k < exWhirlTable.length := by rw [← hlen]; exact hk1
      have hmem := (hC a (List.mem_of_getElem? ha)).1
      have hn := (hxn k _ a (List.getElem?_eq_getElem hk1) ha).2
      rw [exWhirl_E1 hmem, ← Rat.cast_sub, ← Rat.cast_abs, Rat.cast_le] at hn
      have hm : (j.x[k], exWhirlTable[k]) ∈ j.x.zip exWhirlTable := List.mem_of_getElem? (i := k)
        (List.getElem?_zip_eq_some.2 ⟨List.getElem?_eq_getElem hk1, List.getElem?_eq_getElem hk2⟩)
      rcases htab a hmem _ hm with h | h
      · exact absurd hn h
      · rw [List.getElem?_eq_getElem hk2, h]
  subst hCe
  refine ⟨j', hj', ?_, ?_⟩
  · rw [hx, exWhirlX, List.map_map, List.map_map]
    exact List.map_congr_left fun a ha => congrArg Ext.fin (exWhirl_E1 (exWhirlTable_mem a ha))
  · rw [hy, exWhirlY, List.map_map, List.map_map]
    refine List.map_congr_left fun a ha => congrArg Ext.fin ?_
    rw [exWhirl_J1, ← Rat.cast_abs]

/-- the stars are corners, or clear of the circular orbit and of the edges of the hundred bins -/
theorem exWhirl_bins : ∀ a ∈ exWhirl.stars,
    starQ exWhirlX exWhirlY (18 / 2 ^ 16) (19 / 2 ^ 16) ((List.range 100).map fun k : Nat => (k : ℚ) / 50 - 1)
      (lineE1 a) (lineJ1 a) = true := by decide +kernel

/-- the energies of the stars are clear of the twenty energy bins -/
theorem exWhirl_energies : ∀ a ∈ exWhirl.stars, ∀ n ∈ List.range 21,
    2 / 2 ^ 16 < |lineE1 a - ((n : ℚ) / 20 - 1)| := by decide +kernel

/-- C113: the example satisfies the hypotheses, so the labels of all three models after `potential`,
`center` and `star_align` are those of exact arithmetic.  The second star is above the circular orbit and
the fifth moves backwards. -/
theorem C113_example : ∃ b2 b2' c c' h h' k k',
    (potential (singleEnv (Num.ofRat (1 / 2 ^ 17)) true fun _ _ => Num.ofRat 0) (Galaxy.ofBodies exWhirl) "fortran"
      >>= center >>= fun g => starAlign g none) = .ok b2 ∧
    (potential (exactEnv (exGrav : ℝ) fun _ _ => .fin 0) (Galaxy.ofBodies (exactGalaxy exWhirl)) "fortran"
      >>= center >>= fun g => starAlign g none) = .ok b2' ∧
    decompose sortEnv defaultCbin (jThreshold (fun _ => 9) (Num.ofRat (1/2))) b2 = .ok c ∧
    decompose sortEnv defaultCbin (jThreshold (fun _ => 9) (.fin (1/2))) b2' = .ok c' ∧
    c'.labels = [some 1, none, some 1, some 1, some 0, none, none] ∧ c.labels = c'.labels ∧
    decompose sortEnv defaultCbin (jHistogram (fun _ => 9) firstRng 100 2 ()) b2 = .ok h ∧
    decompose sortEnv defaultCbin (jHistogram (fun _ => 9) firstRng 100 2 ()) b2' = .ok h' ∧
    h'.labels = [some 0, none, some 1, some 1, some 0, none, none] ∧ h.labels = h'.labels ∧
    decompose sortEnv defaultCbin (jeHistogram (fun _ => 9) firstRng 100 2 20 ()) b2 = .ok k ∧
    decompose sortEnv defaultCbin (jeHistogram (fun _ => 9) firstRng 100 2 20 ()) b2' = .ok k' ∧
    k'.labels = [some 1, none, some 1, some 1, some 0, none, none] ∧ k.labels = k'.labels := by
  have δ49 : 3 * ((1 / 2 ^ 18 : ℚ) : ℝ) + 1 / 2 ^ 49 ≤ ((1 / 2 ^ 16 : ℚ) : ℝ) := by norm_num
  have θ4 : ((1 / 2 ^ 18 : ℚ) : ℝ) ≤ 1 / 4 := by norm_num
  obtain ⟨b2, b2', hp, hp', hag⟩ := C113_fortran C81_orders.1 (dt := Num.dot) fused_dot (dt1 := Num.dot) fused_leftFold exWhirl_data exWhirl_input exWhirl_turning
    exWhirl_resolved θ4 δ49 (by norm_num) exWhirl_clear (fun _ _ => Num.ofRat 0) (fun _ _ => .fin 0) sortEnv sortEnv_ok
    sortEnv sortEnv_ok
  have hp : exWhirlRun = .ok (Galaxy.ofBodies b2) := hp
  have hag := hag (exWhirl_distinct hp)
  obtain ⟨j', hj', hx, hy⟩ := exWhirl_tables hp hag
  have smem : ∀ a ∈ exWhirl.stars, a ∈ exWhirl.all := fun a ha => by
    simp only [BGalaxy.all, List.mem_append]
    exact Or.inl (Or.inl ha)
  have B1 : 2 * ((1 / 2 ^ 16 : ℚ) : ℝ) + 2 * ((1 / 2 ^ 16 : ℚ) : ℝ) / (1 / 8) = ((18 / 2 ^ 16 : ℚ) : ℝ) := by norm_num
  have B2 : 3 * ((1 / 2 ^ 16 : ℚ) : ℝ) + 2 * ((1 / 2 ^ 16 : ℚ) : ℝ) / (1 / 8) = ((19 / 2 ^ 16 : ℚ) : ℝ) := by norm_num
  have bins := fun a ha => starQ_spec exWhirl_sorted (exWhirl_bins a ha) (exWhirl_E1 (smem a ha)) (exWhirl_J1 a)
  have cut : ∀ n : Nat, 0 < n → n < 2 * 50 → ((n : ℚ) / 50 - 1) ∈ (List.range 100).map fun k : Nat => (k : ℚ) / 50 - 1 :=
    fun n _ h => List.mem_map.2 ⟨n, List.mem_range.2 h, rfl⟩
  have hbins := fun a (ha : a ∈ exWhirl.stars) => (bins a ha).imp id fun h P hP =>
    (⟨by rw [B1]; exact (h P hP).1, fun n h0 h1 => by
      have := (h P hP).2 _ (cut n h0 h1)
      rw [B2]
      push_cast at this ⊢
      exact this⟩ : 2 * ((1 / 2 ^ 16 : ℚ) : ℝ) + 2 * ((1 / 2 ^ 16 : ℚ) : ℝ) / (1 / 8)
        < |(|axisJz none exWhirl exWhirlCentre a / (exWhirlJ : ℝ)| - P)| ∧
      ∀ k : Nat, 0 < k → k < 2 * 50 → 3 * ((1 / 2 ^ 16 : ℚ) : ℝ) + 2 * ((1 / 2 ^ 16 : ℚ) : ℝ) / (1 / 8)
        < |axisJz none exWhirl exWhirlCentre a / (exWhirlJ : ℝ) - ((k : ℝ) / (50 : Nat) - 1) * P|)
  have hcut : value (Num.ofRat (1/2) : Float64) = 1 / 2 := by decide +kernel
  have fcut : Num.isFinite (Num.ofRat (1/2) : Float64) = true := by decide +kernel
  obtain ⟨c, c', hc, hc', hl1, -⟩ := hag.threshold j' hj' _ _ (1 / 8) hx hy (by norm_num) exWhirl_gaps
    (fun _ => 9) (fun _ => 9) (Num.ofRat (1/2)) fcut (by
      rw [hcut]
      refine fun a ha _ => (hbins a ha).imp id fun h P hP => ⟨(h P hP).1, ?_⟩
      have := (h P hP).2 75 (by norm_num) (by norm_num)
      have e : ((75 : Nat) : ℝ) / (50 : Nat) - 1 = ((1 / 2 : ℚ) : ℝ) := by norm_num
      rw [e, B2] at this
      rw [B1]
      refine lt_trans ?_ this
      norm_num)
  obtain ⟨h, h', hh, hh', hl2⟩ := hag.jhistogram j' hj' _ _ (1 / 8) hx hy (by norm_num) exWhirl_gaps Unit
    (fun _ => 9) firstRng firstRng_ok 50 2 (by norm_num) (by norm_num) (by norm_num) () fun a ha _ => hbins a ha
  obtain ⟨k, k', hk, hk', hl3⟩ := hag.jehistogram j' hj' _ _ (1 / 8) hx hy (by norm_num) exWhirl_gaps Unit
    (fun _ => 9) firstRng firstRng_ok 50 2 20 (by norm_num) (by norm_num) (by norm_num) (by norm_num)
    (by norm_num) () (fun a ha _ => hbins a ha) fun a ha _ n _ hn => by
      have := exWhirl_energies a ha n (List.mem_range.2 (by omega))
      rw [exWhirl_E1 (smem a ha)]
      have := (Rat.cast_lt (K := ℝ)).2 this
      push_cast at this ⊢
      norm_num at this ⊢
      exact this
  have r1 := exWhirlRun_threshold
  have r2 := exWhirlRun_jhistogram
  have r3 := exWhirlRun_jehistogram
  rw [hp] at r1 r2 r3
  simp only [Except.toOption, Option.bind_some] at r1 r2 r3
  refine ⟨_, _, c, c', h, h', k, k', hp, hp', hc, ?_, ?_, hl1, hh, hh', ?_, hl2, hk, hk', ?_, hl3⟩
  · rw [hcut] at hc'
    push_cast at hc'
    exact hc'
  · rw [← hl1]
    rw [hc] at r1
    exact Option.some.inj r1
  · rw [← hl2]
    have hh : decompose sortEnv defaultCbin (jHistogram (fun _ => 9) firstRng 100 2 ())
      _ = .ok h := hh
    rw [hh] at r2
    exact Option.some.inj r2
  · rw [← hl3]
    have hk : decompose sortEnv defaultCbin (jeHistogram (fun _ => 9) firstRng 100 2 20 ())
      _ = .ok k := hk
    rw [hk] at r3
    exact Option.some.inj r3

end GChop
