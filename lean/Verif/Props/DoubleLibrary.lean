import Verif.Props.AlignedExample

/-!
# C115: `star_align` and the linear algebra library

`np.dot` is a call of the linear algebra library numpy was built with.  The library chooses the order of
the additions and whether products are rounded or fused with an addition.
-/

namespace GChop

open Flt Matrix

/-- C115: two libraries give masses and potentials that are the same and coordinates that differ by at
most `2^-46` of the size of the vector. -/
theorem C115_coordinates (sm : List Float64 → Float64) (dt dt' : List (Float64 × Float64) → Float64)
    (hdt : ∀ l, Fused l (dt l)) (hdt' : ∀ l, Fused l (dt' l)) (b : BGalaxy Float64)
    (rCut : Option Float64) (hc : ∀ c ∈ rCut, (c <=. Num.ofRat 0) = false)
    (ht : Tilted (sm ((b.stars.filter (Body.inside rCut)).map fun a => a.m *. a.jx))
      (sm ((b.stars.filter (Body.inside rCut)).map fun a => a.m *. a.jy))
      (sm ((b.stars.filter (Body.inside rCut)).map fun a => a.m *. a.jz)))
    (hw : ∀ a ∈ b.all, ∀ i, Within 990 (a.pos i) ∧ Within 990 (a.vel i)) :
    ∃ b1 b2 : BGalaxy Float64,
      @starAlign _ (sumDot sm dt) (Galaxy.ofBodies b) rCut = .ok (Galaxy.ofBodies b1) ∧
      @starAlign _ (sumDot sm dt') (Galaxy.ofBodies b) rCut = .ok (Galaxy.ofBodies b2) ∧
      b1.all.length = b.all.length ∧ b2.all.length = b.all.length ∧
      ∀ (j : Nat) (a a1 a2 : Body Float64), b.all[j]? = some a → b1.all[j]? = some a1 →
        b2.all[j]? = some a2 → a1.m = a2.m ∧ a1.pot = a2.pot ∧ ∀ i,
          (Num.isFinite (a1.pos i) = true ∧ Num.isFinite (a2.pos i) = true ∧
            |(value (a1.pos i) : ℝ) - value (a2.pos i)| ≤
              (|(value a.x : ℝ)| + |(value a.y : ℝ)| + |(value a.z : ℝ)|) / 2 ^ 46 + 2 ^ (-1069 : ℤ)) ∧
          Num.isFinite (a1.vel i) = true ∧ Num.isFinite (a2.vel i) = true ∧
            |(value (a1.vel i) : ℝ) - value (a2.vel i)| ≤
              (|(value a.vx : ℝ)| + |(value a.vy : ℝ)| + |(value a.vz : ℝ)|) / 2 ^ 46 + 2 ^ (-1069 : ℤ) := by
  have hR := alignK_mem ht.perp_ne
  have hent := matrix_entries ht
  have hbad : ∀ d, @badCut _ (sumDot sm d) rCut = false := by
    intro d
    cases rCut with
    | none => rfl
    | some c => exact hc c rfl
  refine ⟨_, _, @starAlign_ofBodies _ (sumDot sm dt) b rCut (hbad dt),
    @starAlign_ofBodies _ (sumDot sm dt') b rCut (hbad dt'), by simp [mapBodies_all],
    by simp [mapBodies_all], ?_⟩
  intro j a a1 a2 h h1 h2
  have ha := hw a (List.mem_of_getElem? h)
  rw [mapBodies_all, List.getElem?_map, h] at h1 h2
  obtain rfl := Option.some.inj h1
  obtain rfl := Option.some.inj h2
  obtain ⟨p1, v1, m1, q1⟩ := rot_rotated hdt hR hent ha
  obtain ⟨p2, v2, m2, q2⟩ := rot_rotated hdt' hR hent ha
  have close : ∀ {R : Matrix (Fin 3) (Fin 3) ℝ} {v w w' : Fin 3 → Float64}, RotatedTo R v w →
      RotatedTo R v w' → ∀ i, Num.isFinite (w i) = true ∧ Num.isFinite (w' i) = true ∧
        |(value (w i) : ℝ) - value (w' i)| ≤
          (|(value (v 0) : ℝ)| + |(value (v 1) : ℝ)| + |(value (v 2) : ℝ)|) / 2 ^ 46 + 2 ^ (-1069 : ℤ) := by
    intro R v w w' h h' i
    refine ⟨(h i).1, (h' i).1, ?_⟩
    have e1 := (h i).2
    have e2 := (h' i).2
    rw [abs_sub_comm] at e2
    have e3 := abs_sub_le (value (w i) : ℝ) ((R *ᵥ fun j => (value (v j) : ℝ)) i) (value (w' i))
    have e4 : (2 : ℝ) ^ (-1069 : ℤ) = 2 * 2 ^ (-1070 : ℤ) := by
      rw [← zpow_one_add₀ (by norm_num)]
      norm_num
    rw [e4]
    generalize (2 : ℝ) ^ (-1070 : ℤ) = t at *
    generalize |(value (v 0) : ℝ)| + |(value (v 1) : ℝ)| + |(value (v 2) : ℝ)| = s at *
    norm_num at e1 e2 ⊢
    linarith
  exact ⟨m1.trans m2.symm, q1.trans q2.symm, fun i => ⟨close p1 p2 i, close v1 v2 i⟩⟩

section
variable {rc : Option Float64} {φ η : Body Float64 → ℝ} {b : BGalaxy Float64} {i0 : Nat} {c : Body Float64}

/-- C115: the labels of JThreshold after `center` and `star_align` are the same on two machines that add
and multiply in different ways and break ties of sorting differently, when exact arithmetic leaves the
stars clear of the threshold. -/
theorem C115_threshold (sm sm' : List Float64 → Float64) (dt dt' : List (Float64 × Float64) → Float64)
    (hs : ∀ l, Added l (sm l)) (hs' : ∀ l, Added l (sm' l)) (hdt : ∀ l, Fused l (dt l))
    (hdt' : ∀ l, Fused l (dt' l)) (h : Turning rc b φ η i0 c) {M J θ δ : ℝ}
    (hr : AxisResolved rc b φ η c M J θ) (hθ : θ ≤ 1 / 4) (hδ : 3 * θ + 1 / 2 ^ 49 ≤ δ)
    (hc : Clear (orbitBound φ b) (fun a => orbitE φ a / M) (fun a => axisJz rc b c a / J) defaultEdges δ)
    (env env' : CircEnv Float64) (henv : env.OK) (henv' : env'.OK) (envR : CircEnv (Ext ℝ))
    (henvR : envR.OK) :
    ∃ b1 b2 bR,
      (center (Galaxy.ofBodies b) >>= fun g => @starAlign _ (sumDot sm dt) g rc)
        = .ok (Galaxy.ofBodies b1) ∧
      (center (Galaxy.ofBodies b) >>= fun g => @starAlign _ (sumDot sm' dt') g rc)
        = .ok (Galaxy.ofBodies b2) ∧
      (center (Galaxy.ofBodies (potGalaxy φ b).toB) >>= fun g => starAlign g (exactCut rc))
        = .ok (Galaxy.ofBodies bR) ∧
      ((∀ i j : Nat, b1.all[i]? = b1.all[j]? → b.all[i]? = b.all[j]?) →
      (∀ i j : Nat, b2.all[i]? = b2.all[j]? → b.all[i]? = b.all[j]?) →
      ∀ jR, jcirc envR (Galaxy.ofBodies bR) defaultCbin.1 defaultCbin.2 = .ok jR →
      ∀ (xs ys : List ℝ) (γ : ℝ), jR.x = xs.map .fin → jR.y = ys.map .fin → 0 < γ →
      (xs.Pairwise fun u v => γ ≤ v - u) → ∀ (junk junk' : Nat → Int) (cut : Float64),
      Num.isFinite cut = true →
      (∀ a ∈ b.stars, orbitE φ a < 0 → (orbitE φ a / M, |axisJz rc b c a / J|) ∈ xs.zip ys ∨
        ∀ P, OnPolygon xs ys (orbitE φ a / M) P →
          2 * δ + 2 * δ / γ < |(|axisJz rc b c a / J| - P)| ∧
          2 * δ + 2 * δ / γ < |axisJz rc b c a / J - value cut * P|) →
      ∃ k k', decompose env defaultCbin (jThreshold junk cut) (Galaxy.ofBodies b1) = .ok k ∧
        decompose env' defaultCbin (jThreshold junk' cut) (Galaxy.ofBodies b2) = .ok k' ∧
        k.labels = k'.labels ∧ k.ptypes = k'.ptypes) := by
  obtain ⟨b1, bR, h1, hR, a1⟩ := C112_center_align sm dt hs hdt h hr hθ hδ hc env henv envR henvR
  obtain ⟨b2, bR', h2, hR', a2⟩ := C112_center_align sm' dt' hs' hdt' h hr hθ hδ hc env' henv' envR henvR
  refine ⟨b1, b2, bR, h1, h2, hR, ?_⟩
  intro d1 d2 jR hj xs ys γ hx hy hγ hp junk junk' cut fc hm
  have eR : Galaxy.ofBodies bR' = Galaxy.ofBodies bR := Except.ok.inj (hR'.symm.trans hR)
  have a2 := a2 d2
  rw [eR] at a2
  obtain ⟨k, kR, e1, e2, e3, e4⟩ := (a1 d1).threshold jR hj xs ys γ hx hy hγ hp junk junk cut fc hm
  obtain ⟨k', kR', e1', e2', e3', e4'⟩ := a2.threshold jR hj xs ys γ hx hy hγ hp junk' junk cut fc hm
  obtain rfl := Except.ok.inj (e2.symm.trans e2')
  exact ⟨k, k', e1, e1', e3.trans e3'.symm, e4.trans e4'.symm⟩

/-- C115: the same for JHistogram with the same random generator. -/
theorem C115_jhistogram (sm sm' : List Float64 → Float64) (dt dt' : List (Float64 × Float64) → Float64)
    (hs : ∀ l, Added l (sm l)) (hs' : ∀ l, Added l (sm' l)) (hdt : ∀ l, Fused l (dt l))
    (hdt' : ∀ l, Fused l (dt' l)) (h : Turning rc b φ η i0 c) {M J θ δ : ℝ}
    (hr : AxisResolved rc b φ η c M J θ) (hθ : θ ≤ 1 / 4) (hδ : 3 * θ + 1 / 2 ^ 49 ≤ δ)
    (hc : Clear (orbitBound φ b) (fun a => orbitE φ a / M) (fun a => axisJz rc b c a / J) defaultEdges δ)
    (env env' : CircEnv Float64) (henv : env.OK) (henv' : env'.OK) (envR : CircEnv (Ext ℝ))
    (henvR : envR.OK) :
    ∃ b1 b2 bR,
      (center (Galaxy.ofBodies b) >>= fun g => @starAlign _ (sumDot sm dt) g rc)
        = .ok (Galaxy.ofBodies b1) ∧
      (center (Galaxy.ofBodies b) >>= fun g => @starAlign _ (sumDot sm' dt') g rc)
        = .ok (Galaxy.ofBodies b2) ∧
      (center (Galaxy.ofBodies (potGalaxy φ b).toB) >>= fun g => starAlign g (exactCut rc))
        = .ok (Galaxy.ofBodies bR) ∧
      ((∀ i j : Nat, b1.all[i]? = b1.all[j]? → b.all[i]? = b.all[j]?) →
      (∀ i j : Nat, b2.all[i]? = b2.all[j]? → b.all[i]? = b.all[j]?) →
      ∀ jR, jcirc envR (Galaxy.ofBodies bR) defaultCbin.1 defaultCbin.2 = .ok jR →
      ∀ (xs ys : List ℝ) (γ : ℝ), jR.x = xs.map .fin → jR.y = ys.map .fin → 0 < γ →
      (xs.Pairwise fun u v => γ ≤ v - u) → ∀ (σ : Type) (junk : Nat → Int) (rng : Rng σ), rng.OK →
      ∀ (m d : Nat), 0 < m → m ∣ 10 ^ d → d ≤ 14 → ∀ s : σ,
      (∀ a ∈ b.stars, orbitE φ a < 0 → (orbitE φ a / M, |axisJz rc b c a / J|) ∈ xs.zip ys ∨
        ∀ P, OnPolygon xs ys (orbitE φ a / M) P → 2 * δ + 2 * δ / γ < |(|axisJz rc b c a / J| - P)| ∧
          ∀ k : Nat, 0 < k → k < 2 * m →
            3 * δ + 2 * δ / γ < |axisJz rc b c a / J - ((k : ℝ) / m - 1) * P|) →
      ∃ k k', decompose env defaultCbin (jHistogram junk rng (2 * m : ℤ) d s) (Galaxy.ofBodies b1) = .ok k ∧
        decompose env' defaultCbin (jHistogram junk rng (2 * m : ℤ) d s) (Galaxy.ofBodies b2) = .ok k' ∧
        k.labels = k'.labels) := by
  obtain ⟨b1, bR, h1, hR, a1⟩ := C112_center_align sm dt hs hdt h hr hθ hδ hc env henv envR henvR
  obtain ⟨b2, bR', h2, hR', a2⟩ := C112_center_align sm' dt' hs' hdt' h hr hθ hδ hc env' henv' envR henvR
  refine ⟨b1, b2, bR, h1, h2, hR, ?_⟩
  intro d1 d2 jR hj xs ys γ hx hy hγ hp σ junk rng hrng m d hm0 hmd hd s hm
  have eR : Galaxy.ofBodies bR' = Galaxy.ofBodies bR := Except.ok.inj (hR'.symm.trans hR)
  have a2 := a2 d2
  rw [eR] at a2
  obtain ⟨k, kR, e1, e2, e3⟩ := (a1 d1).jhistogram jR hj xs ys γ hx hy hγ hp σ junk rng hrng m d hm0 hmd hd s hm
  obtain ⟨k', kR', e1', e2', e3'⟩ := a2.jhistogram jR hj xs ys γ hx hy hγ hp σ junk rng hrng m d hm0 hmd hd s hm
  obtain rfl := Except.ok.inj (e2.symm.trans e2')
  exact ⟨k, k', e1, e1', e3.trans e3'.symm⟩

end

/-! ## The bits depend on the library -/

/-- one star with all coordinates away from zero -/
def exLibrary : BGalaxy Float64 := starsOnly [starAt (dv 1 2 3) (dv 2 (-1) 5)]

/-- C115: rounding each product and a chain of fused multiply-adds give different doubles for the same
galaxy.  `star_align` does not return the same bits with every build of numpy. -/
theorem C115_bits_differ : ∃ g h : Galaxy Float64,
    starAlign (Galaxy.ofBodies exLibrary) none = .ok g ∧
    @starAlign _ (sumDot Num.sum fmaChain) (Galaxy.ofBodies exLibrary) none = .ok h ∧
    g.stars.x = h.stars.x ∧ g.stars.z ≠ h.stars.z ∧ g.stars.vz ≠ h.stars.vz := by
  refine ⟨_, _, @starAlign_ofBodies _ inferInstance exLibrary none rfl,
    @starAlign_ofBodies _ (sumDot Num.sum fmaChain) exLibrary none rfl, ?_, ?_, ?_⟩ <;> decide +kernel

/-- The hypotheses of `C115_coordinates` hold for this star and these two libraries. -/
example : Tilted (Num.sum ((exLibrary.stars.filter (Body.inside none)).map fun a => a.m *. a.jx))
      (Num.sum ((exLibrary.stars.filter (Body.inside none)).map fun a => a.m *. a.jy))
      (Num.sum ((exLibrary.stars.filter (Body.inside none)).map fun a => a.m *. a.jz)) ∧
    (∀ a ∈ exLibrary.all, ∀ i, Within 990 (a.pos i) ∧ Within 990 (a.vel i)) ∧
    (∀ l : List (Float64 × Float64), Fused l (Num.dot l)) ∧
    ∀ l : List (Float64 × Float64), Fused l (fmaChain l) := by
  refine ⟨⟨?_, ?_, ?_, ?_⟩, ?_, fused_dot, fused_fmaChain⟩ <;> (try unfold Within) <;> decide +kernel

/-- `center` and `star_align` with fused multiply-adds on the example of C112 -/
def exTiltFused : Py (Galaxy Float64) :=
  center (Galaxy.ofBodies exTilt) >>= fun g => @starAlign _ (sumDot Num.sum fmaChain) g none

/-- rounding does not make particles of the example equal -/
theorem exTilt_distinct_fused : StayDistinct Num.sum fmaChain none exTilt exTiltCentre := by
  have h : ∀ a ∈ exTilt.all, ∀ d ∈ exTilt.all, alignedBody Num.sum fmaChain none exTilt exTiltCentre a
      = alignedBody Num.sum fmaChain none exTilt exTiltCentre d → a = d := by decide +kernel
  exact h

/-- C115: the example of C112 with both libraries.  The coordinates differ and the labels agree. -/
theorem C115_example : ∃ g h k k', exTiltRun = .ok g ∧ exTiltFused = .ok h ∧ g ≠ h ∧
    decompose sortEnv defaultCbin (jThreshold (fun _ => 9) (Num.ofRat (1/2))) g = .ok k ∧
    decompose sortEnv defaultCbin (jThreshold (fun _ => 9) (Num.ofRat (1/2))) h = .ok k' ∧
    k.labels = k'.labels ∧ k'.labels = [some 1, some 0, some 0, none, some 1, none] := by
  have δ49 : 3 * ((1 / 2 ^ 32 : ℚ) : ℝ) + 1 / 2 ^ 49 ≤ ((1 / 2 ^ 29 : ℚ) : ℝ) := by norm_num
  have θ4 : ((1 / 2 ^ 32 : ℚ) : ℝ) ≤ 1 / 4 := by norm_num
  have hp : exTiltRun = .ok _ := exTilt_turning.double (sm := Num.sum) (dt := Num.dot)
  have hq : exTiltFused = .ok _ := exTilt_turning.double (sm := Num.sum) (dt := fmaChain)
  have hag := exTilt_turning.agrees (sm := Num.sum) (dt := Num.dot) C81_orders.1 fused_dot
    exTilt_resolved θ4 δ49 exTilt_clear sortEnv sortEnv_ok sortEnv sortEnv_ok exTilt_distinct
  have hag' := exTilt_turning.agrees (sm := Num.sum) (dt := fmaChain) C81_orders.1 fused_fmaChain
    exTilt_resolved θ4 δ49 exTilt_clear sortEnv sortEnv_ok sortEnv sortEnv_ok exTilt_distinct_fused
  obtain ⟨j', hj', hx, hy⟩ := exTilt_tables hp exTiltRun_table hag
  have hcut : value (Num.ofRat (1/2) : Float64) = 1 / 2 := by decide +kernel
  have fcut : Num.isFinite (Num.ofRat (1/2) : Float64) = true := by decide +kernel
  obtain ⟨k, c, hk, hc, hl, -⟩ := hag.threshold j' hj' _ _ (1 / 8) hx hy (by norm_num) exTilt_gaps
    (fun _ => 9) (fun _ => 9) (Num.ofRat (1/2)) fcut (by rw [hcut]; exact fun a ha _ => exTilt_half a ha)
  obtain ⟨k', c', hk', hc', hl', -⟩ := hag'.threshold j' hj' _ _ (1 / 8) hx hy (by norm_num) exTilt_gaps
    (fun _ => 9) (fun _ => 9) (Num.ofRat (1/2)) fcut (by rw [hcut]; exact fun a ha _ => exTilt_half a ha)
  obtain rfl := Except.ok.inj (hc.symm.trans hc')
  have r1 := exTiltRun_threshold
  rw [hp] at r1
  simp only [Except.toOption, Option.bind_some] at r1
  rw [hk] at r1
  have r1 : k.labels = [some 1, some 0, some 0, none, some 1, none] := Option.some.inj r1
  refine ⟨_, _, k, k', hp, hq, ?_, hk, hk', hl.trans hl'.symm, (hl.trans hl'.symm).symm.trans r1⟩
  intro e
  have e := congrArg (fun g => g.stars.x) e
  revert e
  decide +kernel

end GChop
