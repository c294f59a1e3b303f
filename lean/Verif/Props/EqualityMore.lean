import Verif.Props.Equality
import Verif.Props.CircExact

/-!
# C118: `==` and `hash` of the results of `jcirc` and of the plotters
-/

namespace GChop
open Pd

variable {F : Type} [Num F]

/-- the results of `jcirc` for galaxies with the same number of stars, two or more, if they do not share
the array of energies or attrs compares attribute by attribute -/
theorem jcirc_eq_raises [NumOrd F] (env env' : CircEnv F) (b b' : BGalaxy F)
    (bin0 bin1 bin0' bin1' : F) (j j' : JCirc F) (h : jcirc env (Galaxy.ofBodies b) bin0 bin1 = .ok j)
    (h' : jcirc env' (Galaxy.ofBodies b') bin0' bin1' = .ok j') (hl : b.stars.length = b'.stars.length)
    (h2 : 2 ≤ b.stars.length) (e : EqEnv F) (same : String → Bool)
    (hs : (e.tuples && same "normalized_star_energy") = false) : j.eq e same j' = .error .valueError := by
  obtain ⟨_, _, n, _, rfl⟩ := jcirc_inv h
  obtain ⟨_, _, n', _, rfl⟩ := jcirc_inv h'
  rw [JCirc.eq]
  simp only
  rw [arrEq_two e _ _ _ (by simp [circResult, hl]) (by simpa [circResult] using h2),
    fieldsEq_first _ _ _ _ hs]

/-- C118: the results of two calls of `jcirc` for galaxies with the same number of stars, two or more, cannot
be compared: `==` raises ValueError, even for the same galaxy and bins. -/
theorem C118_results [NumOrd F] (env env' : CircEnv F) (b b' : BGalaxy F)
    (bin0 bin1 bin0' bin1' : F) (j j' : JCirc F) (h : jcirc env (Galaxy.ofBodies b) bin0 bin1 = .ok j)
    (h' : jcirc env' (Galaxy.ofBodies b') bin0' bin1' = .ok j') (hl : b.stars.length = b'.stars.length)
    (h2 : 2 ≤ b.stars.length) (e : EqEnv F) (same : String → Bool) (hs : ∀ a, same a = false) :
    j.eq e same j' = .error .valueError :=
  jcirc_eq_raises env env' b b' _ _ _ _ j j' h h' hl h2 e same (by rw [hs, Bool.and_false])

/-- C118: the result of `jcirc` for two or more stars compared with itself: True if attrs compares tuples,
ValueError otherwise. -/
theorem C118_itself [NumOrd F] (env : CircEnv F) (b : BGalaxy F) (bin0 bin1 : F) (j : JCirc F)
    (h : jcirc env (Galaxy.ofBodies b) bin0 bin1 = .ok j) (h2 : 2 ≤ b.stars.length) (e : EqEnv F) :
    j.eq e (fun _ => true) j = if e.tuples then .ok true else .error .valueError := by
  split
  · rename_i ht
    simp [JCirc.eq, fieldsEq, ht]
  · rename_i ht
    exact jcirc_eq_raises env env b b _ _ _ _ j j h h rfl h2 e _ (by simpa using ht)

/-- C118: `g.plot == g.plot`, for two or more stars: True if attrs compares tuples, ValueError otherwise,
although each access makes a new plotter. -/
theorem C118_plotter (e : EqEnv F) (c : Common) (hc : ∀ t, c.sets t = true) (g : Galaxy F)
    (h2 : 2 ≤ g.stars.m.length) :
    g.plotEq e true c g = if e.tuples then .ok true else .error .valueError := by
  rw [Galaxy.plotEq, C107_itself e c hc g h2]
  cases ht : e.tuples
  · exact fieldsEq_first _ _ _ _ (by simp [ht])
  · simp [fieldsEq, ht]

/-- C118: the plotters of two galaxies are equal exactly when the galaxies are, and comparing them raises
what comparing the galaxies raises. -/
theorem C118_plotters (e : EqEnv F) (c : Common) (g h : Galaxy F) :
    g.plotEq e false c h = g.eq e c h := by
  rw [Galaxy.plotEq, fieldsEq_cons]
  rcases g.eq e c h with r | r
  · simp
  · cases r <;> simp [fieldsEq]

omit [Num F] in
/-- C118: `hash` of a result of `jcirc` or of a plotter raises TypeError. -/
theorem C118_no_hash (j : JCirc F) (g : Galaxy F) :
    j.hash = .error .typeError ∧ g.plotHash = .error .typeError := ⟨rfl, rfl⟩

/-- C118 (one star): the results for one star have arrays with one entry and can be compared; a NaN
circularity makes a result different from itself when attrs compares attribute by attribute. -/
theorem C118_one_star (e : EqEnv F) (he : e.tuples = false) (j : JCirc F) (x y z w : F)
    (hj : j.normalizedStarEnergy = [x] ∧ j.normalizedStarJz = [y] ∧ j.eps = [z] ∧ j.epsR = [w])
    (hx : (x ==. x) = true) (hy : (y ==. y) = true) (hz : (z ==. z) = false) (same : String → Bool) :
    j.eq e same j = .ok false := by
  obtain ⟨h1, h2, h3, h4⟩ := hj
  simp [JCirc.eq, fieldsEq_cons, he, h1, h2, h3, arrEq, arrTruth, hx, hy, hz]

/-! ### witnesses -/

/-- C118 (witness): the result for a single star without angular momentum in the z direction, with dark
matter around it, is not equal to itself. -/
theorem C118_nan :
    (jcirc exEnv (Galaxy.ofBodies { exLost with
        stars := [orbit (-1) 0], dm := [orbit (-1/2) 2, orbit (-1/1000) 4] })
        (defaultCbin (F := Ext ℚ)).1 defaultCbin.2).toOption.map
      (fun j => (j.normalizedStarEnergy, j.normalizedStarJz, j.eps, j.eq (apart false) (fun _ => true) j))
    = some ([q (-1)], [q 0], [.nan], .ok false) := by decide +kernel

/-- the hypotheses hold for a galaxy of three stars: the result compared with a second one, with itself if
attrs compares tuples, and with itself if it does not -/
example : (jcirc exEnv (Galaxy.ofBodies exLost) (defaultCbin (F := Ext ℚ)).1 defaultCbin.2).toOption.map
      (fun j => (j.eq (apart true) (fun _ => false) j, j.eq (apart true) (fun _ => true) j,
        j.eq (apart false) (fun _ => true) j))
    = some (.error .valueError, .ok true, .error .valueError) := by decide +kernel

/-- and so for its plotter -/
example : (Galaxy.ofBodies exLost).plotEq (apart true) true ⟨fun _ => true, fun _ _ => true⟩
      (Galaxy.ofBodies exLost) = .ok true ∧
    (Galaxy.ofBodies exLost).plotEq (apart false) true ⟨fun _ => true, fun _ _ => true⟩
      (Galaxy.ofBodies exLost) = .error .valueError :=
  ⟨(C118_plotter _ _ (fun _ => rfl) _ (by decide +kernel)).trans rfl,
    (C118_plotter _ _ (fun _ => rfl) _ (by decide +kernel)).trans rfl⟩

end GChop
