import Verif.Props.Center
import Verif.Props.Align

/-!
# C63: centring and aligning one after the other
-/

set_option linter.unusedSectionVars false

namespace GChop
open Matrix

section exact
variable {K : Type} [Field K] [LinearOrder K] [IsStrictOrderedRing K] [FloorRing K] [HasSqrt K]
  [LawfulSqrt K]

/-- move every particle by `-c` -/
def KBody.translate (c : Fin 3 → K) (k : KBody K) : KBody K := { k with r := k.r - c }

theorem KGalaxy.toB_all (g : KGalaxy K) : g.toB.all = g.all.map KBody.body := by
  simp [KGalaxy.toB, BGalaxy.all, KGalaxy.all]

theorem center_toB (g : KGalaxy K) (hp : g.hasPot = true) (hne : g.all ≠ []) :
    ∃ k ∈ g.all, g.all[lowIdx (g.all.map (·.pot))]? = some k ∧
      center (Galaxy.ofBodies g.toB) = .ok (Galaxy.ofBodies (g.map (KBody.translate k.r)).toB) := by
  have hne' : g.toB.all ≠ [] := by simpa [KGalaxy.toB_all] using hne
  obtain ⟨_, r, _, _, _, h4⟩ := exists_low g.toB hne'
  have hpots : g.toB.all.map (·.pot) = g.all.map (·.pot) := by
    rw [KGalaxy.toB_all, List.map_map]; rfl
  have h4' := h4
  rw [hpots, KGalaxy.toB_all, List.getElem?_map] at h4'
  cases hk : g.all[lowIdx (g.all.map (·.pot))]? with
  | none => rw [hk] at h4'; cases h4'
  | some k =>
    rw [hk] at h4'
    simp only [Option.map_some, Option.some.injEq] at h4'
    refine ⟨k, List.mem_of_getElem? hk, rfl, ?_⟩
    rw [center_ofBodies g.toB hp r.body h4, ← h4']
    have : ∀ a : KBody K, a.body.shift k.body.x k.body.y k.body.z = (a.translate k.r).body := by
      intro a
      simp [KBody.body, KBody.translate, Body.shift]
    simp [KGalaxy.toB, BGalaxy.mapBodies, KGalaxy.map, Function.comp_def, this]

theorem isCentered_toB (g : KGalaxy K) (hp : g.hasPot = true) {k : KBody K}
    (hk : g.all[lowIdx (g.all.map (·.pot))]? = some k) (h0 : k.r = 0) {rtol atol : Ext K}
    (hr : Num.isFinite rtol = true) (ha : (Ext.fin 0 <=. atol) = true) :
    isCentered (Galaxy.ofBodies g.toB) rtol atol = .ok true := by
  have hpots : g.toB.all.map (·.pot) = g.all.map (·.pot) := by
    rw [KGalaxy.toB_all, List.map_map]; rfl
  rw [isCentered_ofBodies g.toB hp rtol atol k.body
    (by rw [hpots, KGalaxy.toB_all, List.getElem?_map, hk]; rfl)]
  have hz : (Num.ofRat 0 : Ext K) = .fin 0 := by simp
  have : Np.isclose rtol atol (.fin 0 : Ext K) (.fin 0) = true := by
    rw [← hz] at ha ⊢
    exact isclose_zero hr ha
  simp [KBody.body, h0, this]

theorem KGalaxy.map_all (g : KGalaxy K) (f : KBody K → KBody K) : (g.map f).all = g.all.map f := by
  simp [KGalaxy.map, KGalaxy.all]

/-- C63: `star_align(center(g))` is centred and aligned.  If the stars of the centred galaxy have a
total angular momentum that is not on the `z` axis already, the result of both steps passes
`is_centered` and `is_star_aligned` for all tolerances. -/
theorem C63_center_then_align (g : KGalaxy K) (hp : g.hasPot = true) (hne : g.all ≠ [])
    (rCut : Option K) (hc : ∀ c ∈ rCut, 0 < c) :
    ∃ g₁ : KGalaxy K, center (Galaxy.ofBodies g.toB) = .ok (Galaxy.ofBodies g₁.toB) ∧
      (totalL rCut g₁.stars 0 ≠ 0 ∨ totalL rCut g₁.stars 1 ≠ 0 →
        ∃ h, starAlign (Galaxy.ofBodies g₁.toB) (rCut.map .fin) = .ok h ∧
          (∀ rtol atol : Ext K, Num.isFinite rtol = true → (Ext.fin 0 <=. atol) = true →
            isCentered h rtol atol = .ok true) ∧
          ∀ rtol atol : Ext K, (Ext.fin 0 <=. rtol) = true → (Ext.fin 0 <=. atol) = true →
            isStarAligned h (rCut.map .fin) rtol atol = .ok true) := by
  obtain ⟨k, _, hk, hcen⟩ := center_toB g hp hne
  refine ⟨_, hcen, fun hperp => ?_⟩
  set g₁ := g.map (KBody.translate k.r) with hg₁
  obtain ⟨g₂, h1, -, h3⟩ := C13_star_align_puts_J_on_z g₁ rCut hc hperp
  refine ⟨_, starAlign_toB g₁ rCut hc hperp, ?_, ?_⟩
  · intro rtol atol hr ha
    set A := alignK (totalL rCut g₁.stars)
    have hall : (g₁.rotate A).all = g.all.map fun a => (a.translate k.r).rotate A := by
      rw [KGalaxy.rotate, KGalaxy.map_all, hg₁, KGalaxy.map_all, List.map_map]
      rfl
    have hpots : (g₁.rotate A).all.map (·.pot) = g.all.map (·.pot) := by
      rw [hall, List.map_map]; rfl
    refine isCentered_toB (g₁.rotate A) hp (k := (k.translate k.r).rotate A) ?_ ?_ hr ha
    · rw [hpots, hall, List.getElem?_map, hk]; rfl
    · simp [KBody.rotate, KBody.translate]
  · intro rtol atol hr ha
    have : (.ok (Galaxy.ofBodies (g₁.rotate (alignK (totalL rCut g₁.stars))).toB) : Py (Galaxy (Ext K)))
        = .ok (Galaxy.ofBodies g₂.toB) := (starAlign_toB g₁ rCut hc hperp).symm.trans h1
    injection this with this
    rw [this]
    exact h3 rtol atol hr ha

/-- C63: aligning a galaxy that is centred keeps it centred, whatever the angular momentum of its
stars, as long as it is not on the `z` axis. -/
theorem C63_align_keeps_centre (g : KGalaxy K) (hp : g.hasPot = true) (rCut : Option K)
    (hc : ∀ c ∈ rCut, 0 < c) (hperp : totalL rCut g.stars 0 ≠ 0 ∨ totalL rCut g.stars 1 ≠ 0)
    (i : Nat) (k : KBody K) (hlow : LowestParticle g.toB.all i k.body)
    (hki : g.all[i]? = some k) (hlt : (k.pot <. Num.pinf) = true) (h0 : k.r = 0) :
    ∃ h, starAlign (Galaxy.ofBodies g.toB) (rCut.map .fin) = .ok h ∧
      ∀ rtol atol : Ext K, Num.isFinite rtol = true → (Ext.fin 0 <=. atol) = true →
        isCentered h rtol atol = .ok true := by
  refine ⟨_, starAlign_toB g rCut hc hperp, fun rtol atol hr ha => ?_⟩
  have hi := hlow.lowIdx_eq hlt
  have hpots : g.toB.all.map (·.pot) = g.all.map (·.pot) := by
    rw [KGalaxy.toB_all, List.map_map]; rfl
  rw [hpots] at hi
  set A := alignK (totalL rCut g.stars)
  have hall : (g.rotate A).all = g.all.map (KBody.rotate A) := by rw [KGalaxy.rotate, KGalaxy.map_all]
  have hpots' : (g.rotate A).all.map (·.pot) = g.all.map (·.pot) := by
    rw [hall, List.map_map]; rfl
  refine isCentered_toB (g.rotate A) hp (k := k.rotate A) ?_ ?_ hr ha
  · rw [hpots', hi, hall, List.getElem?_map, hki]; rfl
  · simp [KBody.rotate, h0]

end exact

/-! ## The other order -/

/-- a star with angular momentum (3, 0, 4) and the lowest-potential particle away from the origin -/
def exOffset : BGalaxy (Ext ℚ) :=
  { stars := [⟨q 1, q 0, q 1, q 0, q (-4), q 0, q 3, q (-1)⟩]
    dm := [⟨q 1, q 4, q 0, q 0, q 0, q 0, q 0, q (-2)⟩]
    gas := []
    hasPot := true, softS := q 0, softDm := q 0, softG := q 0 }

/-- the two checks on the result of some steps -/
def bothChecks (g : Py (Galaxy (Ext ℚ))) : Py (Bool × Bool) := do
  let g ← g
  let a ← isCentered g (q (1/100000)) (q (1/100000000))
  let b ← isStarAligned g none (q (1/100000)) (q (1/100000000))
  return (a, b)

/-- C63: the order matters.  Aligning first and centring afterwards loses the alignment; centring
first and aligning afterwards keeps both. -/
theorem C63_order_matters :
    bothChecks (do let g ← starAlign (Galaxy.ofBodies exOffset) none; center g) = .ok (true, false) ∧
    bothChecks (do let g ← center (Galaxy.ofBodies exOffset); starAlign g none) = .ok (true, true) := by
  constructor <;> decide +kernel

end GChop
