import Verif.Lemmas.Center
import Verif.Lemmas.Ext
import Verif.Props.Data

/-!
# C08–C11: `utils/_center.py`
-/

set_option linter.unusedSectionVars false

namespace GChop
open Pd

variable {F : Type} [Num F]

/-- `c` is the lowest-potential particle of the list and `i` its position: NaN potentials are
ignored and the first one wins on ties. -/
def LowestParticle (l : List (Body F)) (i : Nat) (c : Body F) : Prop :=
  l[i]? = some c ∧ Num.isNaN c.pot = false ∧
    ∀ j d, l[j]? = some d → Num.isNaN d.pot = false →
      (c.pot <=. d.pot) = true ∧ (j < i → (c.pot <. d.pot) = true)

theorem LowestParticle.lowIdx_eq [NumOrd F] {l : List (Body F)} {i : Nat} {c : Body F}
    (h : LowestParticle l i c) (hlt : (c.pot <. Num.pinf) = true) :
    lowIdx (l.map (·.pot)) = i := by
  obtain ⟨h1, h2, h3⟩ := h
  have hmem : c.pot ∈ l.map (·.pot) := List.mem_map.2 ⟨c, List.mem_of_getElem? h1, rfl⟩
  obtain ⟨p, hp, hn, hall⟩ := lowIdx_spec hmem hlt
  rw [List.getElem?_map] at hp
  cases hd : l[lowIdx (l.map (·.pot))]? with
  | none => rw [hd] at hp; cases hp
  | some d =>
    rw [hd] at hp
    simp only [Option.map_some, Option.some.injEq] at hp
    subst hp
    have ha := h3 _ d hd hn
    have hb := hall i c.pot (by rw [List.getElem?_map, h1]; rfl) h2
    rcases lt_trichotomy (lowIdx (l.map (·.pot))) i with h | h | h
    · have := ha.2 h
      rw [not_lt_of_le hb.1] at this; cases this
    · exact h
    · have := hb.2 h
      rw [not_lt_of_le ha.1] at this; cases this

/-! ## C08 -/

theorem isclose_zero [NumIEEE F] {rtol atol : F} (hr : Num.isFinite rtol = true)
    (ha : ((Num.ofRat 0 : F) <=. atol) = true) :
    Np.isclose rtol atol (Num.ofRat 0 : F) (Num.ofRat 0) = true := by
  have hz : Num.isFinite (Num.ofRat 0 : F) = true :=
    NumOrd.ofRat_finite (by norm_num) (by norm_num)
  unfold Np.isclose
  simp only [hz, Bool.and_self, if_true, NumIEEE.sub_self hz, NumIEEE.abs_zero]
  rw [NumIEEE.le_add_zero _ _ (NumIEEE.mul_zero_eq hr)]
  exact ha

/-- C08: the lowest-potential particle of the input sits at the origin of the output, and
`is_centered` then answers `True` for all tolerances. -/
theorem C08_center_puts_lowest_at_origin [NumIEEE F] (b : BGalaxy F) (hp : b.hasPot = true)
    (i : Nat) (c : Body F) (hlow : LowestParticle b.all i c) (hlt : (c.pot <. Num.pinf) = true)
    (hfin : Num.isFinite c.x = true ∧ Num.isFinite c.y = true ∧ Num.isFinite c.z = true) :
    ∃ b' : BGalaxy F, center (Galaxy.ofBodies b) = .ok (Galaxy.ofBodies b') ∧
      b'.all[i]? = some { c with x := Num.ofRat 0, y := Num.ofRat 0, z := Num.ofRat 0 } ∧
      ∀ rtol atol : F, Num.isFinite rtol = true → ((Num.ofRat 0 : F) <=. atol) = true →
        isCentered (Galaxy.ofBodies b') rtol atol = .ok true := by
  have hi := hlow.lowIdx_eq hlt
  have hc : b.all[lowIdx (b.all.map (·.pot))]? = some c := by rw [hi]; exact hlow.1
  have hget : (b.mapBodies (·.shift c.x c.y c.z)).all[i]?
      = some { c with x := Num.ofRat 0, y := Num.ofRat 0, z := Num.ofRat 0 } := by
    rw [mapBodies_all, List.getElem?_map, hlow.1]
    simp [Body.shift, NumIEEE.sub_self hfin.1, NumIEEE.sub_self hfin.2.1,
      NumIEEE.sub_self hfin.2.2]
  refine ⟨_, center_ofBodies b hp c hc, hget, ?_⟩
  intro rtol atol hr ha
  have hpots : (b.mapBodies (·.shift c.x c.y c.z)).all.map (·.pot) = b.all.map (·.pot) := by
    rw [mapBodies_all, List.map_map]; rfl
  rw [isCentered_ofBodies (b.mapBodies (·.shift c.x c.y c.z)) hp rtol atol _
    (by rw [hpots, hi]; exact hget)]
  simp [isclose_zero hr ha]

/-- C08 for arbitrary potentials, all-NaN included: any non-empty galaxy with finite positions is
centred after `center`. -/
theorem C08_centered_after_center [NumIEEE F] (b : BGalaxy F) (hp : b.hasPot = true)
    (hne : b.all ≠ [])
    (hfin : ∀ c ∈ b.all, Num.isFinite c.x = true ∧ Num.isFinite c.y = true ∧
      Num.isFinite c.z = true)
    (rtol atol : F) (hr : Num.isFinite rtol = true) (ha : ((Num.ofRat 0 : F) <=. atol) = true) :
    (center (Galaxy.ofBodies b) >>= fun g => isCentered g rtol atol) = .ok true := by
  obtain ⟨_, r, _, _, _, h4⟩ := exists_low b hne
  obtain ⟨f1, f2, f3⟩ := hfin _ (List.mem_of_getElem? h4)
  rw [center_ofBodies b hp r.body h4]
  simp only [Py.ok_bind]
  have hpots : (b.mapBodies (·.shift r.body.x r.body.y r.body.z)).all.map (·.pot)
      = b.all.map (·.pot) := by
    rw [mapBodies_all, List.map_map]; rfl
  rw [isCentered_ofBodies (b.mapBodies (·.shift r.body.x r.body.y r.body.z)) hp rtol atol
    (r.body.shift r.body.x r.body.y r.body.z)
    (by rw [hpots, mapBodies_all, List.getElem?_map, h4]; rfl)]
  simp [Body.shift, NumIEEE.sub_self f1, NumIEEE.sub_self f2, NumIEEE.sub_self f3,
    isclose_zero hr ha]

/-- two stars and a dark matter particle with tied lowest potentials (the first one counts) and a
NaN potential -/
def exPotBG : BGalaxy (Ext ℚ) :=
  { stars := [⟨q 1, q 1, q 2, q 3, q 0, q 1, q 0, .nan⟩, ⟨q 2, q 4, q 5, q 6, q 1, q 1, q 0, q (-7)⟩]
    dm := [⟨q 3, q 7, q 8, q 9, q 1, q 0, q 0, q (-7)⟩]
    gas := []
    hasPot := true, softS := q 0, softDm := q 0, softG := q 0 }

example : LowestParticle exPotBG.all 1 ⟨q 2, q 4, q 5, q 6, q 1, q 1, q 0, q (-7)⟩ := by
  refine ⟨by decide +kernel, by decide +kernel, ?_⟩
  intro j d hj hn
  match j, hj with
  | 0, hj => cases Option.some.inj hj; revert hn; decide +kernel
  | 1, hj => cases Option.some.inj hj; decide +kernel
  | 2, hj => cases Option.some.inj hj; decide +kernel
  | n + 3, hj => simp [BGalaxy.all, exPotBG] at hj
example : (match center (Galaxy.ofBodies exPotBG) with
    | .ok g => (g.stars.x, g.darkMatter.z) | .error _ => ([], []))
    = ([q (-3), q 0], [q 3]) := by decide +kernel
example : isCentered (Galaxy.ofBodies exPotBG) (q (1/100000)) (q (1/100000000)) = .ok false := by
  decide +kernel

/-! ## C09 -/

/-- what `center` does to one particle set: every position minus one vector, all else unchanged -/
def TranslatedBy (cx cy cz : F) (p p' : ParticleSet F) : Prop :=
  p'.x = p.x.map (· -. cx) ∧ p'.y = p.y.map (· -. cy) ∧ p'.z = p.z.map (· -. cz) ∧
  p'.m = p.m ∧ p'.vx = p.vx ∧ p'.vy = p.vy ∧ p'.vz = p.vz ∧ p'.potential = p.potential ∧
  p'.softening = p.softening ∧ p'.kineticEnergy = p.kineticEnergy ∧
  p'.totalEnergy = p.totalEnergy ∧ p'.ptype = p.ptype ∧ p'.hasPotential = p.hasPotential

theorem translatedBy_ofBodies (t : PType) (l : List (Body F)) (hp : Bool) (s cx cy cz : F) :
    TranslatedBy cx cy cz (ParticleSet.ofBodies t ⟨l, hp, s⟩)
      (ParticleSet.ofBodies t ⟨l.map (·.shift cx cy cz), hp, s⟩) := by
  cases hp <;> refine ⟨?_, ?_, ?_, ?_, ?_, ?_, ?_, ?_, ?_, ?_, ?_, ?_, ?_⟩ <;>
  simp [ParticleSet.ofBodies, Body.shift, Function.comp_def, Body.kinetic, Body.energy]

/-- C09: whenever `center` succeeds the result is the input translated by one common vector; the
vector is the position of one of its particles. -/
theorem C09_center_rigid_translation (g g' : Galaxy F) (hg : g.Valid) (h : center g = .ok g') :
    ∃ cx cy cz,
      TranslatedBy cx cy cz g.stars g'.stars ∧
      TranslatedBy cx cy cz g.darkMatter g'.darkMatter ∧
      TranslatedBy cx cy cz g.gas g'.gas ∧
      g'.hasPotential = g.hasPotential ∧ g'.Valid ∧
      ∃ i : Nat, (g.stars.x ++ g.darkMatter.x ++ g.gas.x)[i]? = some cx ∧
        (g.stars.y ++ g.darkMatter.y ++ g.gas.y)[i]? = some cy ∧
        (g.stars.z ++ g.darkMatter.z ++ g.gas.z)[i]? = some cz := by
  obtain ⟨b, rfl⟩ := Galaxy.valid_iff.1 hg
  cases hp : b.hasPot with
  | false =>
    have : (Galaxy.ofBodies b).hasPotential = false := hp
    simp [center, this] at h
  | true =>
    by_cases hne : b.all = []
    · rw [center_empty b hp hne] at h; cases h
    · obtain ⟨_, r, _, _, _, h4⟩ := exists_low b hne
      rw [center_ofBodies b hp r.body h4] at h
      cases h
      refine ⟨r.body.x, r.body.y, r.body.z, translatedBy_ofBodies _ _ _ _ _ _ _,
        translatedBy_ofBodies _ _ _ _ _ _ _, translatedBy_ofBodies _ _ _ _ _ _ _, rfl,
        Galaxy.valid_iff.2 ⟨_, rfl⟩, lowIdx (b.all.map (·.pot)), ?_, ?_, ?_⟩
      · have : (b.all.map (·.x))[lowIdx (b.all.map (·.pot))]? = some r.body.x := by
          rw [List.getElem?_map, h4]; rfl
        simpa [BGalaxy.all, Galaxy.ofBodies, ParticleSet.ofBodies, BGalaxy.sSet, BGalaxy.dmSet,
          BGalaxy.gSet] using this
      · have : (b.all.map (·.y))[lowIdx (b.all.map (·.pot))]? = some r.body.y := by
          rw [List.getElem?_map, h4]; rfl
        simpa [BGalaxy.all, Galaxy.ofBodies, ParticleSet.ofBodies, BGalaxy.sSet, BGalaxy.dmSet,
          BGalaxy.gSet] using this
      · have : (b.all.map (·.z))[lowIdx (b.all.map (·.pot))]? = some r.body.z := by
          rw [List.getElem?_map, h4]; rfl
        simpa [BGalaxy.all, Galaxy.ofBodies, ParticleSet.ofBodies, BGalaxy.sSet, BGalaxy.dmSet,
          BGalaxy.gSet] using this

/-- C09: the common vector is the position of the lowest-potential particle. -/
theorem C09_center_vector [NumOrd F] (b : BGalaxy F) (hp : b.hasPot = true) (i : Nat) (c : Body F)
    (hlow : LowestParticle b.all i c) (hlt : (c.pot <. Num.pinf) = true) :
    center (Galaxy.ofBodies b) = .ok (Galaxy.ofBodies (b.mapBodies fun a =>
      { a with x := a.x -. c.x, y := a.y -. c.y, z := a.z -. c.z })) :=
  center_ofBodies b hp c (by rw [hlow.lowIdx_eq hlt]; exact hlow.1)

example : (Galaxy.ofBodies exPotBG).Valid := Galaxy.valid_iff.2 ⟨_, rfl⟩

/-! ## C10 -/

/-- C10: `center` is idempotent (also in floating point). -/
theorem C10_center_idempotent [NumIEEE F] (b : BGalaxy F)
    (hfin : ∀ c ∈ b.all, Num.isFinite c.x = true ∧ Num.isFinite c.y = true ∧
      Num.isFinite c.z = true) :
    (center (Galaxy.ofBodies b) >>= center) = center (Galaxy.ofBodies b) := by
  cases hp : b.hasPot with
  | false =>
    have : (Galaxy.ofBodies b).hasPotential = false := hp
    simp [center, this]
  | true =>
    by_cases hne : b.all = []
    · rw [center_empty b hp hne]; rfl
    · obtain ⟨_, r, _, _, _, h4⟩ := exists_low b hne
      obtain ⟨f1, f2, f3⟩ := hfin _ (List.mem_of_getElem? h4)
      rw [center_ofBodies b hp r.body h4]
      simp only [Py.ok_bind]
      have hpots : (b.mapBodies (·.shift r.body.x r.body.y r.body.z)).all.map (·.pot)
          = b.all.map (·.pot) := by
        rw [mapBodies_all, List.map_map]; rfl
      rw [center_ofBodies (b.mapBodies (·.shift r.body.x r.body.y r.body.z)) hp (r.body.shift r.body.x r.body.y r.body.z)
        (by rw [hpots, mapBodies_all, List.getElem?_map, h4]; rfl)]
      simp [BGalaxy.mapBodies, Body.shift, NumIEEE.sub_self f1, NumIEEE.sub_self f2,
        NumIEEE.sub_self f3, NumIEEE.sub_zero, Function.comp_def]

section exact
variable {K : Type} [Field K] [LinearOrder K] [IsStrictOrderedRing K] [FloorRing K] [HasSqrt K]

/-- all positions are finite numbers -/
def BGalaxy.FinitePos (b : BGalaxy (Ext K)) : Prop :=
  ∀ a ∈ b.all, ∃ x y z : K, a.x = .fin x ∧ a.y = .fin y ∧ a.z = .fin z

/-- C10: translating the whole galaxy by any vector does not change its centred version (exact
arithmetic). -/
theorem C10_center_translation_invariant (b : BGalaxy (Ext K)) (hfin : b.FinitePos) (tx ty tz : K) :
    center (Galaxy.ofBodies (b.mapBodies fun a =>
        { a with x := a.x +. .fin tx, y := a.y +. .fin ty, z := a.z +. .fin tz }))
      = center (Galaxy.ofBodies b) := by
  set f : Body (Ext K) → Body (Ext K) := fun a =>
    { a with x := a.x +. .fin tx, y := a.y +. .fin ty, z := a.z +. .fin tz } with hf
  have hpots : (b.mapBodies f).all.map (·.pot) = b.all.map (·.pot) := by
    rw [mapBodies_all, List.map_map]; rfl
  cases hp : b.hasPot with
  | false =>
    have h1 : (Galaxy.ofBodies b).hasPotential = false := hp
    have h2 : (Galaxy.ofBodies (b.mapBodies f)).hasPotential = false := hp
    simp [center, h1, h2]
  | true =>
    by_cases hne : b.all = []
    · rw [center_empty b hp hne, center_empty (b.mapBodies f) hp (by rw [mapBodies_all, hne]; rfl)]
    · obtain ⟨_, r, _, _, _, h4⟩ := exists_low b hne
      rw [center_ofBodies b hp r.body h4]
      rw [center_ofBodies (b.mapBodies f) hp (f r.body)
        (by rw [hpots, mapBodies_all, List.getElem?_map, h4]; rfl)]
      obtain ⟨cx, cy, cz, e1, e2, e3⟩ := hfin _ (List.mem_of_getElem? h4)
      congr 2
      have key : ∀ a ∈ b.all, (f a).shift (f r.body).x (f r.body).y (f r.body).z
          = a.shift r.body.x r.body.y r.body.z := by
        intro a ha
        obtain ⟨x, y, z, g1, g2, g3⟩ := hfin a ha
        simp only [hf, Body.shift, e1, e2, e3, g1, g2, g3, Ext.num_add, Ext.num_sub]
        simp
      have k1 : ∀ l : List (Body (Ext K)), (∀ a ∈ l, a ∈ b.all) →
          (l.map f).map (·.shift (f r.body).x (f r.body).y (f r.body).z)
            = l.map (·.shift r.body.x r.body.y r.body.z) := by
        intro l hl
        rw [List.map_map]
        exact List.map_congr_left fun a ha => key a (hl a ha)
      simp only [BGalaxy.mapBodies]
      rw [k1 b.stars (fun a h => by simp [BGalaxy.all, h]),
        k1 b.dm (fun a h => by simp [BGalaxy.all, h]), k1 b.gas (fun a h => by simp [BGalaxy.all, h])]

example : exPotBG.FinitePos := by
  intro a ha
  simp only [BGalaxy.all, exPotBG, List.mem_append, List.mem_cons, List.not_mem_nil, or_false] at ha
  rcases ha with (rfl | rfl) | rfl <;> exact ⟨_, _, _, rfl, rfl, rfl⟩

end exact

/-! ## C11 -/

/-- C11: `is_centered` is the test `|coordinate| <= atol` on the lowest-potential particle; the
finite `rtol` has no influence. -/
theorem C11_is_centered_iff [NumIEEE F] (b : BGalaxy F) (hp : b.hasPot = true) (i : Nat)
    (c : Body F) (hlow : LowestParticle b.all i c) (hlt : (c.pot <. Num.pinf) = true)
    (rtol atol : F) (hr : Num.isFinite rtol = true) :
    ∃ v, isCentered (Galaxy.ofBodies b) rtol atol = .ok v ∧
      (v = true ↔ ∀ a ∈ [c.x, c.y, c.z], Num.isFinite a = true ∧ (Num.abs a <=. atol) = true) := by
  have hz : Num.isFinite (Num.ofRat 0 : F) = true :=
    NumOrd.ofRat_finite (by norm_num) (by norm_num)
  refine ⟨_, isCentered_ofBodies b hp rtol atol c (by rw [hlow.lowIdx_eq hlt]; exact hlow.1), ?_⟩
  rw [List.all_eq_true]
  apply forall₂_congr
  intro a _
  unfold Np.isclose
  cases ha : Num.isFinite a with
  | true =>
    simp only [hz, Bool.and_self, if_true, NumIEEE.sub_zero, NumIEEE.abs_zero, true_and]
    rw [NumIEEE.le_add_zero _ _ (NumIEEE.mul_zero_eq hr)]
  | false =>
    simp only [hz, Bool.false_and, Bool.false_eq_true, if_false, false_and, iff_false]
    intro he
    rw [NumOrd.eq_def, Bool.and_eq_true] at he
    rw [NumOrd.finite_of_between hz hz he.2 he.1] at ha
    cases ha

example : isCentered (Galaxy.ofBodies exPotBG) (q 0) (q 6) = .ok true := by decide +kernel
example : isCentered (Galaxy.ofBodies exPotBG) (q 1000) (q 5) = .ok false := by decide +kernel

end GChop
