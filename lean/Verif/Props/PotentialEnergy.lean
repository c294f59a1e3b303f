import Verif.Props.Potential
import Mathlib.Algebra.BigOperators.Field

/-!
# C99: energy bookkeeping of `potential`

What the potentials computed by `utils/_potential.py` (fortran backend, exact arithmetic) add up to:
the energy of all pairs, each counted twice; contributions of the particle types superpose; and
every potential lies between the values for all other mass at the smallest and at the largest
distance.
-/

set_option linter.unusedSectionVars false

namespace GChop
open Matrix Pd

section exact
variable {K : Type} [Field K] [LinearOrder K] [IsStrictOrderedRing K] [FloorRing K] [HasSqrt K]

theorem sum_pairs {n : Nat} (f : Fin n → Fin n → K) (hf : ∀ i j, f i j = f j i) :
    ∑ i, ∑ j, (if j = i then 0 else f i j) = 2 * ∑ i, ∑ j, if i < j then f i j else 0 := by
  have h1 : ∀ i j : Fin n, (if j = i then 0 else f i j)
      = (if i < j then f i j else 0) + (if j < i then f i j else 0) := by
    intro i j
    rcases lt_trichotomy i j with h | h | h
    · simp [h, h.ne', h.not_gt]
    · simp [h]
    · simp [h, h.ne, h.not_gt]
  simp only [h1, Finset.sum_add_distrib]
  have h2 : ∑ i, ∑ j, (if j < i then f i j else 0) = ∑ i, ∑ j, if i < j then f i j else 0 := by
    rw [Finset.sum_comm]
    simp only [hf]
  rw [h2]; ring

/-- C99: the sum of `m_i * potential_i` over all particles is twice the energy of all pairs, each
pair taken once. -/
theorem C99_total_energy [LawfulSqrt K] (G e : K) (junk : Nat → Nat → Ext K) (g : KGalaxy K)
    (hp : g.hasPot = false) (he : MaxSoftening g e) (hsep : Separated e g.all) :
    ∃ (g' : KGalaxy K) (φ : Fin g.all.length → K),
      potential (exactEnv G junk) (Galaxy.ofBodies g.toB) "fortran"
        = .ok (Galaxy.ofBodies g'.toB) ∧
      SameWithPotential g g' (fun i => .fin (φ i)) ∧
      ∑ i : Fin g.all.length, g.all[i].m * φ i
        = 2 * ∑ i : Fin g.all.length, ∑ j : Fin g.all.length, if i < j then
            -(G * g.all[i].m * g.all[j].m / HasSqrt.ksqrt
              ((g.all[i].r - g.all[j].r) ⬝ᵥ (g.all[i].r - g.all[j].r) + e * e)) else 0 := by
  obtain ⟨g', h1, h2⟩ := C18_potential_nbody G e junk g hp he hsep
  refine ⟨g', _, h1, h2, ?_⟩
  rw [← sum_pairs (fun i j : Fin g.all.length => -(G * g.all[i].m * g.all[j].m / HasSqrt.ksqrt
    ((g.all[i].r - g.all[j].r) ⬝ᵥ (g.all[i].r - g.all[j].r) + e * e)))]
  · refine Finset.sum_congr rfl fun i _ => ?_
    rw [nbody, mul_neg, ← mul_assoc, Finset.mul_sum, ← Finset.sum_neg_distrib]
    refine Finset.sum_congr rfl fun j _ => ?_
    split
    · simp
    · ring
  · intro i j
    have := dist2_comm g.all[i] g.all[j]
    simp only [dist2] at this
    simp only [Fin.getElem_fin] at this ⊢
    rw [this, mul_right_comm]

/-- the attraction of the particles `s` at `r` -/
def pull (e : K) (r : Fin 3 → K) (s : List (KBody K)) : K :=
  (s.map fun b => b.m / HasSqrt.ksqrt ((r - b.r) ⬝ᵥ (r - b.r) + e * e)).sum

theorem pull_append (e : K) (r : Fin 3 → K) (s t : List (KBody K)) :
    pull e r (s ++ t) = pull e r s + pull e r t := by simp [pull]

/-- the potential is the pull of all particles without the particle itself -/
theorem nbody_pull (G e : K) (l : List (KBody K)) (i : Fin l.length) :
    nbody G e l i = -(G * (pull e l[i].r l - l[i].m / HasSqrt.ksqrt (e * e))) := by
  have h1 : pull e l[i].r l = ∑ j : Fin l.length,
      l[j].m / HasSqrt.ksqrt ((l[i].r - l[j].r) ⬝ᵥ (l[i].r - l[j].r) + e * e) := by
    rw [pull, ← Fin.sum_univ_getElem]
    rw [← (finCongr (List.length_map (as := l) _).symm).sum_comp]
    simp
  have h2 : ∀ j : Fin l.length, (if j = i then 0 else
      l[j].m / HasSqrt.ksqrt ((l[i].r - l[j].r) ⬝ᵥ (l[i].r - l[j].r) + e * e))
      = l[j].m / HasSqrt.ksqrt ((l[i].r - l[j].r) ⬝ᵥ (l[i].r - l[j].r) + e * e)
        - if j = i then l[i].m / HasSqrt.ksqrt (e * e) else 0 := by
    intro j
    split
    · next h => subst h; simp
    · simp
  rw [nbody, Finset.sum_congr rfl fun j _ => h2 j, Finset.sum_sub_distrib, h1]
  simp

theorem Separated.iff {e : K} {l : List (KBody K)} :
    Separated e l ↔ l.Pairwise fun a b => dist2 a b + e * e ≠ 0 := by
  rw [List.pairwise_iff_getElem]
  constructor
  · intro h i j hi hj hij
    exact h ⟨i, hi⟩ ⟨j, hj⟩ (by simp [Fin.ext_iff]; omega)
  · intro h i j hij
    rcases lt_or_gt_of_ne hij with h' | h'
    · exact h i j i.2 j.2 h'
    · rw [dist2_comm]; exact h j i j.2 i.2 h'

theorem Separated.sublist {e : K} {l s : List (KBody K)} (h : Separated e l) (hs : s.Sublist l) :
    Separated e s := Separated.iff.2 ((Separated.iff.1 h).sublist hs)

/-- the potentials which `potential` gives the particles of a galaxy, in the order stars, dark
matter, gas -/
def Potentials (G : K) (junk : Nat → Nat → Ext K) (g : KGalaxy K) (φ : Nat → K) : Prop :=
  ∃ g' : KGalaxy K, potential (exactEnv G junk) (Galaxy.ofBodies g.toB) "fortran"
      = .ok (Galaxy.ofBodies g'.toB) ∧ SameWithPotential g g' fun i => .fin (φ i)

theorem potentials_pull [LawfulSqrt K] {G e : K} {junk : Nat → Nat → Ext K} {g : KGalaxy K}
    {φ : Nat → K} (h : Potentials G junk g φ) (hp : g.hasPot = false) (he : MaxSoftening g e)
    (hsep : Separated e g.all) (i : Nat) (hi : i < g.all.length) :
    φ i = -(G * (pull e g.all[i].r g.all - g.all[i].m / HasSqrt.ksqrt (e * e))) := by
  obtain ⟨g1, h1, h2⟩ := C18_potential_nbody G e junk g hp he hsep
  obtain ⟨g2, h3, h4⟩ := h
  have h5 := ofBodies_all_pot (Except.ok.inj (h1.symm.trans h3)) h2.1
  rw [toB_all, toB_all, List.map_map, List.map_map] at h5
  have h6 := congrArg (·[i]?) h5
  have e1 := h2.2.2.2.2.2.2.2 ⟨i, hi⟩
  have e2 := h4.2.2.2.2.2.2.2 ⟨i, hi⟩
  simp only [List.getElem?_map, e1, e2, Option.map_some, Function.comp_apply] at h6
  have h7 := Option.some.inj h6
  simp only [KBody.body, Ext.fin.injEq] at h7
  rw [← h7, nbody_pull]
  rfl

theorem potentials_exist [LawfulSqrt K] (G e : K) (junk : Nat → Nat → Ext K) (g : KGalaxy K)
    (hp : g.hasPot = false) (he : MaxSoftening g e) (hsep : Separated e g.all) :
    ∃ φ, Potentials G junk g φ := by
  obtain ⟨g1, h1, h2⟩ := C18_potential_nbody G e junk g hp he hsep
  refine ⟨fun i => if h : i < g.all.length then nbody G e g.all ⟨i, h⟩ else 0, g1, h1, ?_⟩
  simpa using h2

theorem pull_sum_comm (e : K) (s t : List (KBody K)) :
    (s.map fun a => a.m * pull e a.r t).sum = (t.map fun b => b.m * pull e b.r s).sum := by
  induction s with
  | nil => simp [pull]
  | cons a s ih =>
    rw [List.map_cons, List.sum_cons, ih]
    have : ∀ b : KBody K, b.m * pull e b.r (a :: s)
        = b.m * (a.m / HasSqrt.ksqrt ((b.r - a.r) ⬝ᵥ (b.r - a.r) + e * e)) + b.m * pull e b.r s := by
      intro b
      rw [show a :: s = [a] ++ s from rfl, pull_append, mul_add]
      simp [pull]
    simp only [this, List.sum_map_add]
    congr 1
    rw [pull, ← List.sum_map_mul_left]
    congr 1
    refine List.map_congr_left fun b _ => ?_
    have := dist2_comm a b
    simp only [dist2] at this
    rw [this]; ring

/-- C99: on the stars the attraction of dark matter and gas add up: the potential in the whole
galaxy and that of the stars alone sum to the potentials without gas and without dark matter, if
the stars have the largest softening. -/
theorem C99_superposition [LawfulSqrt K] (G e : K) (junk : Nat → Nat → Ext K) (g : KGalaxy K)
    (hp : g.hasPot = false) (hs : g.stars ≠ []) (hS : g.softS = .fin e)
    (he : MaxSoftening g e) (hsep : Separated e g.all) :
    ∃ φ φs φsd φsg : Nat → K,
      Potentials G junk g φ ∧
      Potentials G junk { g with dm := [], gas := [] } φs ∧
      Potentials G junk { g with gas := [] } φsd ∧
      Potentials G junk { g with dm := [] } φsg ∧
      ∀ i < g.stars.length, φ i + φs i = φsd i + φsg i := by
  have m1 : MaxSoftening { g with dm := [], gas := [] } e := by
    simp [MaxSoftening, hs, hS]
  have m2 : MaxSoftening { g with gas := [] } e := by
    have := he.2
    refine ⟨by simp [hs, hS], fun x hx => this x ?_⟩
    revert hx; simp only [if_true, List.append_nil, List.mem_append]; tauto
  have m3 : MaxSoftening { g with dm := [] } e := by
    have := he.2
    refine ⟨by simp [hs, hS], fun x hx => this x ?_⟩
    revert hx; simp only [if_true, List.append_nil, List.mem_append]; tauto
  have s1 : Separated e ({ g with dm := [], gas := [] } : KGalaxy K).all :=
    hsep.sublist (by simp [KGalaxy.all])
  have s2 : Separated e ({ g with gas := [] } : KGalaxy K).all :=
    hsep.sublist (by simp [KGalaxy.all])
  have s3 : Separated e ({ g with dm := [] } : KGalaxy K).all :=
    hsep.sublist (by simp [KGalaxy.all])
  obtain ⟨φ, p0⟩ := potentials_exist G e junk g hp he hsep
  obtain ⟨φ1, p1⟩ := potentials_exist G e junk { g with dm := [], gas := [] } hp m1 s1
  obtain ⟨φ2, p2⟩ := potentials_exist G e junk { g with gas := [] } hp m2 s2
  obtain ⟨φ3, p3⟩ := potentials_exist G e junk { g with dm := [] } hp m3 s3
  refine ⟨φ, φ1, φ2, φ3, p0, p1, p2, p3, fun i hi => ?_⟩
  rw [potentials_pull p0 hp he hsep i (by simp [KGalaxy.all]; omega),
    potentials_pull p1 hp m1 s1 i (by simp [KGalaxy.all]; omega),
    potentials_pull p2 hp m2 s2 i (by simp [KGalaxy.all]; omega),
    potentials_pull p3 hp m3 s3 i (by simp [KGalaxy.all]; omega)]
  simp only [KGalaxy.all, List.append_nil, List.getElem_append_left hi, pull_append,
    List.append_assoc]
  ring

/-- C99: action equals reaction: the energy the stars gain from the presence of the dark matter is
the energy the dark matter gains from the presence of the stars. -/
theorem C99_reciprocity [LawfulSqrt K] (G e : K) (junk : Nat → Nat → Ext K) (g : KGalaxy K)
    (hp : g.hasPot = false) (hs : g.stars ≠ []) (hd : g.dm ≠ [])
    (hS : g.softS = .fin e) (hD : g.softDm = .fin e)
    (hsep : Separated e g.all) :
    ∃ φ φs φd : Nat → K,
      Potentials G junk { g with gas := [] } φ ∧
      Potentials G junk { g with dm := [], gas := [] } φs ∧
      Potentials G junk { g with stars := [], gas := [] } φd ∧
      ∑ i : Fin g.stars.length, g.stars[i].m * (φ i - φs i)
        = ∑ k : Fin g.dm.length, g.dm[k].m * (φ (g.stars.length + k) - φd k) := by
  have m1 : MaxSoftening { g with gas := [] } e := by simp [MaxSoftening, hs, hd, hS, hD]
  have m2 : MaxSoftening { g with dm := [], gas := [] } e := by simp [MaxSoftening, hs, hS]
  have m3 : MaxSoftening { g with stars := [], gas := [] } e := by simp [MaxSoftening, hd, hD]
  have s1 : Separated e ({ g with gas := [] } : KGalaxy K).all :=
    hsep.sublist (by simp [KGalaxy.all])
  have s2 : Separated e ({ g with dm := [], gas := [] } : KGalaxy K).all :=
    hsep.sublist (by simp [KGalaxy.all])
  have s3 : Separated e ({ g with stars := [], gas := [] } : KGalaxy K).all :=
    hsep.sublist (by simp [KGalaxy.all])
  obtain ⟨φ, p1⟩ := potentials_exist G e junk { g with gas := [] } hp m1 s1
  obtain ⟨φ2, p2⟩ := potentials_exist G e junk { g with dm := [], gas := [] } hp m2 s2
  obtain ⟨φ3, p3⟩ := potentials_exist G e junk { g with stars := [], gas := [] } hp m3 s3
  refine ⟨φ, φ2, φ3, p1, p2, p3, ?_⟩
  have e1 : ∀ i : Fin g.stars.length,
      g.stars[i].m * (φ i - φ2 i) = -G * (g.stars[i].m * pull e g.stars[i].r g.dm) := by
    intro i
    rw [potentials_pull p1 hp m1 s1 i (by simp [KGalaxy.all]; omega),
      potentials_pull p2 hp m2 s2 i (by simp [KGalaxy.all])]
    simp only [KGalaxy.all, List.append_nil, List.getElem_append_left i.2, pull_append,
      Fin.getElem_fin]
    ring
  have e2 : ∀ k : Fin g.dm.length, g.dm[k].m * (φ (g.stars.length + k) - φ3 k)
      = -G * (g.dm[k].m * pull e g.dm[k].r g.stars) := by
    intro k
    rw [potentials_pull p1 hp m1 s1 (g.stars.length + k) (by simp [KGalaxy.all]),
      potentials_pull p3 hp m3 s3 k (by simp [KGalaxy.all])]
    simp only [KGalaxy.all, List.append_nil, List.nil_append, pull_append, Fin.getElem_fin]
    rw [List.getElem_append_right (by omega)]
    simp only [Nat.add_sub_cancel_left]
    ring
  rw [Finset.sum_congr rfl fun i _ => e1 i, Finset.sum_congr rfl fun k _ => e2 k,
    ← Finset.mul_sum, ← Finset.mul_sum]
  congr 1
  have h := pull_sum_comm e g.stars g.dm
  rw [← Fin.sum_univ_getElem, ← Fin.sum_univ_getElem,
    ← (finCongr (List.length_map (as := g.stars) _).symm).sum_comp,
    ← (finCongr (List.length_map (as := g.dm) _).symm).sum_comp] at h
  simpa using h

/-- C99: bounds: with non-negative masses, if the softened distances of a particle to all others lie
between `a` and `b`, its potential lies between the values for all other mass at `a` and at `b`. -/
theorem C99_bounds [LawfulSqrt K] (G e a b : K) (hG : 0 ≤ G) (ha : 0 < a)
    (junk : Nat → Nat → Ext K) (g : KGalaxy K)
    (hp : g.hasPot = false) (he : MaxSoftening g e) (hsep : Separated e g.all)
    (hm : ∀ c ∈ g.all, 0 ≤ c.m) :
    ∃ φ : Nat → K, Potentials G junk g φ ∧ ∀ i : Fin g.all.length,
      (∀ j : Fin g.all.length, j ≠ i →
        a * a ≤ (g.all[i].r - g.all[j].r) ⬝ᵥ (g.all[i].r - g.all[j].r) + e * e ∧
        (g.all[i].r - g.all[j].r) ⬝ᵥ (g.all[i].r - g.all[j].r) + e * e ≤ b * b) → 0 < b →
      -(G * ((g.all.map (·.m)).sum - g.all[i].m) / a) ≤ φ i ∧
        φ i ≤ -(G * ((g.all.map (·.m)).sum - g.all[i].m) / b) := by
  obtain ⟨φ, p⟩ := potentials_exist G e junk g hp he hsep
  refine ⟨φ, p, fun i hab hb => ?_⟩
  have h0 : φ i = nbody G e g.all i := by
    rw [potentials_pull p hp he hsep i i.2, nbody_pull]; rfl
  have hM : (g.all.map (·.m)).sum - g.all[i].m
      = ∑ j : Fin g.all.length, if j = i then 0 else g.all[j].m := by
    have h1 : (g.all.map (·.m)).sum = ∑ j : Fin g.all.length, g.all[j].m := by
      rw [← Fin.sum_univ_getElem, ← (finCongr (List.length_map (as := g.all) _).symm).sum_comp]
      simp
    have h2 : ∀ j : Fin g.all.length, (if j = i then 0 else g.all[j].m)
        = g.all[j].m - if j = i then g.all[i].m else 0 := by
      intro j
      split
      · next h => subst h; simp
      · simp
    rw [Finset.sum_congr rfl fun j _ => h2 j, Finset.sum_sub_distrib, h1]
    simp
  have hsq : ∀ x y : K, 0 < x → 0 < y → x * x ≤ y → x ≤ HasSqrt.ksqrt y := by
    intro x y hx hy h
    by_contra hc
    have h1 := LawfulSqrt.sqrt_mul_self y hy.le
    have h2 := ksqrt_pos hy
    have := mul_lt_mul'' (not_le.1 hc) (not_le.1 hc) h2.le h2.le
    linarith
  have hsq' : ∀ x y : K, 0 < x → 0 < y → y ≤ x * x → HasSqrt.ksqrt y ≤ x := by
    intro x y hx hy h
    by_contra hc
    have h1 := LawfulSqrt.sqrt_mul_self y hy.le
    have := mul_lt_mul'' (not_le.1 hc) (not_le.1 hc) hx.le hx.le
    linarith
  rw [h0, hM, nbody, neg_le_neg_iff, neg_le_neg_iff, mul_div_assoc, mul_div_assoc, Finset.sum_div,
    Finset.sum_div]
  constructor
  · refine mul_le_mul_of_nonneg_left (Finset.sum_le_sum fun j _ => ?_) hG
    split
    · simp
    · next hj =>
      obtain ⟨h1, h2⟩ := hab j hj
      have hpos := lt_of_lt_of_le (mul_pos ha ha) h1
      exact div_le_div_of_nonneg_left (hm _ (List.getElem_mem _)) ha (hsq _ _ ha hpos h1)
  · refine mul_le_mul_of_nonneg_left (Finset.sum_le_sum fun j _ => ?_) hG
    split
    · simp
    · next hj =>
      obtain ⟨h1, h2⟩ := hab j hj
      have hpos := lt_of_lt_of_le (mul_pos ha ha) h1
      exact div_le_div_of_nonneg_left (hm _ (List.getElem_mem _)) (ksqrt_pos hpos)
        (hsq' _ _ hb hpos h2)

end exact

/-! ### non-vacuity -/

/-- one star, one dark matter and one gas particle at the corners of a triangle with sides 3, 4, 5 -/
noncomputable def exTriangle : KGalaxy ℝ :=
  { stars := [⟨1, ![0, 0, 0], ![0, 0, 0], .nan⟩], dm := [⟨2, ![3, 0, 0], ![0, 0, 0], .nan⟩],
    gas := [⟨3, ![0, 4, 0], ![0, 0, 0], .nan⟩], hasPot := false,
    softS := .fin 0, softDm := .fin 0, softG := .fin 0 }

theorem exTriangle_sep : Separated 0 exTriangle.all := by
  rw [Separated.iff]
  simp [exTriangle, KGalaxy.all, dist2, dotProduct, Fin.sum_univ_three]
  norm_num

-- the hypotheses of all four theorems
example : exTriangle.hasPot = false ∧ exTriangle.stars ≠ [] ∧ exTriangle.dm ≠ [] ∧
    exTriangle.softS = .fin 0 ∧ exTriangle.softDm = .fin 0 ∧ MaxSoftening exTriangle 0 ∧
    Separated 0 exTriangle.all ∧ ∀ c ∈ exTriangle.all, 0 ≤ c.m := by
  refine ⟨rfl, by simp [exTriangle], by simp [exTriangle], rfl, rfl, ?_, exTriangle_sep, ?_⟩
  · simp [MaxSoftening, exTriangle]
  · simp [exTriangle, KGalaxy.all]

-- for the star of the triangle the softened distances lie between 3 and 4
example (j : Fin exTriangle.all.length) (hj : j ≠ ⟨0, by simp [exTriangle, KGalaxy.all]⟩) :
    (3 : ℝ) * 3 ≤ dist2 exTriangle.all[0] exTriangle.all[j] + 0 * 0 ∧
      dist2 exTriangle.all[0] exTriangle.all[j] + 0 * 0 ≤ 4 * 4 := by
  have : exTriangle.all.length = 3 := by simp [exTriangle, KGalaxy.all]
  obtain ⟨j, h⟩ := j
  have : j = 1 ∨ j = 2 := by
    have : j ≠ 0 := by simpa [Fin.ext_iff] using hj
    omega
  rcases this with rfl | rfl <;>
    simp [exTriangle, KGalaxy.all, dist2, dotProduct, Fin.sum_univ_three] <;> norm_num

/-- the same particles with rational numbers, to compute -/
def exTriangleQ : KGalaxy ℚ :=
  { stars := [⟨1, ![0, 0, 0], ![0, 0, 0], .nan⟩], dm := [⟨2, ![3, 0, 0], ![0, 0, 0], .nan⟩],
    gas := [⟨3, ![0, 4, 0], ![0, 0, 0], .nan⟩], hasPot := false,
    softS := q 0, softDm := q 0, softG := q 0 }

/-- the potentials of all particles -/
def exPots (g : KGalaxy ℚ) : Option (List (Ext ℚ)) :=
  match potential (exactEnv (1 : ℚ) fun _ _ => q 0) (Galaxy.ofBodies g.toB) "fortran" with
  | .ok g => do return (← g.stars.potential) ++ (← g.darkMatter.potential) ++ (← g.gas.potential)
  | .error _ => none

-- 1 * (-17/12) + 2 * (-14/15) + 3 * (-13/20) = -2 * (2/3 + 3/4 + 6/5)
example : exPots exTriangleQ = some [q (-17/12), q (-14/15), q (-13/20)] := by decide +kernel
-- superposition at the star: -17/12 + 0 = -2/3 + -3/4
example : exPots { exTriangleQ with gas := [] } = some [q (-2/3), q (-1/3)] := by decide +kernel
example : exPots { exTriangleQ with dm := [] } = some [q (-3/4), q (-1/4)] := by decide +kernel
example : exPots { exTriangleQ with dm := [], gas := [] } = some [q 0] := by decide +kernel
-- between all other mass (5) at distance 3 and at distance 4
example : (-(5/3) : ℚ) ≤ -17/12 ∧ (-17/12 : ℚ) ≤ -(5/4) := by norm_num

end GChop
