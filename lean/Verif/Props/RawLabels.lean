import Verif.Props.ExactCirc
import Verif.Props.Potential
import Verif.Props.PotentialBackends

/-! # From raw particles to labels

C110: the potential in single precision, the circularities in doubles and the labels of JThreshold, against
the whole computation in exact arithmetic on the same particles. -/

namespace GChop

open Flt

/-! ## The exact energies of a galaxy without potential -/

/-- specific energy of particle `i` in the softened gravity of all others, exactly -/
noncomputable def gravE (g : ℚ) (b : BGalaxy Float64) (e : Float64) (i : Fin b.all.length) : ℝ :=
  exactKinetic b.all[i].vx b.all[i].vy b.all[i].vz - g * singleSum b.all e i

/-- specific angular momentum of particle `i` about the z axis, exactly -/
noncomputable def gravJz (b : BGalaxy Float64) (i : Fin b.all.length) : ℝ := trueJz b.all[i]

/-- error bound of the computed energy: the potential in single precision, the rest in doubles -/
noncomputable def gravErr (g : ℚ) (b : BGalaxy Float64) (e : Float64) (i : Fin b.all.length) : ℝ :=
  (b.all.length + 6) / 2 ^ 23 * (g * singleSum b.all e i) +
    (exactKinetic b.all[i].vx b.all[i].vy b.all[i].vz + 2 * (g * singleSum b.all e i)) * (7 / 2 ^ 53) + 8 * tiny

/-- the bound particles -/
noncomputable def gravBound (g : ℚ) (b : BGalaxy Float64) (e : Float64) : List (Fin b.all.length) :=
  (List.finRange b.all.length).filter fun i => decide (gravE g b e i < 0)

/-- The number is one of single precision. -/
def IsSingle (a : Float64) : Prop := toExt (Flt.cast a : Float32') = toExt a

/-- Positions, masses and softening are single precision numbers, and velocities are far from overflow. -/
structure SingleInput (b : BGalaxy Float64) (e : Float64) : Prop where
  pos : ∀ a ∈ b.all, IsSingle a.x ∧ IsSingle a.y ∧ IsSingle a.z
  mass : ∀ a ∈ b.all, IsSingle a.m
  soft : IsSingle e
  vel : ∀ a ∈ b.all, Within 490 a.vx ∧ Within 490 a.vy ∧ Within 490 a.vz

/-- `M` is the size of the lowest energy and `J` the largest `|Jz|` of the bound particles, in exact
arithmetic; the errors of bound particles are at most `θ` times these, and no error is large enough to
move an energy across zero. -/
structure GravResolved (g : ℚ) (b : BGalaxy Float64) (e : Float64) (M J θ : ℝ) : Prop where
  sign : ∀ i, gravErr g b e i < |gravE g b e i|
  M_pos : 0 < M
  M_le : ∀ i, -M ≤ gravE g b e i
  M_eq : ∃ i, gravE g b e i = -M
  J_pos : 0 < J
  J_le : ∀ i, gravE g b e i < 0 → |gravJz b i| ≤ J
  J_eq : ∃ i, gravE g b e i < 0 ∧ |gravJz b i| = J
  E : ∀ i, gravE g b e i < 0 → gravErr g b e i ≤ θ * M
  Jz : ∀ i, gravE g b e i < 0 → errJz b.all[i] ≤ θ * J

/-! ## The sum as a function of the particle -/

/-- the pull of `c` on `a` -/
noncomputable def pairPull (e : Float64) (a c : Body Float64) : ℝ :=
  (sv c.m : ℝ) / Real.sqrt (((sv a.x : ℝ) - sv c.x) ^ 2 + ((sv a.y : ℝ) - sv c.y) ^ 2
      + ((sv a.z : ℝ) - sv c.z) ^ 2 + (sv e : ℝ) ^ 2)

/-- the sum over all particles without the particle itself -/
noncomputable def pullSum (l : List (Body Float64)) (e : Float64) (a : Body Float64) : ℝ :=
  (∑ j : Fin l.length, pairPull e a l[j]) - pairPull e a a

theorem singleSum_eq (l : List (Body Float64)) (e : Float64) (i : Fin l.length) :
    singleSum l e i = pullSum l e l[i] := by
  unfold singleSum pullSum
  rw [eq_sub_iff_add_eq]
  have h : ∀ j : Fin l.length, pairPull e l[i] l[j]
      = (if i = j then 0 else pairPull e l[i] l[j]) + if i = j then pairPull e l[i] l[i] else 0 := by
    intro j
    by_cases hij : i = j
    · subst hij; simp
    · simp [hij]
  rw [Finset.sum_congr rfl fun j _ => h j, Finset.sum_add_distrib, Finset.sum_ite_eq]
  simp [pairPull]

/-- the exact particle in the gravity of `l` -/
noncomputable def gravRef (g : ℚ) (l : List (Body Float64)) (e : Float64) : Ref where
  body a := { exactBody a with pot := .fin (-(g * pullSum l e a)) }
  E a := exactKinetic a.vx a.vy a.vz - g * pullSum l e a
  Jz := trueJz
  errE a := (l.length + 6) / 2 ^ 23 * (g * pullSum l e a) +
    (exactKinetic a.vx a.vy a.vz + 2 * (g * pullSum l e a)) * (7 / 2 ^ 53) + 8 * tiny
  errJz := errJz
  body_energy a := by
    simp only [exactBody, Body.energy, Body.kinetic, exactKinetic, Ext.num_ofRat, Ext.num_sq,
      Ext.num_add, Ext.num_mul]
    congr 1
    push_cast
    ring
  body_jz a := by simp only [exactBody, Body.jz, trueJz, Ext.num_mul, Ext.num_sub]

/-! ## Sizes -/

theorem singleSum_le {fG : Fmt} {G : Flt fG} {g : ℚ} {b : BGalaxy Float64} {e : Float64} (h : SingleData G g b e)
    (i : Fin b.all.length) : 0 ≤ singleSum b.all e i ∧ singleSum b.all e i ≤ 2 ^ (126 : ℤ) := by
  obtain ⟨X, Y, Z, M, hr, hsep, hsum⟩ := h.range i
  have h0 := (inner_near (dt := Num.dot) fused_leftFold hr i.2 h.size hsep b.all.length le_rfl).1
  rw [hsum] at h0
  refine ⟨h0, ?_⟩
  rw [← hsum]
  have hterm : ∀ j ∈ Finset.range b.all.length, (if (i : Nat) = j then 0 else
      (M j : ℝ) / Real.sqrt (soft2 X Y Z (sv e) i j)) ≤ 2 ^ (104 : ℤ) := by
    intro j hj
    have hj := Finset.mem_range.1 hj
    split_ifs with hij
    · exact (zpow_pos (by norm_num) _).le
    · have hpos := Real.sqrt_pos.2 (hsep j hj hij)
      obtain ⟨-, v, -, hv, hcl⟩ := near_dist (dt := Num.dot) fused_leftFold hr i.2 hj
      have hq1 := Fmt.binary32.one_le_q
      have hq : Fmt.binary32.q ^ 4 ≤ 2 := by
        have : Fmt.binary32.q = (1 - 2 ^ (-24 : ℤ))⁻¹ := rfl
        rw [this]; norm_num
      have hq0 : 0 < Fmt.binary32.q ^ 4 := by positivity
      have hv0 : (2 : ℝ) ^ (-53 : ℤ) ≤ v := by
        rcases hv with hv | hv
        · exfalso
          have := hcl.2
          rw [hv] at this
          simp at this
          linarith
        · have := (Rat.cast_le (K := ℝ)).2 hv.1
          push_cast at this
          exact this
      have hM : (M j : ℝ) ≤ 2 ^ (50 : ℤ) := by
        have := (Rat.cast_le (K := ℝ)).2 (hr.hm j hj).2.le
        rwa [Rat.cast_zpow, Rat.cast_ofNat] at this
      rw [div_le_iff₀ hpos]
      have hlow : (2 : ℝ) ^ (-54 : ℤ) ≤ Real.sqrt (soft2 X Y Z (sv e) i j) := by
        have h1 : (2 : ℝ) ^ (-53 : ℤ) ≤ 2 * Real.sqrt (soft2 X Y Z (sv e) i j) :=
          hv0.trans (hcl.1.trans (mul_le_mul_of_nonneg_right hq hpos.le))
        have e1 : (2 : ℝ) ^ (-53 : ℤ) = 2 * 2 ^ (-54 : ℤ) := by norm_num
        linarith
      calc (M j : ℝ) ≤ 2 ^ (50 : ℤ) := hM
        _ = 2 ^ (104 : ℤ) * 2 ^ (-54 : ℤ) := by rw [← zpow_add₀ (by norm_num)]; norm_num
        _ ≤ _ := mul_le_mul_of_nonneg_left hlow (zpow_pos (by norm_num) _).le
  unfold exactSum
  refine (Finset.sum_le_sum hterm).trans ?_
  rw [Finset.sum_const, Finset.card_range, nsmul_eq_mul]
  have hn : ((b.all.length : ℕ) : ℝ) ≤ 2 ^ (22 : ℕ) := by exact_mod_cast h.size
  calc (b.all.length : ℝ) * 2 ^ (104 : ℤ) ≤ 2 ^ 22 * 2 ^ (104 : ℤ) :=
        mul_le_mul_of_nonneg_right hn (zpow_pos (by norm_num) _).le
    _ = _ := by norm_num

theorem sv_eq {a : Float64} {lo hi : ℤ} (hs : IsSingle a) (hm : Moderate lo hi a) :
    Num.isFinite a = true ∧ sv a = value a := by
  have h : toExt a = .fin (sv a) := hs.symm.trans hm.1
  exact ⟨isFinite_of h, (value_eq h).symm⟩

theorem within_of {a : Float64} {lo : ℤ} (hs : IsSingle a) (hm : Moderate lo 50 a) : Within 490 a := by
  obtain ⟨f, e⟩ := sv_eq hs hm
  refine ⟨f, ?_⟩
  rw [← e]
  rcases hm.2 with h | h
  · rw [h, abs_zero]; exact (zpow_pos (by norm_num) _).le
  · exact h.2.trans (zpow_le_zpow_right₀ (by norm_num) (by norm_num))

/-! ## The galaxy with the computed potential is near the exact one -/

/-- potentials close to the exact ones -/
def PotNear (g : ℚ) (b : BGalaxy Float64) (e : Float64) (p : Nat → Float64) : Prop :=
  ∀ i : Fin b.all.length, ∃ v : ℚ, toExt (p i) = .fin v ∧
    |(v : ℝ) - -(g * singleSum b.all e i)| ≤ (b.all.length + 6) / 2 ^ 23 * (g * singleSum b.all e i)

theorem mem_withPot {b : BGalaxy Float64} {p : Nat → Float64} {a : Body Float64} :
    a ∈ (b.withPot p).all ↔ ∃ i : Fin b.all.length, { b.all[i] with pot := p i } = a := by
  rw [withPot_all, List.mem_iff_getElem]
  simp only [List.length_mapIdx, List.getElem_mapIdx]
  constructor
  · rintro ⟨i, hi, rfl⟩; exact ⟨⟨i, hi⟩, rfl⟩
  · rintro ⟨i, rfl⟩; exact ⟨i, i.2, rfl⟩

theorem gravRef_E (g : ℚ) (b : BGalaxy Float64) (e q : Float64) (i : Fin b.all.length) :
    (gravRef g b.all e).E { b.all[i] with pot := q } = gravE g b e i ∧
    (gravRef g b.all e).errE { b.all[i] with pot := q } = gravErr g b e i ∧
    (gravRef g b.all e).Jz { b.all[i] with pot := q } = gravJz b i ∧
    (gravRef g b.all e).errJz { b.all[i] with pot := q } = errJz b.all[i] := by
  refine ⟨?_, ?_, rfl, rfl⟩
  · unfold gravE; rw [singleSum_eq]; rfl
  · unfold gravErr; rw [singleSum_eq]; rfl

theorem pot_within {fG : Fmt} {G : Flt fG} {g : ℚ} {b : BGalaxy Float64} {e : Float64} (h : SingleData G g b e)
    {p : Nat → Float64} (hp : PotNear g b e p) (i : Fin b.all.length) :
    Within 980 (p i) ∧ 0 ≤ g * singleSum b.all e i ∧ |(value (p i) : ℝ)| ≤ 2 * (g * singleSum b.all e i) := by
  obtain ⟨v, e1, e2⟩ := hp i
  obtain ⟨s0, s1⟩ := singleSum_le h i
  have g0 : (0 : ℝ) < g := by
    have := (zpow_pos (by norm_num : (0 : ℚ) < 2) (-30)).trans_le h.grange.1
    exact_mod_cast this
  have g1 : (g : ℝ) ≤ 1 := by exact_mod_cast h.grange.2
  have hU : 0 ≤ (g : ℝ) * singleSum b.all e i := mul_nonneg g0.le s0
  have hU1 : (g : ℝ) * singleSum b.all e i ≤ 2 ^ (126 : ℤ) :=
    (mul_le_of_le_one_left s0 g1).trans s1
  have hn : ((b.all.length : ℝ) + 6) / 2 ^ 23 ≤ 1 := by
    have : ((b.all.length : ℕ) : ℝ) ≤ 2 ^ (22 : ℕ) := by exact_mod_cast h.size
    rw [div_le_one (by norm_num)]
    linarith
  have hv : value (p i) = v := value_eq e1
  have hb : |(value (p i) : ℝ)| ≤ 2 * (g * singleSum b.all e i) := by
    rw [hv]
    have := mul_le_mul_of_nonneg_right hn hU
    have h1 := abs_le.1 e2
    rw [abs_le]
    constructor <;> linarith
  refine ⟨⟨isFinite_of e1, ?_⟩, hU, hb⟩
  have h2 : |(value (p i) : ℝ)| ≤ 2 ^ (980 : ℤ) := by
    refine hb.trans ((mul_le_mul_of_nonneg_left hU1 (by norm_num)).trans ?_)
    have : (2 : ℝ) * 2 ^ (126 : ℤ) = 2 ^ (127 : ℤ) := by norm_num
    rw [this]
    exact zpow_le_zpow_right₀ (by norm_num) (by norm_num)
  have h3 : ((|value (p i)| : ℚ) : ℝ) ≤ ((2 ^ (980 : ℤ) : ℚ) : ℝ) := by
    rw [Rat.cast_abs, Rat.cast_zpow, Rat.cast_ofNat]; exact h2
  exact Rat.cast_le.1 h3

theorem grav_near {fG : Fmt} {G : Flt fG} {g : ℚ} {b : BGalaxy Float64} {e : Float64} (h : SingleData G g b e)
    (hs : SingleInput b e) {M J θ : ℝ} (hr : GravResolved g b e M J θ) {p : Nat → Float64}
    (hp : PotNear g b e p) : NearRef (gravRef g b.all e) (b.withPot p) M J θ := by
  have hmod : ∀ i : Fin b.all.length, ModerateCoords { b.all[i] with pot := p i } := by
    intro i
    have hm : b.all[i] ∈ b.all := List.getElem_mem i.2
    obtain ⟨q1, q2, -⟩ := hs.pos _ hm
    obtain ⟨r1, r2, -⟩ := h.pos _ hm
    obtain ⟨v1, v2, v3⟩ := hs.vel _ hm
    exact ⟨within_of q1 r1, within_of q2 r2, v1, v2, v3, (pot_within h hp i).1⟩
  refine ⟨?_, ?_, ?_, ?_, hr.M_pos, ?_, ?_, hr.J_pos, ?_, ?_, ?_, ?_⟩
  · intro a ha
    obtain ⟨i, rfl⟩ := mem_withPot.1 ha
    obtain ⟨f, e1⟩ := energy_err (hmod i)
    refine ⟨f, ?_⟩
    obtain ⟨hE, hErr, -, -⟩ := gravRef_E g b e (p i) i
    rw [hE, hErr]
    obtain ⟨-, hU, hb⟩ := pot_within h hp i
    obtain ⟨v, w1, w2⟩ := hp i
    have hv : value (p i) = v := value_eq w1
    have k0 := (exactKinetic_le (hmod i).vx (hmod i).vy (hmod i).vz).1
    unfold trueE errE at e1
    unfold gravE gravErr
    simp only at e1 k0
    generalize exactKinetic (b.all[i]).vx (b.all[i]).vy (b.all[i]).vz = K at e1 k0 ⊢
    rw [hv] at e1 hb
    have e2 : (K + |(v : ℝ)|) * (7 / 2 ^ 53) ≤ (K + 2 * (g * singleSum b.all e i)) * (7 / 2 ^ 53) :=
      mul_le_mul_of_nonneg_right (by linarith) (by norm_num)
    have a1 := abs_le.1 e1
    have a2 := abs_le.1 w2
    rw [abs_le]
    constructor <;> linarith
  · intro a ha
    obtain ⟨i, rfl⟩ := mem_withPot.1 ha
    exact jz_err (hmod i)
  · intro a ha h0
    obtain ⟨i, rfl⟩ := mem_withPot.1 ha
    exact jz_zero (hmod i) h0
  · intro a ha
    obtain ⟨i, rfl⟩ := mem_withPot.1 ha
    obtain ⟨hE, hErr, -, -⟩ := gravRef_E g b e (p i) i
    rw [hE, hErr]
    exact hr.sign i
  · intro a ha
    obtain ⟨i, rfl⟩ := mem_withPot.1 ha
    rw [(gravRef_E g b e (p i) i).1]
    exact hr.M_le i
  · obtain ⟨i, hi⟩ := hr.M_eq
    exact ⟨_, mem_withPot.2 ⟨i, rfl⟩, by rw [(gravRef_E g b e (p i) i).1]; exact hi⟩
  · intro a ha h0
    obtain ⟨i, rfl⟩ := mem_withPot.1 ha
    rw [(gravRef_E g b e (p i) i).1] at h0
    exact hr.J_le i h0
  · obtain ⟨i, hi, hj⟩ := hr.J_eq
    exact ⟨_, mem_withPot.2 ⟨i, rfl⟩, by rw [(gravRef_E g b e (p i) i).1]; exact hi, hj⟩
  · intro a ha h0
    obtain ⟨i, rfl⟩ := mem_withPot.1 ha
    obtain ⟨hE, hErr, -, -⟩ := gravRef_E g b e (p i) i
    rw [hE] at h0
    rw [hErr]
    exact hr.E i h0
  · intro a ha h0
    obtain ⟨i, rfl⟩ := mem_withPot.1 ha
    rw [(gravRef_E g b e (p i) i).1] at h0
    exact hr.Jz i h0

/-! ## The margins of the indexed particles -/

theorem Clear.map {α β : Type} {l : List α} {E J : α → ℝ} {edges : List ℝ} {δ : ℝ} (hδ : 0 ≤ δ)
    (h : Clear l E J edges δ) (f : α → β) {E' J' : β → ℝ} (hE : ∀ i ∈ l, E' (f i) = E i)
    (hJ : ∀ i ∈ l, J' (f i) = J i) : Clear (l.map f) E' J' edges δ := by
  have hsame : ∀ i ∈ l, ∀ k ∈ l, SameBin E' edges (f i) (f k) ↔ SameBin E edges i k := by
    intro i hi k hk
    unfold SameBin
    rw [hE i hi, hE k hk]
  have hmem : ∀ {P : β → Prop}, (∀ i ∈ l, P (f i)) → ∀ a ∈ l.map f, P a := by
    intro P hP a ha
    obtain ⟨i, hi, rfl⟩ := List.mem_map.1 ha
    exact hP i hi
  refine ⟨hmem fun i hi => ?_, hmem fun i hi => hmem fun k hk => ?_, hmem fun i hi => ?_,
    hmem fun i hi => ?_, hmem fun i hi => hmem fun k hk => ?_, hmem fun i hi => hmem fun k hk => ?_⟩
  · rw [hE i hi]; exact h.neg i hi
  · rw [hE i hi, hE k hk]
    exact fun h1 h2 => h.deepest i hi k hk h1 fun hc => h2 (by rw [hc])
  · rw [hE i hi]; exact h.away i hi
  · rw [hJ i hi]; exact h.zero i hi
  · rw [hsame i hi k hk, hJ i hi, hJ k hk]
    exact fun h1 h2 => h.order i hi k hk h1 fun hc => h2 (by rw [hc])
  · rw [hsame i hi k hk, hJ i hi, hJ k hk]
    intro h1 h2 h3
    refine h.second i hi k hk h1 (fun hc => h2 (by rw [hc])) fun d hd hdi => ?_
    obtain ⟨h4, h5⟩ := h3 (f d) (List.mem_map_of_mem hd) ((hsame d hd i hi).2 hdi)
    rw [hJ d hd] at h4 h5
    refine ⟨h4, fun hne => ?_⟩
    by_cases hfd : f d = f i
    · have := h.order d hd i hi hdi hne
      rw [← hJ d hd, ← hJ i hi, hfd, sub_self, abs_zero] at this
      linarith
    · exact h5 hfd

theorem boundOf_grav (g : ℚ) (b : BGalaxy Float64) (e : Float64) (p : Nat → Float64) :
    (gravRef g b.all e).boundOf (b.withPot p)
      = (gravBound g b e).map fun i : Fin b.all.length => { b.all[i] with pot := p i } := by
  have hall : (b.withPot p).all
      = (List.finRange b.all.length).map fun i : Fin b.all.length => { b.all[i] with pot := p i } := by
    rw [withPot_all]
    apply List.ext_getElem
    · simp
    · intro i h1 h2
      simp
  unfold Ref.boundOf gravBound
  rw [hall, List.filter_map]
  congr 1
  apply List.filter_congr
  intro i _
  rw [Function.comp_apply, (gravRef_E g b e (p i) i).1]

/-! ## The exact potential -/

/-- the galaxy of real numbers -/
noncomputable def kBody (a : Body Float64) : KBody ℝ where
  m := value a.m
  r := ![value a.x, value a.y, value a.z]
  v := ![value a.vx, value a.vy, value a.vz]
  pot := .fin (value a.pot)

noncomputable def kGalaxy (b : BGalaxy Float64) : KGalaxy ℝ where
  stars := b.stars.map kBody
  dm := b.dm.map kBody
  gas := b.gas.map kBody
  hasPot := b.hasPot
  softS := .fin (value b.softS)
  softDm := .fin (value b.softDm)
  softG := .fin (value b.softG)

theorem kBody_body (a : Body Float64) : (kBody a).body = exactBody a := by
  simp [KBody.body, kBody, exactBody]

theorem kGalaxy_toB (b : BGalaxy Float64) : (kGalaxy b).toB = exactGalaxy b := by
  simp [kGalaxy, KGalaxy.toB, exactGalaxy, Function.comp_def, kBody_body]

theorem kGalaxy_all (b : BGalaxy Float64) : (kGalaxy b).all = b.all.map kBody := by
  simp [kGalaxy, KGalaxy.all, BGalaxy.all]

theorem exact_soft {fG : Fmt} {G : Flt fG} {g : ℚ} {b : BGalaxy Float64} {e : Float64} (h : SingleData G g b e)
    (hs : SingleInput b e) : MaxSoftening (kGalaxy b) (value e : ℝ) := by
  obtain ⟨fe, he⟩ := sv_eq hs.soft h.softRange.1
  have he0 : 0 ≤ value e := he ▸ h.softRange.2
  obtain ⟨h1, h2⟩ := h.soft
  have hused : (if (kGalaxy b).stars = [] then ([] : List (Ext ℝ)) else [(kGalaxy b).softS]) ++
      (if (kGalaxy b).dm = [] then [] else [(kGalaxy b).softDm]) ++
      (if (kGalaxy b).gas = [] then [] else [(kGalaxy b).softG])
      = ((if b.stars = [] then [] else [b.softS]) ++
    (if b.dm = [] then [] else [b.softDm]) ++ (if b.gas = [] then [] else [b.softG])).map
        fun s => Ext.fin (value s : ℝ) := by
    simp only [kGalaxy, List.map_append, List.map_eq_nil_iff]
    congr 1
    · congr 1 <;> split_ifs <;> rfl
    · split_ifs <;> rfl
  unfold MaxSoftening
  simp only [hused]
  refine ⟨List.mem_map.2 ⟨e, h1, rfl⟩, ?_⟩
  intro s hsm
  obtain ⟨t, ht, rfl⟩ := List.mem_map.1 hsm
  refine ⟨_, rfl, ?_⟩
  have hle := h2 t ht
  cases hf : (Num.isFinite t) with
  | true => exact (real_le hf fe).1 hle
  | false =>
    have : value t = 0 := by
      cases t with
      | fin s m => cases hf
      | inf s => cases s <;> rfl
      | nan => rfl
    rw [this]
    exact_mod_cast he0

theorem exact_sum {fG : Fmt} {G : Flt fG} {g : ℚ} {b : BGalaxy Float64} {e : Float64} (h : SingleData G g b e)
    (hs : SingleInput b e) (junk : Nat → Nat → Ext ℝ) :
    potential (exactEnv (g : ℝ) junk) (Galaxy.ofBodies (exactGalaxy b)) "fortran"
      = .ok (Galaxy.ofBodies ((exactGalaxy b).withPot fun i =>
        ((b.all[i]?).map fun a => Ext.fin (-(g * pullSum b.all e a))).getD Num.nan)) := by
  have h1 := potential_ofBodies (exactEnv (g : ℝ) junk) (kGalaxy b).toB "fortran" h.noPot (Or.inl ⟨rfl, rfl⟩)
  rw [kGalaxy_toB] at h1
  rw [h1]
  congr 2
  apply withPot_congr _ b.all.length (by rw [exactGalaxy_all, List.length_map])
  intro i hi
  have hsv : ∀ j : Fin b.all.length, (sv b.all[j].x : ℝ) = value b.all[j].x ∧
      (sv b.all[j].y : ℝ) = value b.all[j].y ∧ (sv b.all[j].z : ℝ) = value b.all[j].z ∧
      (sv b.all[j].m : ℝ) = value b.all[j].m := by
    intro j
    have hm : b.all[j] ∈ b.all := List.getElem_mem j.2
    obtain ⟨q1, q2, q3⟩ := hs.pos _ hm
    obtain ⟨r1, r2, r3⟩ := h.pos _ hm
    rw [(sv_eq q1 r1).2, (sv_eq q2 r2).2, (sv_eq q3 r3).2, (sv_eq (hs.mass _ hm) (h.mass _ hm).1).2]
    exact ⟨rfl, rfl, rfl, rfl⟩
  have hse : (sv e : ℝ) = value e := by rw [(sv_eq hs.soft h.softRange.1).2]
  have hlen : (kGalaxy b).all.length = b.all.length := by rw [kGalaxy_all, List.length_map]
  have hget : ∀ j : Fin (kGalaxy b).all.length, (kGalaxy b).all[j] = kBody b.all[(j : Nat)] := by
    intro j
    simp [kGalaxy_all]
  have hd : ∀ j k : Fin b.all.length, dist2 (kBody b.all[j]) (kBody b.all[k]) + (value e : ℝ) * value e
      = ((sv b.all[j].x : ℝ) - sv b.all[k].x) ^ 2 + ((sv b.all[j].y : ℝ) - sv b.all[k].y) ^ 2
      + ((sv b.all[j].z : ℝ) - sv b.all[k].z) ^ 2 + (sv e : ℝ) ^ 2 := by
    intro j k
    obtain ⟨a1, a2, a3, -⟩ := hsv j
    obtain ⟨b1, b2, b3, -⟩ := hsv k
    rw [a1, a2, a3, b1, b2, b3, hse]
    simp [dist2, dotProduct, Fin.sum_univ_three, kBody]
    ring
  have hsep : ∀ j k : Fin b.all.length, j ≠ k →
      dist2 (kBody b.all[j]) (kBody b.all[k]) + (value e : ℝ) * value e ≠ 0 := by
    intro j k hjk
    rw [hd]
    have aux : ∀ {v w : ℚ}, v ≠ w → 0 < ((v : ℝ) - w) ^ 2 := by
      intro v w h
      have : (v : ℝ) - w ≠ 0 := sub_ne_zero.2 (by exact_mod_cast h)
      positivity
    apply ne_of_gt
    rcases h.sep j k hjk with h | h | h | h
    · have : (sv e : ℝ) ≠ 0 := by exact_mod_cast h
      positivity
    · have := aux h; positivity
    · have := aux h; positivity
    · have := aux h; positivity
  have hi' : i < (kGalaxy b).all.length := by omega
  rw [List.getElem?_eq_getElem hi]
  simp only [Option.map_some, Option.getD_some]
  have h2 := backendPot_fortran (g : ℝ) junk (kGalaxy b).all (kGalaxy b).toB.softs ⟨i, hi'⟩
  rw [← toB_all, (exact_soft h hs).seriesMax_eq, kGalaxy_toB] at h2
  rw [show backendPot (exactEnv (g : ℝ) junk) "fortran" (exactGalaxy b).all (exactGalaxy b).softs i = _ from h2]
  have h3 : (∑ j : Fin (kGalaxy b).all.length, if j = ⟨i, hi'⟩ then 0 else
        pairTerm (Num.sq (.fin (value e : ℝ))) (kGalaxy b).all[(⟨i, hi'⟩ : Fin (kGalaxy b).all.length)] (kGalaxy b).all[j])
        = ∑ j : Fin (kGalaxy b).all.length, Ext.fin (if (⟨i, hi⟩ : Fin b.all.length) = j.cast hlen then 0 else
          pairPull e b.all[i] b.all[(j : Nat)]) := by
    apply Finset.sum_congr rfl
    intro j _
    have hj : (j : Nat) < b.all.length := hlen ▸ j.2
    by_cases hji : j = ⟨i, hi'⟩
    · subst hji; simp; rfl
    · have hne : (⟨i, hi⟩ : Fin b.all.length) ≠ ⟨j, hj⟩ := fun hc => hji (Fin.ext (congrArg Fin.val hc).symm)
      have hne' : (⟨i, hi⟩ : Fin b.all.length) ≠ j.cast hlen := hne
      rw [if_neg hji, if_neg hne', hget, hget]
      have := pairTerm_fin (hsep ⟨i, hi⟩ ⟨j, hj⟩ hne)
      refine this.trans ?_
      congr 1
      have e1 := hd ⟨i, hi⟩ ⟨j, hj⟩
      have e2 := (hsv ⟨j, hj⟩).2.2.2
      rw [e1, pairPull]
      simp only [Fin.getElem_fin] at e2 ⊢
      rw [e2]
      rfl
  rw [h3, fin_sum]
  simp only [Ext.num_mul, Ext.num_neg]
  congr 2
  have h4 : (∑ j : Fin (kGalaxy b).all.length, if (⟨i, hi⟩ : Fin b.all.length) = j.cast hlen then 0 else
          pairPull e b.all[i] b.all[(j : Nat)]) = singleSum b.all e ⟨i, hi⟩ := by
    unfold singleSum
    rw [← Equiv.sum_comp (finCongr hlen)]
    rfl
  rw [h4, singleSum_eq, mul_comm]
  rfl

theorem exact_withPot (g : ℚ) (b : BGalaxy Float64) (e : Float64) (p : Nat → Float64) :
    (exactGalaxy b).withPot (fun i =>
        ((b.all[i]?).map fun a => Ext.fin (-(g * pullSum b.all e a))).getD Num.nan)
      = (gravRef g b.all e).galaxy (b.withPot p) := by
  have aux : ∀ (l : List (Body Float64)) (k : Nat) (q : Nat → Float64), (∀ (i : Nat) a, l[i]? = some a → b.all[k + i]? = some a) →
      ((l.map exactBody).mapIdx fun i a => { a with
        pot := ((b.all[k + i]?).map fun a => Ext.fin (-(g * pullSum b.all e a))).getD Num.nan })
      = (l.mapIdx fun i a => { a with pot := q i }).map (gravRef g b.all e).body := by
    intro l k q hl
    apply List.ext_getElem?
    intro i
    simp only [List.getElem?_mapIdx, List.getElem?_map]
    cases hi : l[i]? with
    | none => rfl
    | some a =>
      rw [hl i a hi]
      rfl
  unfold BGalaxy.withPot Ref.galaxy
  simp only
  congr 1
  · have := aux b.stars 0 p (fun i a ha => by
      rw [Nat.zero_add, BGalaxy.all, List.append_assoc, List.getElem?_append_left (List.getElem?_eq_some_iff.1 ha).1]
      exact ha)
    simpa only [exactGalaxy, Nat.zero_add] using this
  · have := aux b.dm b.stars.length (fun i => p (b.stars.length + i)) (fun i a ha => by
      have hlt := (List.getElem?_eq_some_iff.1 ha).1
      rw [BGalaxy.all, List.append_assoc, List.getElem?_append_right (by omega),
        List.getElem?_append_left (by omega), Nat.add_sub_cancel_left]
      exact ha)
    simpa only [exactGalaxy, List.length_map] using this
  · have := aux b.gas (b.stars.length + b.dm.length) (fun i => p (b.stars.length + b.dm.length + i)) (fun i a ha => by
      have hlt := (List.getElem?_eq_some_iff.1 ha).1
      rw [BGalaxy.all, List.getElem?_append_right (by simp),
        List.length_append, Nat.add_sub_cancel_left]
      exact ha)
    simpa only [exactGalaxy, List.length_map] using this

/-! ## C110 -/

/-- the agreement of a galaxy in doubles with one of real numbers that C110 states, with the margins of
the particles of `b` -/
theorem pipeline_core {fG : Fmt} {G : Flt fG} {g : ℚ} {b : BGalaxy Float64} {e : Float64} (h : SingleData G g b e)
    (hs : SingleInput b e) {M J θ δ : ℝ} (hr : GravResolved g b e M J θ) (hδ : 3 * θ + 1 / 2 ^ 49 ≤ δ)
    (hc : Clear (gravBound g b e) (fun i => gravE g b e i / M) (fun i => gravJz b i / J) defaultEdges δ)
    {p : Nat → Float64} (hp : PotNear g b e p) :
    NearRef (gravRef g b.all e) (b.withPot p) M J θ ∧
    Clear ((gravRef g b.all e).boundOf (b.withPot p)) (fun a => (gravRef g b.all e).E a / M)
      (fun a => (gravRef g b.all e).Jz a / J) defaultEdges δ := by
  have hn := grav_near h hs hr hp
  refine ⟨hn, ?_⟩
  have hδ0 : 0 ≤ δ := by
    have := resolved_nonneg hn
    have h2 : (0 : ℝ) ≤ 1 / 2 ^ 49 := by norm_num
    linarith
  rw [boundOf_grav]
  refine hc.map hδ0 _ (fun i _ => ?_) fun i _ => ?_
  · rw [(gravRef_E g b e (p i) i).1]
  · rw [(gravRef_E g b e (p i) i).2.2.1]

/-- `b1` and `b1'` are the particles of `b` with potentials, in doubles and in exact arithmetic: the
circularities and the labels of `b1` follow those of `b1'`. -/
structure Agrees (g : ℚ) (b : BGalaxy Float64) (e : Float64) (M J δ : ℝ) (env : CircEnv Float64)
    (env' : CircEnv (Ext ℝ)) (b1 : Galaxy Float64) (b1' : Galaxy (Ext ℝ)) : Prop where
  /-- jcirc succeeds for both or for none -/
  succeeds : (∃ j, jcirc env b1 defaultCbin.1 defaultCbin.2 = .ok j) ↔
    ∃ j', jcirc env' b1' defaultCbin.1 defaultCbin.2 = .ok j'
  /-- the tables of circular orbits have the same particles, and close corners -/
  profile : ∀ j j', jcirc env b1 defaultCbin.1 defaultCbin.2 = .ok j →
    jcirc env' b1' defaultCbin.1 defaultCbin.2 = .ok j' →
    ∃ C : List (Fin b.all.length), (∀ i ∈ C, gravE g b e i < 0) ∧
      j'.x = C.map (fun i => .fin (gravE g b e i / M)) ∧ j'.y = C.map (fun i => .fin |gravJz b i / J|) ∧
      j.x.length = C.length ∧ j.y.length = C.length ∧
      (∀ (k : Nat) x i, j.x[k]? = some x → C[k]? = some i →
        Num.isFinite x = true ∧ |(value x : ℝ) - gravE g b e i / M| ≤ δ) ∧
      ∀ (k : Nat) y i, j.y[k]? = some y → C[k]? = some i →
        Num.isFinite y = true ∧ |(value y : ℝ) - abs (gravJz b i / J)| ≤ δ
  /-- a finite circularity is close to the exact one, relative to the circular orbit -/
  circularity : ∀ j j', jcirc env b1 defaultCbin.1 defaultCbin.2 = .ok j →
    jcirc env' b1' defaultCbin.1 defaultCbin.2 = .ok j' →
    ∀ (xs ys : List ℝ) (γ : ℝ), j'.x = xs.map .fin → j'.y = ys.map .fin → 0 < γ →
    (xs.Pairwise fun u v => γ ≤ v - u) → ∀ i : Fin b.all.length, (i : Nat) < b.stars.length →
    ∀ t : Float64, j.eps[(i : Nat)]? = some t → Num.isFinite t = true →
    gravE g b e i < 0 ∧ ∃ P : ℝ, OnPolygon xs ys (gravE g b e i / M) P ∧ (0 ≤ P ∧ P ≤ 1) ∧
      |value t * P - gravJz b i / J| ≤ 2 * δ + 2 * δ / γ ∧
      ∀ x : ℝ, j'.eps[(i : Nat)]? = some (.fin x) →
        x * P = gravJz b i / J ∧ |value t - x| * P ≤ 2 * δ + 2 * δ / γ
  /-- JThreshold gives the same labels when the stars are clear of the threshold -/
  labels : ∀ j', jcirc env' b1' defaultCbin.1 defaultCbin.2 = .ok j' →
    ∀ (xs ys : List ℝ) (γ : ℝ), j'.x = xs.map .fin → j'.y = ys.map .fin → 0 < γ →
    (xs.Pairwise fun u v => γ ≤ v - u) →
    ∀ (junk junk' : Nat → Int) (cut : Float64), Num.isFinite cut = true →
    (∀ i : Fin b.all.length, (i : Nat) < b.stars.length → gravE g b e i < 0 →
      (gravE g b e i / M, |gravJz b i / J|) ∈ xs.zip ys ∨
      ∀ P, OnPolygon xs ys (gravE g b e i / M) P →
        2 * δ + 2 * δ / γ < |(|gravJz b i / J| - P)| ∧
        2 * δ + 2 * δ / γ < |gravJz b i / J - value cut * P|) →
    ∃ c c', decompose env defaultCbin (jThreshold junk cut) b1 = .ok c ∧
      decompose env' defaultCbin (jThreshold junk' (.fin (value cut))) b1' = .ok c' ∧
      c.labels = c'.labels ∧ c.ptypes = c'.ptypes

theorem exists_preimage {α β : Type} (f : α → β) (C : List β) (h : ∀ a ∈ C, ∃ i, f i = a) :
    ∃ D : List α, D.map f = C := by
  induction C with
  | nil => exact ⟨[], rfl⟩
  | cons a C ih =>
    obtain ⟨D, hD⟩ := ih fun c hc => h c (List.mem_cons_of_mem _ hc)
    obtain ⟨i, hi⟩ := h a List.mem_cons_self
    exact ⟨i :: D, by rw [List.map_cons, hi, hD]⟩

theorem star_getElem {b : BGalaxy Float64} (p : Nat → Float64) (i : Fin b.all.length)
    (hi : (i : Nat) < b.stars.length) :
    (b.withPot p).stars[(i : Nat)]? = some { b.all[i] with pot := p i } := by
  have h1 : b.all[i] = b.stars[(i : Nat)] := by
    simp only [BGalaxy.all, List.append_assoc]
    exact List.getElem_append_left hi
  rw [h1]
  simp [BGalaxy.withPot, hi]

theorem pipeline_agrees {fG : Fmt} {G : Flt fG} {g : ℚ} {b : BGalaxy Float64} {e : Float64} (h : SingleData G g b e)
    (hs : SingleInput b e) {M J θ δ : ℝ} (hr : GravResolved g b e M J θ) (hθ : θ ≤ 1 / 4)
    (hδ : 3 * θ + 1 / 2 ^ 49 ≤ δ)
    (hc : Clear (gravBound g b e) (fun i => gravE g b e i / M) (fun i => gravJz b i / J) defaultEdges δ)
    {p : Nat → Float64} (hp : PotNear g b e p) (env : CircEnv Float64) (henv : env.OK)
    (env' : CircEnv (Ext ℝ)) (henv' : env'.OK) :
    Agrees g b e M J δ env env' (Galaxy.ofBodies (b.withPot p))
      (Galaxy.ofBodies ((gravRef g b.all e).galaxy (b.withPot p))) := by
  obtain ⟨hn, hcl⟩ := pipeline_core h hs hr hδ hc hp
  have hsuc := C109_succeeds env env' _ _ _ _ hn
  refine ⟨hsuc, ?_, ?_, ?_⟩
  · intro j j' hj hj'
    obtain ⟨k', hk', C, hC, -, hx, hy, hxl, hyl, hxn, hyn⟩ := C109_profile (R := gravRef g b.all e) env henv
      env' henv' _ j hj M J θ δ hn hθ hδ hcl
    rw [hj'] at hk'
    have hk' := Except.ok.inj hk'
    subst hk'
    obtain ⟨D, hD⟩ : ∃ D : List (Fin b.all.length),
        D.map (fun i : Fin b.all.length => { b.all[i] with pot := p i }) = C :=
      exists_preimage _ C fun a ha => mem_withPot.1 (hC a ha).1
    rw [← hD] at hC hx hy hxl hyl hxn hyn
    clear hD
    have hE := fun i : Fin b.all.length => (gravRef_E g b e (p i) i).1
    have hJ := fun i : Fin b.all.length => (gravRef_E g b e (p i) i).2.2.1
    refine ⟨D, fun i hi => ?_, ?_, ?_, ?_, ?_, fun k x i hk hi => ?_, fun k y i hk hi => ?_⟩
    · have := (hC _ (List.mem_map_of_mem hi)).2
      rwa [hE] at this
    · rw [hx, List.map_map]
      exact List.map_congr_left fun i _ => by rw [Function.comp_apply, hE]
    · rw [hy, List.map_map]
      exact List.map_congr_left fun i _ => by rw [Function.comp_apply, hJ]
    · rw [hxl, List.length_map]
    · rw [hyl, List.length_map]
    · have := hxn k x _ hk (by rw [List.getElem?_map, hi]; rfl)
      rwa [hE] at this
    · have := hyn k y _ hk (by rw [List.getElem?_map, hi]; rfl)
      rwa [hJ] at this
  · intro j j' hj hj' xs ys γ hx hy hγ hgap i hi t ht ft
    have := C109_circularity (R := gravRef g b.all e) env henv env' henv' _ j hj M J θ δ γ hn hθ hδ hcl j' hj'
      xs ys hx hy hγ hgap i _ (star_getElem p i hi) t ht ft
    obtain ⟨hE, -, hJ, -⟩ := gravRef_E g b e (p i) i
    rwa [hE, hJ] at this
  · intro j' hj' xs ys γ hx hy hγ hgap junk junk' cut fcut hstar
    obtain ⟨j, hj⟩ := hsuc.2 ⟨j', hj'⟩
    refine C109_labels (R := gravRef g b.all e) env henv env' henv' _ j hj M J θ δ γ hn hθ hδ hcl j' hj' xs ys
      hx hy hγ hgap junk junk' cut fcut ?_
    intro a ha h0
    obtain ⟨i, hi⟩ := List.mem_iff_getElem?.1 ha
    have hi' : i < b.stars.length := by
      have := (List.getElem?_eq_some_iff.1 hi).1
      simpa [BGalaxy.withPot] using this
    have hia : i < b.all.length := by simp [BGalaxy.all]; omega
    rw [star_getElem p ⟨i, hia⟩ hi'] at hi
    have hi := Option.some.inj hi
    subst hi
    obtain ⟨hE, -, hJ, -⟩ := gravRef_E g b e (p i) ⟨i, hia⟩
    rw [hE] at h0 ⊢
    rw [hJ]
    exact hstar ⟨i, hia⟩ hi' h0

/-- C110: from raw particles to labels with the compiled backend.  The potential is computed in single
precision and the rest in doubles; when the exact choices are clear by the margin, the circularities and
the labels follow exact arithmetic. -/
theorem C110_fortran {dt1 : List (Float32' × Float32') → Float32'} (hdt1 : ∀ l, Fused l (dt1 l))
    {G : Float32'} {g : ℚ} {b : BGalaxy Float64} {e : Float64} (h : SingleData G g b e)
    (hs : SingleInput b e) {M J θ δ : ℝ} (hr : GravResolved g b e M J θ) (hθ : θ ≤ 1 / 4)
    (hδ : 3 * θ + 1 / 2 ^ 49 ≤ δ)
    (hc : Clear (gravBound g b e) (fun i => gravE g b e i / M) (fun i => gravJz b i / J) defaultEdges δ)
    (mem : Nat → Nat → Float32') (mem' : Nat → Nat → Ext ℝ) (env : CircEnv Float64) (henv : env.OK)
    (env' : CircEnv (Ext ℝ)) (henv' : env'.OK) :
    ∃ b1 b1', @potential _ _ _ (singleDotBy dt1) (singleEnv G true mem) (Galaxy.ofBodies b) "fortran" = .ok b1 ∧
      potential (exactEnv (g : ℝ) mem') (Galaxy.ofBodies (exactGalaxy b)) "fortran" = .ok b1' ∧
      Agrees g b e M J δ env env' b1 b1' := by
  obtain ⟨p, hpot, hp⟩ := C77_relative_error hdt1 h mem
  have hex := exact_sum h hs mem'
  rw [exact_withPot g b e p] at hex
  exact ⟨_, _, hpot, hex, pipeline_agrees h hs hr hθ hδ hc hp env henv env' henv'⟩

/-- C110: the same with the numpy backend, for every order of the additions, if the memory that
`np.divide` leaves on the diagonal happens to hold zeros. -/
theorem C110_numpy (sm : List Float32' → Float32') (hsm : ∀ l, Added l (sm l)) {G : Float32'} {g : ℚ}
    {b : BGalaxy Float64} {e : Float64} (h : SingleData G g b e)
    (hs : SingleInput b e) {M J θ δ : ℝ} (hr : GravResolved g b e M J θ) (hθ : θ ≤ 1 / 4)
    (hδ : 3 * θ + 1 / 2 ^ 49 ≤ δ)
    (hc : Clear (gravBound g b e) (fun i => gravE g b e i / M) (fun i => gravJz b i / J) defaultEdges δ)
    (built : Bool) (mem : Nat → Nat → Float32') (hmem : ∀ i < b.all.length, toExt (mem i i) = .fin 0)
    (mem' : Nat → Nat → Ext ℝ) (env : CircEnv Float64) (henv : env.OK)
    (env' : CircEnv (Ext ℝ)) (henv' : env'.OK) :
    ∃ b1 b1', @potential _ _ _ (singleSumBy sm) (singleEnv G built mem) (Galaxy.ofBodies b) "numpy" = .ok b1 ∧
      potential (exactEnv (g : ℝ) mem') (Galaxy.ofBodies (exactGalaxy b)) "fortran" = .ok b1' ∧
      Agrees g b e M J δ env env' b1 b1' := by
  obtain ⟨p, hpot, hp⟩ := C83_numpy sm hsm h built mem (fun _ => 0) fun i hi => ⟨hmem i hi, Or.inl rfl⟩
  have hp : PotNear g b e p := by
    intro i
    obtain ⟨v, e1, e2⟩ := hp i
    exact ⟨v, e1, by simpa using e2⟩
  have hex := exact_sum h hs mem'
  rw [exact_withPot g b e p] at hex
  exact ⟨_, _, hpot, hex, pipeline_agrees h hs hr hθ hδ hc hp env henv env' henv'⟩

/-! ## An example -/

/-- a star without mass at distance `r` on the x axis, with velocity `v` along y -/
def exTestStar (r v : ℚ) : Body Float64 :=
  ⟨Num.ofRat 0, Num.ofRat r, Num.ofRat 0, Num.ofRat 0, Num.ofRat 0, Num.ofRat v, Num.ofRat 0, Num.ofRat 0⟩

/-- a heavy particle in the origin, moving along z -/
def exCentre : Body Float64 :=
  ⟨Num.ofRat (2 ^ 17), Num.ofRat 0, Num.ofRat 0, Num.ofRat 0, Num.ofRat 0, Num.ofRat 0, Num.ofRat 8, Num.ofRat 0⟩

/-- six stars around a heavy particle, without potential -/
def exSystem : BGalaxy Float64 where
  stars := [exTestStar 1 0, exTestStar (5/4) (91/128), exTestStar (3/2) (1/2), exTestStar 3 (-3/8), exTestStar (15/8) (1/8),
    exTestStar 2 (255/256)]
  dm := [exCentre]
  gas := []
  hasPot := false
  softS := Num.ofRat 0
  softDm := Num.ofRat 0
  softG := Num.ofRat 0

/-- the gravitational constant of the example -/
def exGrav : ℚ := 1 / 2 ^ 17

theorem exSystem_data : SingleData (Num.ofRat (1 / 2 ^ 17) : Float32') exGrav exSystem (Num.ofRat 0) where
  noPot := rfl
  gval := by decide +kernel
  grange := by decide +kernel
  soft := by unfold LargestSoftening; decide +kernel
  size := by decide +kernel
  pos := by unfold Moderate; decide +kernel
  mass := by unfold Moderate; decide +kernel
  softRange := by unfold Moderate; decide +kernel
  sep := by decide +kernel

theorem exSystem_input : SingleInput exSystem (Num.ofRat 0) where
  pos := by unfold IsSingle; decide +kernel
  mass := by unfold IsSingle; decide +kernel
  soft := by unfold IsSingle; decide +kernel
  vel := by unfold Within; decide +kernel

/-- minus the potential of a particle of the example: `1 / x` for a star -/
def exU (a : Body Float64) : ℚ := if value a.m = 0 then 1 / value a.x else 0

def exK (a : Body Float64) : ℚ := (value a.vx ^ 2 + value a.vy ^ 2 + value a.vz ^ 2) / 2

theorem exSystem_pull (a : Body Float64) (ha : a ∈ exSystem.all) :
    (exGrav : ℝ) * pullSum exSystem.all (Num.ofRat 0) a = exU a := by
  have hstar : ∀ c ∈ exSystem.stars, sv c.m = 0 ∧ value c.m = 0 ∧ sv c.x = value c.x ∧ 0 < value c.x ∧
      sv c.y = 0 ∧ sv c.z = 0 := by decide +kernel
  have hheavy : sv exCentre.m = 2 ^ 17 ∧ value exCentre.m = 2 ^ 17 ∧ sv exCentre.x = 0 ∧ sv exCentre.y = 0 ∧
      sv exCentre.z = 0 := by decide +kernel
  have he : sv (Num.ofRat 0) = 0 := by decide +kernel
  have hall : exSystem.all = exSystem.stars ++ [exCentre] := rfl
  have hsum : pullSum exSystem.all (Num.ofRat 0) a
      = pairPull (Num.ofRat 0) a exCentre - pairPull (Num.ofRat 0) a a := by
    unfold pullSum
    congr 1
    have h1 := Fin.sum_univ_fun_getElem exSystem.all fun c => pairPull (Num.ofRat 0) a c
    refine h1.trans ?_
    rw [hall, List.map_append, List.sum_append]
    have h2 : (exSystem.stars.map fun c => pairPull (Num.ofRat 0) a c) = exSystem.stars.map fun _ => 0 := by
      apply List.map_congr_left
      intro c hc
      unfold pairPull
      rw [(hstar c hc).1]
      simp
    rw [h2]
    simp
  rw [hsum]
  rw [hall, List.mem_append, List.mem_singleton] at ha
  rcases ha with ha | rfl
  · obtain ⟨s1, s2, s3, s4, s5, s6⟩ := hstar a ha
    obtain ⟨t1, t2, t3, t4, t5⟩ := hheavy
    unfold pairPull exU
    rw [s1, s3, s5, s6, t1, t3, t4, t5, he, if_pos s2]
    have s4' : (0 : ℝ) < value a.x := by exact_mod_cast s4
    simp only [Rat.cast_zero, sub_zero, zero_div]
    have : (value a.x : ℝ) ^ 2 + 0 ^ 2 + 0 ^ 2 + 0 ^ 2 = (value a.x : ℝ) ^ 2 := by ring
    rw [this, Real.sqrt_sq s4'.le]
    unfold exGrav
    push_cast
    field_simp
  · have : value exCentre.m ≠ 0 := by rw [hheavy.2.1]; norm_num
    simp [exU, this]

theorem exSystem_E (i : Fin exSystem.all.length) : gravE exGrav exSystem (Num.ofRat 0) i
    = ((exK exSystem.all[i] - exU exSystem.all[i] : ℚ) : ℝ) := by
  unfold gravE
  rw [singleSum_eq, exSystem_pull exSystem.all[i] (List.getElem_mem i.2)]
  unfold exactKinetic exK
  push_cast
  ring

theorem exSystem_Err (i : Fin exSystem.all.length) : gravErr exGrav exSystem (Num.ofRat 0) i
    = ((13 / 2 ^ 23 * exU exSystem.all[i] + (exK exSystem.all[i] + 2 * exU exSystem.all[i]) * (7 / 2 ^ 53) + 8 * tiny : ℚ)
      : ℝ) := by
  unfold gravErr
  have hn : ((exSystem.all.length : ℕ) : ℝ) + 6 = 13 := by
    rw [show exSystem.all.length = 7 from rfl]; norm_num
  rw [singleSum_eq, exSystem_pull exSystem.all[i] (List.getElem_mem i.2), hn]
  unfold exactKinetic exK
  push_cast
  ring

theorem exSystem_Jz (i : Fin exSystem.all.length) : gravJz exSystem i = (jzQ exSystem.all[i] : ℝ) := trueJz_Q _

theorem exSystem_errJz (i : Fin exSystem.all.length) : errJz exSystem.all[i]
    = (((|value exSystem.all[i].x * value exSystem.all[i].vy| + |value exSystem.all[i].y * value exSystem.all[i].vx|) / 2 ^ 51
      + 4 * tiny : ℚ) : ℝ) := by
  unfold errJz
  push_cast
  ring

theorem exSystem_resolved : GravResolved exGrav exSystem (Num.ofRat 0) 1 ((255 / 128 : ℚ) : ℝ) ((1 / 2 ^ 18 : ℚ) : ℝ) where
  sign i := by
    rw [exSystem_E, exSystem_Err, ← Rat.cast_abs, Rat.cast_lt]
    revert i; decide +kernel
  M_pos := by norm_num
  M_le i := by
    rw [exSystem_E, show (-1 : ℝ) = ((-1 : ℚ) : ℝ) by norm_num, Rat.cast_le]
    revert i; decide +kernel
  M_eq := ⟨⟨0, by decide⟩, by
    rw [exSystem_E, show (-1 : ℝ) = ((-1 : ℚ) : ℝ) by norm_num, Rat.cast_inj]
    decide +kernel⟩
  J_pos := by norm_num
  J_le i := by
    rw [exSystem_E, exSystem_Jz, ← Rat.cast_abs, Rat.cast_le, show (0 : ℝ) = ((0 : ℚ) : ℝ) by norm_num, Rat.cast_lt]
    revert i; decide +kernel
  J_eq := ⟨⟨5, by decide⟩, by
    rw [exSystem_E, exSystem_Jz, ← Rat.cast_abs, Rat.cast_inj, show (0 : ℝ) = ((0 : ℚ) : ℝ) by norm_num, Rat.cast_lt]
    decide +kernel⟩
  E i := by
    rw [exSystem_E, exSystem_Err, mul_one, Rat.cast_le, show (0 : ℝ) = ((0 : ℚ) : ℝ) by norm_num, Rat.cast_lt]
    revert i; decide +kernel
  Jz i := by
    rw [exSystem_E, exSystem_errJz, ← Rat.cast_mul, Rat.cast_le, show (0 : ℝ) = ((0 : ℚ) : ℝ) by norm_num, Rat.cast_lt]
    revert i; decide +kernel

theorem exSystem_clear : Clear (gravBound exGrav exSystem (Num.ofRat 0))
    (fun i => gravE exGrav exSystem (Num.ofRat 0) i / 1) (fun i => gravJz exSystem i / ((255 / 128 : ℚ) : ℝ)) defaultEdges
    ((1 / 2 ^ 16 : ℚ) : ℝ) := by
  have hb : gravBound exGrav exSystem (Num.ofRat 0) = (List.finRange exSystem.all.length).filter fun i =>
      decide (exK exSystem.all[i] - exU exSystem.all[i] < 0) := by
    unfold gravBound
    apply List.filter_congr
    intro i _
    rw [exSystem_E, Bool.eq_iff_iff, decide_eq_true_eq, decide_eq_true_eq]
    exact Rat.cast_lt_zero
  rw [hb, defaultEdges_eq]
  exact clear_of_Q (Eq := fun i : Fin exSystem.all.length => exK exSystem.all[i] - exU exSystem.all[i])
    (Jq := fun i : Fin exSystem.all.length => jzQ exSystem.all[i] / (255 / 128))
    (fun i => by rw [div_one, exSystem_E])
    (fun i => by rw [exSystem_Jz]; push_cast; ring) (by decide +kernel)

/-- the particles of the example by their position -/
def exI (i : Fin 7) : Fin exSystem.all.length := i

theorem exVals : gravE exGrav exSystem (Num.ofRat 0) (exI 0) = -1 ∧
    gravE exGrav exSystem (Num.ofRat 0) (exI 1) = -89667 / 163840 ∧
    gravE exGrav exSystem (Num.ofRat 0) (exI 2) = -13 / 24 ∧
    gravE exGrav exSystem (Num.ofRat 0) (exI 3) = -101 / 384 ∧
    gravE exGrav exSystem (Num.ofRat 0) (exI 4) = -1009 / 1920 ∧
    gravE exGrav exSystem (Num.ofRat 0) (exI 5) = -511 / 131072 := by
  have h : ∀ (i : Fin 7) (q : ℚ), exK exSystem.all[exI i] - exU exSystem.all[exI i] = q →
      gravE exGrav exSystem (Num.ofRat 0) (exI i) = (q : ℝ) := fun i q hq => by rw [exSystem_E, hq]
  have h0 := h 0 (-1) (by decide +kernel)
  have h1 := h 1 (-89667 / 163840) (by decide +kernel)
  have h2 := h 2 (-13 / 24) (by decide +kernel)
  have h3 := h 3 (-101 / 384) (by decide +kernel)
  have h4 := h 4 (-1009 / 1920) (by decide +kernel)
  have h5 := h 5 (-511 / 131072) (by decide +kernel)
  rw [h0, h1, h2, h3, h4, h5]
  norm_num

theorem exVals' : gravJz exSystem (exI 0) / ((255 / 128 : ℚ) : ℝ) = 0 ∧
    gravJz exSystem (exI 1) / ((255 / 128 : ℚ) : ℝ) = 91 / 204 ∧
    gravJz exSystem (exI 2) / ((255 / 128 : ℚ) : ℝ) = 32 / 85 ∧
    gravJz exSystem (exI 3) / ((255 / 128 : ℚ) : ℝ) = -48 / 85 ∧
    gravJz exSystem (exI 4) / ((255 / 128 : ℚ) : ℝ) = 2 / 17 ∧
    gravJz exSystem (exI 5) / ((255 / 128 : ℚ) : ℝ) = 1 := by
  have h : ∀ (i : Fin 7) (q : ℚ), jzQ exSystem.all[exI i] = q →
      gravJz exSystem (exI i) = (q : ℝ) := fun i q hq => by rw [exSystem_Jz, hq]
  have h0 := h 0 0 (by decide +kernel)
  have h1 := h 1 (455 / 512) (by decide +kernel)
  have h2 := h 2 (3 / 4) (by decide +kernel)
  have h3 := h 3 (-9 / 8) (by decide +kernel)
  have h4 := h 4 (15 / 64) (by decide +kernel)
  have h5 := h 5 (255 / 128) (by decide +kernel)
  rw [h0, h1, h2, h3, h4, h5]
  norm_num

theorem exCases : ∀ i : Fin exSystem.all.length, (i : Nat) < exSystem.stars.length →
    i = exI 0 ∨ i = exI 1 ∨ i = exI 2 ∨ i = exI 3 ∨ i = exI 4 ∨ i = exI 5 := by decide +kernel

/-- the corners of the example: the first, third, fourth and sixth star -/
def exTable : List (Fin exSystem.all.length) := [exI 0, exI 2, exI 3, exI 5]

/-- the first run: potential and jcirc -/
def exSystemRun : Option (JCirc Float64) :=
  (potential (singleEnv (Num.ofRat (1 / 2 ^ 17)) true fun _ _ => Num.ofRat 0) (Galaxy.ofBodies exSystem)
    "fortran").toOption.bind fun b1 =>
      (jcirc (sortEnv (F := Float64)) b1 defaultCbin.1 defaultCbin.2).toOption

theorem exSystemRun_table : (exSystemRun.map fun j => decide (j.x.length = exTable.length) &&
    (List.finRange exSystem.all.length).all fun i => (j.x.zip exTable).all fun p =>
      !decide (|value p.1 - (exK exSystem.all[i] - exU exSystem.all[i])| ≤ 1 / 2 ^ 16) || decide (i = p.2)) = some true := by
  decide +kernel

theorem exSystemRun_labels : ((potential (singleEnv (Num.ofRat (1 / 2 ^ 17)) true fun _ _ => Num.ofRat 0)
    (Galaxy.ofBodies exSystem) "fortran").toOption.bind fun b1 =>
      (decompose sortEnv defaultCbin (jThreshold (fun _ => 9) (Num.ofRat (1/2))) b1).toOption.map
        Components.labels) = some [none, none, some 1, some 0, some 0, some 1, none] := by
  decide +kernel

/-- exact arithmetic finds the corners of `exTable` -/
theorem exSystem_tables {b1 : Galaxy Float64} {b1' : Galaxy (Ext ℝ)}
    (hp : potential (singleEnv (Num.ofRat (1 / 2 ^ 17)) true fun _ _ => Num.ofRat 0) (Galaxy.ofBodies exSystem)
      "fortran" = .ok b1)
    (hag : Agrees exGrav exSystem (Num.ofRat 0) 1 ((255 / 128 : ℚ) : ℝ) ((1 / 2 ^ 16 : ℚ) : ℝ) sortEnv sortEnv
      b1 b1') :
    ∃ j', jcirc sortEnv b1' defaultCbin.1 defaultCbin.2 = .ok j' ∧
      j'.x = ([-1, -13/24, -101/384, -511/131072] : List ℝ).map .fin ∧
      j'.y = ([0, 32/85, 48/85, 1] : List ℝ).map .fin := by
  have htab := exSystemRun_table
  unfold exSystemRun at htab
  rw [hp] at htab
  simp only [Except.toOption, Option.bind_some] at htab
  cases hj : jcirc (sortEnv (F := Float64)) b1 defaultCbin.1 defaultCbin.2 with
  | error e => rw [hj] at htab; cases htab
  | ok j =>
  rw [hj] at htab
  simp only [Option.map_some, Option.some.injEq, Bool.and_eq_true, decide_eq_true_eq,
    List.all_eq_true, Bool.or_eq_true, Bool.not_eq_true', decide_eq_false_iff_not] at htab
  obtain ⟨hlen, htab⟩ := htab
  obtain ⟨j', hj'⟩ := hag.succeeds.1 ⟨j, hj⟩
  obtain ⟨C, hC, hx, hy, hxl, -, hxn, -⟩ := hag.profile j j' hj hj'
  have hCe : C = exTable := by
    apply List.ext_getElem?
    intro k
    cases ha : C[k]? with
    | none =>
      symm
      rw [List.getElem?_eq_none_iff, ← hlen, hxl]
      exact List.getElem?_eq_none_iff.1 ha
    | some i =>
      have hk : k < C.length := (List.getElem?_eq_some_iff.1 ha).1
      have hk1 : k < j.x.length := by rw [hxl]; exact hk
      have hk2 : k < exTable.length := by rw [← hlen]; exact hk1
      have hn := (hxn k _ i (List.getElem?_eq_getElem hk1) ha).2
      rw [div_one, exSystem_E, ← Rat.cast_sub, ← Rat.cast_abs, Rat.cast_le] at hn
      have hm : (j.x[k], exTable[k]) ∈ j.x.zip exTable := List.mem_of_getElem? (i := k)
        (List.getElem?_zip_eq_some.2 ⟨List.getElem?_eq_getElem hk1, List.getElem?_eq_getElem hk2⟩)
      rcases htab i (List.mem_finRange i) _ hm with h | h
      · exact absurd hn h
      · rw [List.getElem?_eq_getElem hk2, h]
  subst hCe
  obtain ⟨E0, E1, E2, E3, E4, E5⟩ := exVals
  obtain ⟨J0, J1, J2, J3, J4, J5⟩ := exVals'
  have hxs : (exTable.map fun i => gravE exGrav exSystem (Num.ofRat 0) i / 1)
      = [-1, -13/24, -101/384, -511/131072] := by
    simp only [exTable, List.map_cons, List.map_nil, div_one, E0, E2, E3, E5]
  have hys : (exTable.map fun i => |gravJz exSystem i / ((255 / 128 : ℚ) : ℝ)|) = [0, 32/85, 48/85, 1] := by
    simp only [exTable, List.map_cons, List.map_nil, J0, J2, J3, J5]
    rw [show |(-48 / 85 : ℝ)| = 48 / 85 by rw [abs_of_neg] <;> norm_num]
    norm_num
  exact ⟨j', hj', by rw [← hxs, hx, List.map_map]; rfl, by rw [← hys, hy, List.map_map]; rfl⟩

theorem exSystem_gaps :
    ([-1, -13/24, -101/384, -511/131072] : List ℝ).Pairwise fun u v => 1 / 4 ≤ v - u := by
  simp only [List.pairwise_cons, List.mem_cons, List.not_mem_nil,
    or_false, forall_eq_or_imp, forall_eq, false_implies, implies_true, List.Pairwise.nil, and_true]
  norm_num

/-- C110: the example satisfies the hypotheses, so the labels that single and double precision give are
those of exact arithmetic: the first star has no angular momentum, the second is above the circular
orbit, the fourth moves backwards on a circular orbit, the fifth is in the spheroid, and the others are
circular orbits. -/
theorem C110_example : ∃ b1 b1' c c',
    potential (singleEnv (Num.ofRat (1 / 2 ^ 17)) true fun _ _ => Num.ofRat 0) (Galaxy.ofBodies exSystem)
      "fortran" = .ok b1 ∧
    potential (exactEnv (1 / 2 ^ 17 : ℝ) fun _ _ => .fin 0) (Galaxy.ofBodies (exactGalaxy exSystem)) "fortran"
      = .ok b1' ∧
    decompose sortEnv defaultCbin (jThreshold (fun _ => 9) (Num.ofRat (1/2))) b1 = .ok c ∧
    decompose sortEnv defaultCbin (jThreshold (fun _ => 9) (.fin (1/2))) b1' = .ok c' ∧
    c'.labels = [none, none, some 1, some 0, some 0, some 1, none] ∧ c.labels = c'.labels := by
  have δ49 : 3 * ((1 / 2 ^ 18 : ℚ) : ℝ) + 1 / 2 ^ 49 ≤ ((1 / 2 ^ 16 : ℚ) : ℝ) := by norm_num
  have θ4 : ((1 / 2 ^ 18 : ℚ) : ℝ) ≤ 1 / 4 := by norm_num
  obtain ⟨b1, b1', hp, hp', hag⟩ := C110_fortran (dt1 := Num.dot) fused_leftFold exSystem_data exSystem_input exSystem_resolved θ4 δ49 exSystem_clear
    (fun _ _ => Num.ofRat 0) (fun _ _ => .fin 0) sortEnv sortEnv_ok sortEnv sortEnv_ok
  have hlabels := exSystemRun_labels
  rw [hp] at hlabels
  simp only [Except.toOption, Option.bind_some] at hlabels
  obtain ⟨j', hj', hx, hy⟩ := exSystem_tables hp hag
  have hcut : value (Num.ofRat (1/2) : Float64) = 1 / 2 := by decide +kernel
  have fcut : Num.isFinite (Num.ofRat (1/2) : Float64) = true := by decide +kernel
  obtain ⟨E0, E1, E2, E3, E4, E5⟩ := exVals
  obtain ⟨J0, J1, J2, J3, J4, J5⟩ := exVals'
  have hsort := exSystem_gaps
  have hsort' := hsort.imp fun {u v} (h : (1 / 4 : ℝ) ≤ v - u) => (by linarith : u < v)
  have B : 2 * ((1 / 2 ^ 16 : ℚ) : ℝ) + 2 * ((1 / 2 ^ 16 : ℚ) : ℝ) / (1 / 4) < 1 / 1000 := by norm_num
  obtain ⟨c, c', hc, hc', hlab, -⟩ := hag.labels j' hj' [-1, -13/24, -101/384, -511/131072]
    [0, 32/85, 48/85, 1] (1 / 4) hx hy
    (by norm_num) hsort (fun _ => 9) (fun _ => 9) (Num.ofRat (1/2)) fcut (by
      intro i hi _
      generalize 2 * ((1 / 2 ^ 16 : ℚ) : ℝ) + 2 * ((1 / 2 ^ 16 : ℚ) : ℝ) / (1 / 4) = B' at B ⊢
      rw [hcut]
      rcases exCases i hi with rfl | rfl | rfl | rfl | rfl | rfl
      · left; rw [E0, J0]; norm_num
      · right
        intro P hP
        rw [E1, div_one] at hP
        obtain ⟨p1, p2⟩ := polygon_between hsort' (k := 0) (y0 := 0) (y1 := 32 / 85) rfl rfl
          rfl rfl (by norm_num) (by norm_num) (by norm_num) hP
        push_cast
        push_cast at J1
        rw [J1, abs_of_pos (show (0 : ℝ) < 91 / 204 by norm_num), abs_of_pos (by linarith),
          abs_of_pos (by linarith)]
        exact ⟨by linarith, by linarith⟩
      · left; rw [E2, J2]; norm_num
      · left; rw [E3, J3]; norm_num
      · right
        intro P hP
        rw [E4, div_one] at hP
        obtain ⟨p1, p2⟩ := polygon_between hsort' (k := 1) (y0 := 32 / 85) (y1 := 48 / 85) rfl rfl
          rfl rfl (by norm_num) (by norm_num) (by norm_num) hP
        push_cast
        push_cast at J4
        rw [J4, abs_of_pos (show (0 : ℝ) < 2 / 17 by norm_num), abs_of_neg (by linarith),
          abs_of_neg (by linarith)]
        exact ⟨by linarith, by linarith⟩
      · left; rw [E5, J5]; norm_num)
  refine ⟨b1, b1', c, c', hp, ?_, hc, ?_, ?_, hlab⟩
  · rw [← hp']
    congr 2
    unfold exGrav
    push_cast
    rfl
  · rw [hcut] at hc'
    push_cast at hc'
    exact hc'
  · rw [← hlab]
    rw [hc] at hlabels
    exact Option.some.inj hlabels

end GChop
