import Verif.Lemmas.CircExact
import Verif.Props.Circ

/-!
# Properties C25, C28, C29, C30 of `jcirc`

Exact arithmetic: finite numbers are elements of an ordered field, the special values are IEEE's.
-/

set_option linter.unusedSectionVars false

namespace GChop
open Ext Matrix

variable {K : Type} [Field K] [LinearOrder K] [IsStrictOrderedRing K] [FloorRing K] [HasSqrt K]

/-! ## C28 -/

/-- a change of units: positions by `a`, velocities by `b`, potential by `b²` -/
def KBody.rescale (a b : K) (k : KBody K) : KBody K :=
  { k with r := a • k.r, v := b • k.v, pot := fin (b * b) *. k.pot }

/-- rotation about the z axis by the angle with cosine `c` and sine `s` -/
def rotZ (c s : K) : Matrix (Fin 3) (Fin 3) K := !![c, -s, 0; s, c, 0; 0, 0, 1]

theorem body_energy (k : KBody K) :
    k.body.energy = fin (((1/2 : ℚ) : K) * (k.v 0 * k.v 0 + k.v 1 * k.v 1 + k.v 2 * k.v 2)) +. k.pot := by
  simp [Body.energy, Body.kinetic, KBody.body]

theorem body_jr (k : KBody K) :
    k.body.jr = fin (HasSqrt.ksqrt (k.L 0 * k.L 0 + k.L 1 * k.L 1)) := by
  unfold Body.jr
  rw [body_jx, body_jy, num_sq, num_sq, num_add, num_sqrt]
  linarith [mul_self_nonneg (k.L 0), mul_self_nonneg (k.L 1)]

theorem ksqrt_scale [LawfulSqrt K] {d q : K} (hd : 0 < d) (hq : 0 ≤ q) :
    HasSqrt.ksqrt (d * d * q) = d * HasSqrt.ksqrt q := by
  have h1 := LawfulSqrt.sqrt_mul_self q hq
  have h2 := LawfulSqrt.sqrt_nonneg q
  have : d * d * q = (d * HasSqrt.ksqrt q) * (d * HasSqrt.ksqrt q) := by
    linear_combination (-(d * d)) * h1
  rw [this]
  exact ksqrt_mul_self (mul_nonneg hd.le h2)

theorem toB_mem {g : KGalaxy K} {a : Body (Ext K)} (h : a ∈ g.toB.all) : ∃ k ∈ g.all, a = k.body := by
  simp only [KGalaxy.toB, BGalaxy.all, List.mem_append, List.mem_map] at h
  unfold KGalaxy.all
  rcases h with (⟨k, h, rfl⟩ | ⟨k, h, rfl⟩) | ⟨k, h, rfl⟩ <;> exact ⟨k, by simp [h], rfl⟩

theorem jcirc_map_scale (env : CircEnv (Ext K)) (g : KGalaxy K) (f : KBody K → KBody K) {c d : K}
    (hc : 0 < c) (hd : 0 < d) (he : ∀ k : KBody K, (f k).body.energy = scale c k.body.energy)
    (hz : ∀ k : KBody K, (f k).body.jz = scale d k.body.jz)
    (hr : ∀ k : KBody K, (f k).body.jr = scale d k.body.jr) (bin0 bin1 : Ext K) :
    jcirc env (Galaxy.ofBodies (g.map f).toB) bin0 bin1 =
      jcirc env (Galaxy.ofBodies g.toB) bin0 bin1 := by
  classical
  -- a function on records that does what `f` does on the records of vectors
  let back (a : Body (Ext K)) : KBody K :=
    let u : Ext K → K := fun x => match x with | .fin t => t | _ => 0
    ⟨u a.m, ![u a.x, u a.y, u a.z], ![u a.vx, u a.vy, u a.vz], a.pot⟩
  have hback : ∀ k : KBody K, back k.body = k := by
    intro k
    cases k with
    | mk m r v p =>
      simp only [back, KBody.body]
      congr 1
      · funext i; fin_cases i <;> rfl
      · funext i; fin_cases i <;> rfl
  have hmap : (g.map f).toB = g.toB.mapBodies fun a => (f (back a)).body :=
    (toB_map (f := fun a => (f (back a)).body) (h := f) (fun k => by rw [hback]) g).symm
  rw [hmap]
  apply jcirc_scale env g.toB _ hc hd
  · intro a ha
    obtain ⟨k, _, rfl⟩ := toB_mem ha
    rw [hback, he]
  · intro a ha
    obtain ⟨k, _, rfl⟩ := toB_mem ha
    rw [hback, hz]
  · intro a ha
    obtain ⟨k, _, rfl⟩ := toB_mem ha
    rw [hback, hr]

/-- C28: a change of units does not change any output of `jcirc` (nor whether it raises). -/
theorem C28_units [LawfulSqrt K] (env : CircEnv (Ext K)) (g : KGalaxy K) {a b : K} (ha : 0 < a)
    (hb : 0 < b) (bin0 bin1 : Ext K) :
    jcirc env (Galaxy.ofBodies (g.map (KBody.rescale a b)).toB) bin0 bin1 =
      jcirc env (Galaxy.ofBodies g.toB) bin0 bin1 := by
  have hL : ∀ (k : KBody K) (i : Fin 3), (k.rescale a b).L i = a * b * k.L i := by
    intro k i
    unfold KBody.L KBody.rescale
    fin_cases i <;> simp [cross_apply] <;> ring
  apply jcirc_map_scale env g _ (mul_pos hb hb) (mul_pos ha hb)
  · intro k
    rw [body_energy, body_energy]
    have hbb := mul_pos hb hb
    show _ +. scale (b * b) k.pot = _
    cases k.pot with
    | fin p => simp [KBody.rescale]; ring
    | pinf => rw [scale_pinf hbb]; exact (scale_pinf hbb).symm
    | ninf => rw [scale_ninf hbb]; exact (scale_ninf hbb).symm
    | nan => rfl
  · intro k
    rw [body_jz, body_jz, hL]; rfl
  · intro k
    rw [body_jr, body_jr, hL, hL, scale_fin, ← ksqrt_scale (mul_pos ha hb)
      (by linarith [mul_self_nonneg (k.L 0), mul_self_nonneg (k.L 1)])]
    congr 2
    ring

/-- C28: rotating the galaxy about the z axis does not change any output of `jcirc`. -/
theorem C28_rotation (env : CircEnv (Ext K)) (g : KGalaxy K) {c s : K} (h : c * c + s * s = 1)
    (bin0 bin1 : Ext K) :
    jcirc env (Galaxy.ofBodies (g.rotate (rotZ c s)).toB) bin0 bin1 =
      jcirc env (Galaxy.ofBodies g.toB) bin0 bin1 := by
  have hv : ∀ (u : Fin 3 → K), (rotZ c s *ᵥ u) = ![c * u 0 - s * u 1, s * u 0 + c * u 1, u 2] := by
    intro u
    funext i
    fin_cases i <;> simp [rotZ, mulVec, dotProduct, Fin.sum_univ_three]
    ring
  have h1 : ∀ x : Ext K, scale 1 x = x := by
    intro x
    cases x with
    | fin x => simp
    | pinf => exact scale_pinf one_pos
    | ninf => exact scale_ninf one_pos
    | nan => rfl
  apply jcirc_map_scale env g _ (c := 1) (d := 1) one_pos one_pos
  · intro k
    rw [h1, body_energy, body_energy]
    simp only [KBody.rotate, hv]
    congr 3
    simp
    linear_combination (k.v 0 * k.v 0 + k.v 1 * k.v 1) * h
  · intro k
    rw [h1, body_jz, body_jz]
    simp only [KBody.rotate, KBody.L, hv]
    congr 1
    simp [cross_apply]
    linear_combination (k.r 0 * k.v 1 - k.r 1 * k.v 0) * h
  · intro k
    rw [h1, body_jr, body_jr]
    congr 2
    simp only [KBody.rotate, KBody.L, hv]
    simp [cross_apply]
    linear_combination ((k.r 1 * k.v 2 - k.r 2 * k.v 1) * (k.r 1 * k.v 2 - k.r 2 * k.v 1)
      + (k.r 2 * k.v 0 - k.r 0 * k.v 2) * (k.r 2 * k.v 0 - k.r 0 * k.v 2)) * h

/-! ## The profile with finite numbers -/

theorem bound_fin {x : Ext K} (h : isBound x = true) : ∃ k : K, x = fin k ∧ k ≤ 0 := by
  cases x with
  | fin k =>
    refine ⟨k, rfl, ?_⟩
    unfold isBound at h
    rw [Bool.and_eq_true] at h
    simpa using h.1
  | pinf => cases h
  | ninf => cases h
  | nan => cases h

/-- the normalisations of a galaxy with finite data -/
structure CircFin (g : KGalaxy K) (n : CircNorm (Ext K)) (m J R : K) : Prop where
  eMin : n.eMin = fin m
  jzMax : n.jzMax = fin J
  jrMax : n.jrMax = fin R
  neg : m ≤ 0
  min : ∀ k ∈ g.all, ∀ e, k.body.energy = fin e → e ≤ 0 → m ≤ e
  jz : ∀ k ∈ g.all, isBound k.body.energy = true → |k.L 2| ≤ J
  jzEx : ∃ k ∈ g.all, isBound k.body.energy = true ∧ |k.L 2| = J
  jr : ∀ k ∈ g.all, isBound k.body.energy = true →
    |HasSqrt.ksqrt (k.L 0 * k.L 0 + k.L 1 * k.L 1)| ≤ R

theorem toB_bound {g : KGalaxy K} {a : Body (Ext K)} :
    a ∈ g.toB.bound ↔ ∃ k ∈ g.all, a = k.body ∧ isBound k.body.energy = true := by
  unfold BGalaxy.bound
  rw [List.mem_filter]
  constructor
  · rintro ⟨h1, h2⟩
    obtain ⟨k, hk, rfl⟩ := toB_mem h1
    exact ⟨k, hk, rfl, h2⟩
  · rintro ⟨k, hk, rfl, h2⟩
    refine ⟨?_, h2⟩
    simp only [KGalaxy.toB, BGalaxy.all, List.mem_append, List.mem_map]
    unfold KGalaxy.all at hk
    simp only [List.mem_append] at hk
    rcases hk with (h | h) | h
    · exact Or.inl (Or.inl ⟨k, h, rfl⟩)
    · exact Or.inl (Or.inr ⟨k, h, rfl⟩)
    · exact Or.inr ⟨k, h, rfl⟩

theorem circFin {env : CircEnv (Ext K)} {g : KGalaxy K} {bin0 bin1 : Ext K} {n : CircNorm (Ext K)}
    (h : circNorm env g.toB bin0 bin1 = .ok n) : ∃ m J R, CircFin g n m J R := by
  obtain ⟨_, h1, h2, h3, _⟩ := circNorm_inv h
  obtain ⟨⟨a1, ha1, e1⟩, f1⟩ := isMinOf_amin h1 (by
    intro a ha
    obtain ⟨k, _, rfl, hb⟩ := toB_bound.1 ha
    obtain ⟨x, hx, _⟩ := bound_fin hb
    rw [hx]; rfl)
  obtain ⟨⟨a2, ha2, e2⟩, f2⟩ := isMaxOf_amax h2 (by
    intro a ha
    obtain ⟨k, _, rfl, hb⟩ := toB_bound.1 ha
    rw [body_jz]; rfl)
  obtain ⟨⟨a3, ha3, e3⟩, f3⟩ := isMaxOf_amax h3 (by
    intro a ha
    obtain ⟨k, _, rfl, hb⟩ := toB_bound.1 ha
    rw [body_jr]; rfl)
  obtain ⟨k1, _, rfl, hb1⟩ := toB_bound.1 ha1
  obtain ⟨k2, hk2, rfl, hb2⟩ := toB_bound.1 ha2
  obtain ⟨k3, _, rfl, hb3⟩ := toB_bound.1 ha3
  obtain ⟨m, hm, hm0⟩ := bound_fin hb1
  simp only [body_jz, num_abs] at e2
  simp only [body_jr, num_abs] at e3
  refine ⟨m, _, _, ⟨by rw [← e1, hm], e2.symm, e3.symm, hm0, ?_, ?_, ⟨k2, hk2, hb2, rfl⟩, ?_⟩⟩
  · intro k hk e he he0
    have := f1 k.body (toB_bound.2 ⟨k, hk, rfl, by
      rw [he]
      have : ((fin e : Ext K) ==. ninf) = false := rfl
      simp [isBound, he0, this]⟩)
    rw [← e1, hm, he] at this
    simpa using this
  · intro k hk hb
    have := f2 k.body (toB_bound.2 ⟨k, hk, rfl, hb⟩)
    simp only [← e2, body_jz, num_abs] at this
    simpa using this
  · intro k hk hb
    have := f3 k.body (toB_bound.2 ⟨k, hk, rfl, hb⟩)
    simp only [← e3, body_jr, num_abs] at this
    simpa using this

/-- the table of a galaxy with finite data is a table of finite numbers, increasing in `x`, with
`y` between 0 and 1 -/
theorem profile_fin {env : CircEnv (Ext K)} (henv : env.OK) {g : KGalaxy K} {b0 b1 : K} (h0 : 0 < b0)
    (h1 : 0 < b1) {n : CircNorm (Ext K)} {m J R : K}
    (h : circNorm env g.toB (fin b0) (fin b1) = .ok n) (hn : CircFin g n m J R) (hJ : 0 < J) :
    ∃ pts : List (K × K), n.pts = pts.map (fun p => (fin p.1, fin p.2)) ∧ pts ≠ [] ∧
      (pts.Pairwise fun p q => p.1 < q.1) ∧ ∀ p ∈ pts, 0 ≤ p.2 ∧ p.2 ≤ 1 := by
  obtain ⟨hne, _, _, _, aux, hbins, haux, hprof⟩ := circNorm_inv h
  obtain ⟨aux', hbins', hedges, _⟩ := energyBins_fin h0 h1
  rw [hbins] at hbins'
  cases hbins'
  have hsort := profile_sorted henv.argsort _ _ _ _ hedges _ hne hprof
  obtain ⟨i0, a0, _, hget, hhead, hmem⟩ := profile_mem henv.argsort _ _ _ _ _ hne hprof
  have hnn : n.pts ≠ [] := by
    intro hnil; rw [hnil] at hhead; cases hhead
  have hjz : ∀ a ∈ g.toB.bound, ∃ y : K, Num.abs (n.jz a) = fin y ∧ 0 ≤ y ∧ y ≤ 1 := by
    intro a ha
    obtain ⟨k, hk, rfl, hb⟩ := toB_bound.1 ha
    refine ⟨|k.L 2 / J|, ?_, abs_nonneg _, ?_⟩
    · unfold CircNorm.jz
      rw [body_jz, hn.jzMax, num_div _ _ hJ.ne', num_abs]
    · rw [abs_div, abs_of_pos hJ, div_le_one hJ]
      exact hn.jz k hk hb
  have hfin : ∀ p ∈ n.pts, ∃ q : K × K, p = (fin q.1, fin q.2) ∧ 0 ≤ q.2 ∧ q.2 ≤ 1 := by
    intro p hp
    obtain ⟨y0, hy0, hy1, hy2⟩ := hjz a0 (List.mem_of_getElem? hget)
    rcases hmem p hp with rfl | ⟨a, ha, rfl⟩
    · exact ⟨(-1, y0), by rw [hy0]; simp, hy1, hy2⟩
    · obtain ⟨y, hy, hy3, hy4⟩ := hjz a ha
      obtain ⟨k, hk, rfl, hb⟩ := toB_bound.1 ha
      obtain ⟨e, he, he0⟩ := bound_fin hb
      by_cases hm : m = 0
      · -- all energies are zero, the normalised ones NaN: such a point cannot follow the first
        exfalso
        have hee : e = 0 := le_antisymm he0 (hm ▸ hn.min k hk e he he0)
        have hnan : n.e k.body = nan := by
          unfold CircNorm.e
          rw [he, hn.eMin, hee, hm, num_abs, abs_zero, num_div_zero]
          simp [signInf]
        obtain ⟨t, ht⟩ : ∃ t, n.pts = (Num.ofRat (-1), Num.abs (n.jz a0)) :: t := by
          cases hc : n.pts with
          | nil => exact absurd hc hnn
          | cons x t => rw [hc] at hhead; cases hhead; exact ⟨t, rfl⟩
        rw [ht] at hp hsort
        rw [hnan] at hp
        rcases List.mem_cons.1 hp with hp | hp
        · cases hp
        · have := (List.pairwise_cons.1 hsort).1 _ hp
          cases this
      · refine ⟨(e / |m|, y), ?_, hy3, hy4⟩
        rw [hy]
        unfold CircNorm.e
        rw [he, hn.eMin, num_abs, num_div _ _ (abs_pos.2 hm).ne']
  have hlist : ∀ l : List (Ext K × Ext K), (∀ p ∈ l, ∃ q : K × K, p = (fin q.1, fin q.2) ∧
      0 ≤ q.2 ∧ q.2 ≤ 1) → ∃ ps : List (K × K), l = ps.map (fun p => (fin p.1, fin p.2)) ∧
        ∀ p ∈ ps, 0 ≤ p.2 ∧ p.2 ≤ 1 := by
    intro l
    induction l with
    | nil => intro _; exact ⟨[], rfl, by simp⟩
    | cons p l ih =>
      intro hl
      obtain ⟨ps, hps, hps'⟩ := ih fun q hq => hl q (List.mem_cons_of_mem _ hq)
      obtain ⟨q, hq, hq'⟩ := hl p List.mem_cons_self
      refine ⟨q :: ps, by rw [hq, hps]; rfl, ?_⟩
      intro r hr
      rcases List.mem_cons.1 hr with rfl | hr
      · exact hq'
      · exact hps' r hr
  obtain ⟨ps, hps, hy⟩ := hlist _ hfin
  refine ⟨ps, hps, ?_, ?_, hy⟩
  · rintro rfl; exact hnn hps
  · rw [hps, List.pairwise_map] at hsort
    exact hsort.imp fun h => by simpa using h

/-! ## C25 -/

/-- C25: a circularity that is not NaN is a finite number with the sign of the star's `Jz`,
and the projected circularity of that star is non-negative (or NaN, when no bound particle has
angular momentum in the plane). -/
theorem C25_sign [LawfulSqrt K] (env : CircEnv (Ext K)) (henv : env.OK) (g : KGalaxy K) (b0 b1 : K) (h0 : 0 < b0)
    (h1 : 0 < b1) (j : JCirc (Ext K))
    (h : jcirc env (Galaxy.ofBodies g.toB) (fin b0) (fin b1) = .ok j) (i : Nat) (k : KBody K)
    (hk : g.stars[i]? = some k) (e : Ext K) (he : j.eps[i]? = some e) (hnan : Num.isNaN e = false) :
    ∃ x : K, e = fin x ∧ ((0 < x ↔ 0 < k.L 2) ∧ (x < 0 ↔ k.L 2 < 0) ∧ (x = 0 ↔ k.L 2 = 0)) ∧
      ∃ r, j.epsR[i]? = some r ∧ (r = nan ∨ ∃ y : K, r = fin y ∧ 0 ≤ y) := by
  obtain ⟨_, _, n, hn, rfl⟩ := jcirc_inv h
  obtain ⟨m, J, R, hf⟩ := circFin hn
  have hk' : g.toB.stars[i]? = some k.body := by
    simp [KGalaxy.toB, hk]
  have hkall : k ∈ g.all := by
    unfold KGalaxy.all
    simp [List.mem_of_getElem? hk]
  simp only [circResult, List.getElem?_map, hk', Option.map_some, Option.some.injEq] at he ⊢
  by_cases hok : (isBound k.body.energy && keepEps (n.eps env k.body)) = true
  · rw [if_pos hok] at he ⊢
    rw [Bool.and_eq_true] at hok
    obtain ⟨hb, hkeep⟩ := hok
    have hJ0 : 0 ≤ J := le_trans (abs_nonneg _) (hf.jz k hkall hb)
    have hR0 : 0 ≤ R := le_trans (abs_nonneg _) (hf.jr k hkall hb)
    rcases hJ0.lt_or_eq with hJ | hJ
    · obtain ⟨pts, hpts, hne, hsort, hy⟩ := profile_fin henv h0 h1 hn hf hJ
      have hkey : n.e k.body = nan ∨ ∃ t, n.e k.body = fin t := by
        obtain ⟨x, hx, _⟩ := bound_fin hb
        unfold CircNorm.e
        rw [hx, hf.eMin, num_abs]
        by_cases hm : m = 0
        · left
          have : x = 0 := by
            have := hf.min k hkall x hx (by assumption)
            linarith
          rw [hm, this, abs_zero, num_div_zero]; simp [signInf]
        · right
          exact ⟨_, num_div _ _ (abs_pos.2 hm).ne'⟩
      have hjc := interp1_range henv.locate pts hne hsort 0 1 hy (n.e k.body) hkey
      have hjcdef : n.jc env k.body = Np.interp1 env.locate (pts.map fun p => fin p.1)
          (pts.map fun p => fin p.2) (n.e k.body) := by
        unfold CircNorm.jc
        rw [hpts, List.map_map, List.map_map]
        rfl
      rw [← hjcdef] at hjc
      have heps : n.eps env k.body = fin (k.L 2 / J) /. n.jc env k.body := by
        unfold CircNorm.eps CircNorm.jz
        rw [body_jz, hf.jzMax, num_div _ _ hJ.ne']
      rcases hjc with hjc | ⟨r, hr0, _, hjc⟩
      · rw [heps, hjc] at he
        subst he
        cases hnan
      · rw [hjc] at heps
        rcases hr0.lt_or_eq with hr | hr
        · rw [num_div _ _ hr.ne'] at heps
          rw [heps] at he
          refine ⟨_, he.symm, ?_, _, rfl, ?_⟩
          · have hJr := mul_pos hJ hr
            rw [div_div]
            refine ⟨div_pos_iff_of_pos_right hJr, ?_, ?_⟩
            · rw [div_lt_iff₀ hJr, zero_mul]
            · rw [div_eq_zero_iff]; simp [hJr.ne']
          · unfold CircNorm.epsR
            rw [hjc, body_jr, hf.jrMax]
            have hs := LawfulSqrt.sqrt_nonneg (k.L 0 * k.L 0 + k.L 1 * k.L 1)
            rcases hR0.lt_or_eq with hR | hR
            · right
              rw [num_div _ _ hR.ne', num_div _ _ hr.ne']
              exact ⟨_, rfl, div_nonneg (div_nonneg hs hR.le) hr.le⟩
            · left
              have h0 := hf.jr k hkall hb
              rw [← hR] at h0
              rw [← hR, abs_nonpos_iff.1 h0, num_div_zero]
              simp [signInf]
              rfl
        · exfalso
          rw [← hr, num_div_zero] at heps
          rw [heps] at he hkeep
          unfold signInf at he hkeep
          split at he
          · rename_i hp
            rw [if_pos hp] at hkeep
            cases hkeep
          · rename_i hp
            rw [if_neg hp] at hkeep
            split at he
            · rename_i hq
              rw [if_pos hq] at hkeep
              cases hkeep
            · subst he; cases hnan
    · exfalso
      have hL : k.L 2 = 0 := by
        have := hf.jz k hkall hb
        rw [← hJ] at this
        exact abs_nonpos_iff.1 this
      have : n.eps env k.body = nan := by
        unfold CircNorm.eps CircNorm.jz
        rw [body_jz, hf.jzMax, ← hJ, hL, num_div_zero]
        simp [signInf]
        rfl
      rw [this] at he
      subst he; cases hnan
  · rw [if_neg hok] at he
    subst he; cases hnan


/-! ## C29 -/

/-- C29: the profile of a successful call with positive bins, in a galaxy that has a bound particle
of negative energy and one with `Jz ≠ 0`.  `m` is the lowest energy and `J` the largest `|Jz|` of
the bound particles. -/
theorem C29_profile (env : CircEnv (Ext K)) (henv : env.OK) (g : KGalaxy K) (b0 b1 : K)
    (h0 : 0 < b0) (h1 : 0 < b1) (j : JCirc (Ext K))
    (h : jcirc env (Galaxy.ofBodies g.toB) (fin b0) (fin b1) = .ok j)
    (hE : ∃ k ∈ g.all, ∃ e : K, k.body.energy = fin e ∧ e < 0)
    (hZ : ∃ k ∈ g.all, isBound k.body.energy = true ∧ k.L 2 ≠ 0) :
    ∃ (m J : K) (x y : List K), m < 0 ∧ 0 < J ∧
      (∀ k ∈ g.all, ∀ e : K, k.body.energy = fin e → e ≤ 0 → m ≤ e ∧ |k.L 2| ≤ J) ∧
      j.x = x.map fin ∧ j.y = y.map fin ∧ x.length = y.length ∧ x.head? = some (-1) ∧
      x.Pairwise (· < ·) ∧ (∀ t ∈ y, 0 ≤ t ∧ t ≤ 1) ∧
      ∀ (i : Nat) (u w : K), x[i]? = some u → y[i]? = some w →
        ∃ k ∈ g.all, ∃ e : K, k.body.energy = fin e ∧ e ≤ 0 ∧ u = e / |m| ∧ w = |k.L 2| / J := by
  obtain ⟨_, _, n, hn, rfl⟩ := jcirc_inv h
  obtain ⟨m, J, R, hf⟩ := circFin hn
  have hm : m < 0 := by
    obtain ⟨k, hk, e, he, he0⟩ := hE
    exact lt_of_le_of_lt (hf.min k hk e he he0.le) he0
  have hJ : 0 < J := by
    obtain ⟨k, hk, hb, hL⟩ := hZ
    exact lt_of_lt_of_le (abs_pos.2 hL) (hf.jz k hk hb)
  obtain ⟨pts, hpts, hne, hsort, hy⟩ := profile_fin henv h0 h1 hn hf hJ
  obtain ⟨hbne, _, _, _, aux, hbins, haux, hprof⟩ := circNorm_inv hn
  obtain ⟨i0, a0, hi0, hget, hhead, hmem⟩ := profile_mem henv.argsort _ _ _ _ _ hbne hprof
  have hbe : ∀ e : K, e ≤ 0 → isBound (fin e : Ext K) = true := by
    intro e he0
    have : ((fin e : Ext K) ==. ninf) = false := rfl
    simp [isBound, he0, this]
  have hnorm : ∀ (k : KBody K) (e : K), k.body.energy = fin e → n.e k.body = fin (e / |m|) := by
    intro k e he
    unfold CircNorm.e
    rw [he, hf.eMin, num_abs, num_div _ _ (abs_pos.2 hm.ne).ne']
  have hnz : ∀ k : KBody K, Num.abs (n.jz k.body) = fin (|k.L 2| / J) := by
    intro k
    unfold CircNorm.jz
    rw [body_jz, hf.jzMax, num_div _ _ hJ.ne', num_abs, abs_div, abs_of_pos hJ]
  -- the first particle has the lowest energy
  obtain ⟨k0, hk0, rfl, hb0⟩ := toB_bound.1 (List.mem_of_getElem? hget)
  obtain ⟨e0, he0, he00⟩ := bound_fin hb0
  have hlow : e0 = m := by
    apply le_antisymm _ (hf.min k0 hk0 e0 he0 he00)
    obtain ⟨i1, x1, ha, hb, hc⟩ := argmin_spec (l := g.toB.bound.map n.e) (by
      intro t ht
      obtain ⟨a, ha, rfl⟩ := List.mem_map.1 ht
      obtain ⟨k, _, rfl, hb⟩ := toB_bound.1 ha
      obtain ⟨e, he, _⟩ := bound_fin hb
      rw [hnorm k e he]; rfl) (by simpa using hbne)
    rw [hi0] at ha
    cases ha
    rw [List.getElem?_map, hget, Option.map_some, hnorm k0 e0 he0] at hb
    cases hb
    -- some bound particle has energy m
    obtain ⟨_, h1', _⟩ := circNorm_inv hn
    obtain ⟨⟨am, ham, eam⟩, _⟩ := isMinOf_amin h1' (by
      intro a ha
      obtain ⟨k, _, rfl, hb⟩ := toB_bound.1 ha
      obtain ⟨x, hx, _⟩ := bound_fin hb
      rw [hx]; rfl)
    obtain ⟨im, him⟩ := List.mem_iff_getElem?.1 ham
    obtain ⟨km, _, rfl, _⟩ := toB_bound.1 ham
    rw [hf.eMin] at eam
    have := (hc im _ (by rw [List.getElem?_map, him, Option.map_some, hnorm km m eam])).1
    rw [num_le, decide_eq_true_eq, div_le_div_iff_of_pos_right (abs_pos.2 hm.ne)] at this
    exact this
  refine ⟨m, J, pts.map (·.1), pts.map (·.2), hm, hJ, ?_, ?_, ?_, by simp, ?_, ?_, ?_, ?_⟩
  · intro k hk e he he0
    exact ⟨hf.min k hk e he he0, hf.jz k hk (by rw [he]; exact hbe e he0)⟩
  · simp [circResult, hpts]
  · simp [circResult, hpts]
  · rw [hpts] at hhead
    cases pts with
    | nil => exact absurd rfl hne
    | cons p ps =>
      simp only [List.map_cons, List.head?_cons, Option.some.injEq, Prod.mk.injEq, num_ofRat,
        Ext.fin.injEq] at hhead ⊢
      rw [hhead.1]; simp
  · rw [List.pairwise_map]; exact hsort
  · intro t ht
    obtain ⟨p, hp, rfl⟩ := List.mem_map.1 ht
    exact hy p hp
  · intro i u w hu hw
    simp only [List.getElem?_map, Option.map_eq_some_iff] at hu hw
    obtain ⟨p, hp, rfl⟩ := hu
    obtain ⟨p', hp', rfl⟩ := hw
    rw [hp] at hp'
    cases hp'
    have hpm : ((fin p.1, fin p.2) : Ext K × Ext K) ∈ n.pts := by
      rw [hpts]
      exact List.mem_map.2 ⟨p, List.mem_of_getElem? hp, rfl⟩
    rcases hmem _ hpm with hq | ⟨a, ha, hq⟩
    · rw [hnz k0] at hq
      simp only [num_ofRat, Prod.mk.injEq, Ext.fin.injEq] at hq
      refine ⟨k0, hk0, e0, he0, he00, ?_, hq.2⟩
      rw [hq.1, hlow, abs_of_neg hm, div_neg, div_self hm.ne]
      simp
    · obtain ⟨k, hk, rfl, hb⟩ := toB_bound.1 ha
      obtain ⟨e, he, he0⟩ := bound_fin hb
      rw [hnorm k e he, hnz k] at hq
      simp only [Prod.mk.injEq, Ext.fin.injEq] at hq
      exact ⟨k, hk, e, he, he0, hq.1, hq.2⟩


/-! ## C30 -/

theorem quiet_congr {α F : Type} [Num F] {j j' : α → F} {t : List α}
    (h : ∀ a ∈ t, (Num.abs (j a) ==. Num.ofRat 0) = (Num.abs (j' a) ==. Num.ofRat 0)) :
    quiet j t = quiet j' t := by
  unfold quiet
  rw [List.filter_congr (q := fun a => !(Num.abs (j' a) ==. Num.ofRat 0)) fun a ha => by rw [h a ha]]

theorem quiet_perm {α F : Type} [Num F] {j : α → F} {t t' : List α} (h : t.Perm t') :
    quiet j t = quiet j t' := by
  unfold quiet
  rw [(h.filter _).length_eq, h.length_eq]

/-- the point chosen in a bin has `y = 0` exactly when the bin is quiet -/
theorem pick_quiet {α : Type} (e j : α → Ext K) (z : α → K) {t : List α}
    (hz : ∀ a ∈ t, j a = fin (z a))
    (hs : t.Pairwise (fun a c => (Num.abs (j c) <=. Num.abs (j a)) = true ∨
        Num.isNaN (Num.abs (j a)) = true)) :
    ((pick e j t).2 ==. Num.ofRat 0) = quiet j t := by
  have hab : ∀ a ∈ t, Num.abs (j a) = fin |z a| := fun a ha => by rw [hz a ha, num_abs]
  have h0 : ∀ a ∈ t, (Num.abs (j a) ==. Num.ofRat 0) = decide (z a = 0) := by
    intro a ha
    rw [hab a ha]
    simp
  have hord : t.Pairwise fun a c => |z c| ≤ |z a| := by
    refine hs.imp_of_mem fun {a c} ha hc h => ?_
    rw [hab a ha, hab c hc] at h
    rcases h with h | h
    · simpa using h
    · cases h
  match t, hz, hab, h0, hord with
  | [], _, _, _, _ => simp [pick, quiet]
  | [a], _, _, h0, _ =>
    have := h0 a (by simp)
    simp only [pick, quiet, List.filter_cons, List.filter_nil, this]
    by_cases h : z a = 0 <;> simp [h]
  | a :: c :: r, _, hab, h0, hord =>
    obtain ⟨h1, h2⟩ := List.pairwise_cons.1 hord
    have ha := h0 a (by simp)
    have hc := h0 c (by simp)
    have hca := h1 c (by simp)
    have hr : z c = 0 → (r.filter fun a => !(Num.abs (j a) ==. Num.ofRat 0)) = [] := by
      intro hc0
      rw [List.filter_eq_nil_iff]
      intro d hd
      have := (List.pairwise_cons.1 h2).1 d hd
      rw [hc0, abs_zero] at this
      rw [h0 d (by simp [hd])]
      simp [abs_nonpos_iff.1 this]
    simp only [pick, quiet, List.filter_cons, ha, hc]
    by_cases hc0 : z c = 0
    · rw [hr hc0]
      by_cases ha0 : z a = 0
      · simp only [hc0, ha0, decide_true, Bool.not_true, Bool.false_eq_true, if_false,
          List.length_nil, beq_self_eq_true, Bool.true_or]
        split_ifs
        · rw [hc]; simp [hc0]
        · rw [ha]; simp [ha0]
      · have hdiv : (Num.ofRat (1/100) <=. ((Num.ofRat 1 : Ext K) -.
            (Num.abs (j c) /. Num.abs (j a)))) = true := by
          rw [hab a (by simp), hab c (by simp), num_div _ _ (abs_pos.2 ha0).ne', hc0]
          simp
          norm_num
        rw [if_pos hdiv]
        simp only [hc]
        simp [hc0, ha0]
    · have ha0 : z a ≠ 0 := by
        intro h
        rw [h, abs_zero] at hca
        exact hc0 (abs_nonpos_iff.1 hca)
      have : ((if Num.ofRat (1/100) <=. ((Num.ofRat 1 : Ext K) -.
          (Num.abs (j c) /. Num.abs (j a))) then (e c, Num.abs (j c))
          else (e a, Num.abs (j a))).2 ==. Num.ofRat 0) = false := by
        split_ifs
        · rw [hc]; simp [hc0]
        · rw [ha]; simp [ha0]
      rw [this]
      simp [ha0, hc0]

/-- the first particle with the lowest energy is the one of the first point -/
theorem first_lowest {g : KGalaxy K} {n : CircNorm (Ext K)} {m J R : K} (hf : CircFin g n m J R)
    (hex : ∃ a ∈ g.toB.bound, a.energy = n.eMin)
    {i0 : Nat} {a0 : Body (Ext K)} (hi : Np.argmin (g.toB.bound.map n.e) = .ok i0)
    (hget : g.toB.bound[i0]? = some a0) :
    g.toB.bound.find? (fun a => a.energy ==. n.eMin) = some a0 := by
  have hb : ∀ a ∈ g.toB.bound, ∃ e : K, a.energy = fin e ∧ e ≤ 0 ∧ m ≤ e := by
    intro a ha
    obtain ⟨k, hk, rfl, hb⟩ := toB_bound.1 ha
    obtain ⟨e, he, he0⟩ := bound_fin hb
    exact ⟨e, he, he0, hf.min k hk e he he0⟩
  obtain ⟨hlt, hget'⟩ := List.getElem?_eq_some_iff.1 hget
  rw [List.find?_eq_some_iff_getElem]
  rcases eq_or_lt_of_le hf.neg with hm | hm
  · -- all energies are zero and the normalised ones NaN
    have hz : ∀ a ∈ g.toB.bound, a.energy = fin 0 := by
      intro a ha
      obtain ⟨e, he, h1, h2⟩ := hb a ha
      rw [he, le_antisymm h1 (hm ▸ h2)]
    have hnan : ∀ x ∈ g.toB.bound.map n.e, x = nan := by
      intro x hx
      obtain ⟨a, ha, rfl⟩ := List.mem_map.1 hx
      unfold CircNorm.e
      rw [hz a ha, hf.eMin, hm, num_abs, abs_zero, num_div_zero]
      simp [signInf]
    have hi0 : i0 = 0 := by
      cases hl : g.toB.bound.map n.e with
      | nil => rw [hl] at hi; cases hi
      | cons x l =>
        rw [hl] at hi hnan
        cases hi
        obtain ⟨h1, h2⟩ := argBest_cons (F := Ext K) isBetter_min x l
        by_contra h0
        have := (h2 0 x rfl).2 (Nat.pos_of_ne_zero h0)
        rw [hnan x List.mem_cons_self] at this
        simp at this
    subst hi0
    refine ⟨?_, 0, hlt, hget', fun j hj => absurd hj (Nat.not_lt_zero _)⟩
    rw [hz a0 (List.mem_of_getElem? hget), hf.eMin, hm]
    simp
  · have hE : ∀ a ∈ g.toB.bound, ∀ e : K, a.energy = fin e → n.e a = fin (e / |m|) := by
      intro a _ e he
      unfold CircNorm.e
      rw [he, hf.eMin, num_abs, num_div _ _ (abs_pos.2 hm.ne).ne']
    obtain ⟨i, x, h1, h2, h3⟩ := argmin_spec (l := g.toB.bound.map n.e) (by
      intro x hx
      obtain ⟨a, ha, rfl⟩ := List.mem_map.1 hx
      obtain ⟨e, he, _⟩ := hb a ha
      rw [hE a ha e he]; rfl) (by
      intro h
      rw [h] at hi; cases hi)
    rw [hi] at h1
    cases h1
    rw [List.getElem?_map, hget] at h2
    cases h2
    have hmem := List.mem_of_getElem? hget
    obtain ⟨e0, he0, _, hme⟩ := hb a0 hmem
    have hmp := abs_pos.2 hm.ne
    have heq : e0 = m := by
      obtain ⟨a1, ha1, h4⟩ := hex
      obtain ⟨i1, hi1⟩ := List.mem_iff_getElem?.1 ha1
      have := (h3 i1 (n.e a1) (by rw [List.getElem?_map, hi1]; rfl)).1
      rw [hf.eMin] at h4
      rw [hE a0 hmem e0 he0, hE a1 ha1 m h4] at this
      have : e0 / |m| ≤ m / |m| := by simpa using this
      exact le_antisymm ((div_le_div_iff_of_pos_right hmp).1 this) hme
    refine ⟨by rw [he0, heq, hf.eMin]; simp, i0, hlt, hget', fun j hj => ?_⟩
    have hjl : j < g.toB.bound.length := by omega
    have := (h3 j (n.e g.toB.bound[j]) (by simp [hjl])).2 hj
    obtain ⟨e, he, _⟩ := hb _ (List.getElem_mem hjl)
    rw [hE a0 hmem e0 he0, hE _ (List.getElem_mem hjl) e he, heq] at this
    have : m / |m| < e / |m| := by simpa using this
    have := (div_lt_div_iff_of_pos_right hmp).1 this
    rw [he, hf.eMin]
    simp [this.ne']

/-- C30: which bins contribute.  The call succeeded, the bins are positive and some bound particle
has `Jz ≠ 0`.  `m` is the lowest energy of a bound particle, `a0` the first bound particle with that
energy and `E(a) = a.energy / |m|`.  A bin is quiet if none of its bound particles has `Jz ≠ 0`, or
just one of several has.  The bin between the edges `lo` and `hi` (number `k`) has a point in the
profile exactly when it contains a bound particle and either a bound particle lies above the last
edge, or `k` plus the number of quiet bins, plus one if `a0` has `Jz = 0` (in all at least one), is
below the number of edges. -/
theorem C30_contributing_bins (env : CircEnv (Ext K)) (henv : env.OK) (g : KGalaxy K) (b0 b1 : K)
    (h0 : 0 < b0) (h1 : 0 < b1) (j : JCirc (Ext K))
    (h : jcirc env (Galaxy.ofBodies g.toB) (fin b0) (fin b1) = .ok j)
    (hZ : ∃ k ∈ g.all, isBound k.body.energy = true ∧ k.L 2 ≠ 0)
    (aux : List (Ext K)) (hbins : energyBins (fin b0 : Ext K) (fin b1) = .ok aux) :
    ∃ m a0, IsMinOf g.toB.bound Body.energy m ∧
      g.toB.bound.find? (fun a => a.energy ==. m) = some a0 ∧
      let E := fun a : Body (Ext K) => a.energy /. Num.abs m
      ∀ (k : Nat) (lo hi top : Ext K), aux.getLast? = some top → aux[k]? = some lo →
        aux[k + 1]? = some hi →
        ((∃ u ∈ j.x, (lo <. u) = true ∧ (u <=. hi) = true) ↔
          (∃ a ∈ g.toB.bound, (lo <. E a) = true ∧ (E a <=. hi) = true) ∧
          ((∃ a ∈ g.toB.bound, (top <. E a) = true) ∨
            k + max 1 (quietSlots E Body.jz g.toB.bound aux a0) < aux.length)) := by
  obtain ⟨_, _, n, hn, rfl⟩ := jcirc_inv h
  obtain ⟨m, J, R, hf⟩ := circFin hn
  obtain ⟨hbne, h1', _, _, aux', hbins', haux, hprof⟩ := circNorm_inv hn
  rw [hbins] at hbins'
  cases hbins'
  obtain ⟨aux', hbins', hedges, _, hneg⟩ := energyBins_fin h0 h1
  rw [hbins] at hbins'
  cases hbins'
  have hJ : 0 < J := by
    obtain ⟨k, hk, hb, hL⟩ := hZ
    exact lt_of_lt_of_le (abs_pos.2 hL) (hf.jz k hk hb)
  have hjz : ∀ a ∈ g.toB.bound, ∃ z : K, n.jz a = fin (z / J) ∧ Body.jz a = fin z := by
    intro a ha
    obtain ⟨k, hk, rfl, hb⟩ := toB_bound.1 ha
    refine ⟨k.L 2, ?_, body_jz k⟩
    unfold CircNorm.jz
    rw [body_jz, hf.jzMax, num_div _ _ hJ.ne']
  have hzero : ∀ a ∈ g.toB.bound, (Num.abs (n.jz a) ==. Num.ofRat 0)
      = (Num.abs (Body.jz a) ==. Num.ofRat 0) := by
    intro a ha
    obtain ⟨z, h1, h2⟩ := hjz a ha
    rw [h1, h2]
    simp [hJ.ne']
  have hsub : ∀ lo hi, ∀ a ∈ inBin n.e lo hi g.toB.bound, a ∈ g.toB.bound :=
    fun _ _ a ha => (List.mem_filter.1 ha).1
  obtain ⟨a0, i0, hi0, hget, hall⟩ := profile_bins henv.argsort g.toB.bound n.e n.jz aux hedges (by
      intro a ha
      obtain ⟨t, rfl, _, h2⟩ := hneg a ha
      simpa using h2) (by
      intro lo hi
      obtain ⟨t, ht1, ht2, ht3⟩ := binPoint_map henv.argsort g.toB.bound n.e n.jz lo hi
      have hfin : ∀ a ∈ t, ∃ z, n.jz a = fin z := fun a ha => by
        obtain ⟨z, hz, _⟩ := hjz a (hsub lo hi a (ht1.subset ha))
        exact ⟨_, hz⟩
      classical
      choose! z hz using hfin
      rw [ht3, pick_quiet n.e n.jz z hz ht2, quiet_perm ht1]) n.pts hbne hprof
  have hlow : ∃ a ∈ g.toB.bound, a.energy = n.eMin := (isMinOf_amin h1' fun a ha => by
    obtain ⟨k, _, rfl, hb⟩ := toB_bound.1 ha
    obtain ⟨x, hx, _⟩ := bound_fin hb
    rw [hx]; rfl).1
  refine ⟨n.eMin, a0, isMinOf_amin h1', first_lowest hf hlow hi0 hget, ?_⟩
  intro E k lo hi top ht hlo hhi
  have hq : quietSlots n.e n.jz g.toB.bound aux a0 = quietSlots E Body.jz g.toB.bound aux a0 := by
    unfold quietSlots
    rw [hzero a0 (List.mem_of_getElem? hget)]
    congr 2
    apply List.filter_congr
    intro q _
    exact quiet_congr fun a ha => hzero a (hsub _ _ a ha)
  have hx : (∃ u ∈ (circResult env n g.toB.stars).x, (lo <. u) = true ∧ (u <=. hi) = true) ↔
      ∃ p ∈ n.pts, (lo <. p.1) = true ∧ (p.1 <=. hi) = true := by
    simp [circResult]
  have := hall k lo hi top ht hlo hhi
  rw [hq] at this
  exact hx.trans this

/-- C30, what remains: if some bound particle lies above the last bin edge, or at most one slot is
quiet, every populated bin has a point. -/
theorem C30_populated_bin_partial (env : CircEnv (Ext K)) (henv : env.OK) (g : KGalaxy K) (b0 b1 : K)
    (h0 : 0 < b0) (h1 : 0 < b1) (j : JCirc (Ext K))
    (h : jcirc env (Galaxy.ofBodies g.toB) (fin b0) (fin b1) = .ok j)
    (hZ : ∃ k ∈ g.all, isBound k.body.energy = true ∧ k.L 2 ≠ 0)
    (aux : List (Ext K)) (hbins : energyBins (fin b0 : Ext K) (fin b1) = .ok aux) :
    ∃ m a0, IsMinOf g.toB.bound Body.energy m ∧
      g.toB.bound.find? (fun a => a.energy ==. m) = some a0 ∧
      let E := fun a : Body (Ext K) => a.energy /. Num.abs m
      ∀ (k : Nat) (lo hi top : Ext K), aux.getLast? = some top → aux[k]? = some lo →
        aux[k + 1]? = some hi →
        ((∃ a ∈ g.toB.bound, (top <. E a) = true) ∨
          quietSlots E Body.jz g.toB.bound aux a0 ≤ 1) →
        (∃ a ∈ g.toB.bound, (lo <. E a) = true ∧ (E a <=. hi) = true) →
        ∃ u ∈ j.x, (lo <. u) = true ∧ (u <=. hi) = true := by
  obtain ⟨m, a0, hm, ha0, hall⟩ := C30_contributing_bins env henv g b0 b1 h0 h1 j h hZ aux hbins
  refine ⟨m, a0, hm, ha0, ?_⟩
  intro E k lo hi top ht hlo hhi hor hex
  refine (hall k lo hi top ht hlo hhi).2 ⟨hex, ?_⟩
  rcases hor with hor | hor
  · exact Or.inl hor
  · right
    have : k + 1 < aux.length := (List.getElem?_eq_some_iff.1 hhi).1
    show k + max 1 (quietSlots E Body.jz g.toB.bound aux a0) < aux.length
    omega

/-- C30 (negation): if no bound particle lies above the last edge, a bin `k` with `k` plus the number
of quiet slots at least the number of edges has no point in the profile, populated or not. -/
theorem C30_lost_bin (env : CircEnv (Ext K)) (henv : env.OK) (g : KGalaxy K) (b0 b1 : K)
    (h0 : 0 < b0) (h1 : 0 < b1) (j : JCirc (Ext K))
    (h : jcirc env (Galaxy.ofBodies g.toB) (fin b0) (fin b1) = .ok j)
    (hZ : ∃ k ∈ g.all, isBound k.body.energy = true ∧ k.L 2 ≠ 0)
    (aux : List (Ext K)) (hbins : energyBins (fin b0 : Ext K) (fin b1) = .ok aux) :
    ∃ m a0, IsMinOf g.toB.bound Body.energy m ∧
      g.toB.bound.find? (fun a => a.energy ==. m) = some a0 ∧
      let E := fun a : Body (Ext K) => a.energy /. Num.abs m
      ∀ (k : Nat) (lo hi top : Ext K), aux.getLast? = some top → aux[k]? = some lo →
        aux[k + 1]? = some hi → (∀ a ∈ g.toB.bound, (top <. E a) = false) →
        aux.length ≤ k + quietSlots E Body.jz g.toB.bound aux a0 →
        ∀ u ∈ j.x, ¬ ((lo <. u) = true ∧ (u <=. hi) = true) := by
  obtain ⟨m, a0, hm, ha0, hall⟩ := C30_contributing_bins env henv g b0 b1 h0 h1 j h hZ aux hbins
  refine ⟨m, a0, hm, ha0, ?_⟩
  intro E k lo hi top ht hlo hhi hnone hlen u hu hin
  obtain ⟨_, h2⟩ := (hall k lo hi top ht hlo hhi).1 ⟨u, hu, hin⟩
  rcases h2 with ⟨a, ha, hta⟩ | h2
  · have := hnone a ha
    rw [show (top <. E a) = true from hta] at this; cases this
  · have h2 : k + max 1 (quietSlots E Body.jz g.toB.bound aux a0) < aux.length := h2
    have := hlen
    omega

/-! ## Non-vacuity of the assumptions on numpy -/

/-- position `i` may stand before position `k` in a sorted order, NaN last -/
def sortRel {F : Type} [Num F] (l : List F) (i k : Nat) : Prop :=
  (Num.isNaN (l.getD k Num.nan) || (l.getD i Num.nan <=. l.getD k Num.nan)) = true

instance {F : Type} [Num F] (l : List F) : DecidableRel (sortRel l) := fun i k =>
  inferInstanceAs (Decidable ((Num.isNaN (l.getD k Num.nan) ||
    (l.getD i Num.nan <=. l.getD k Num.nan)) = true))

/-- sorting by insertion and linear search -/
def sortEnv {F : Type} [Num F] : CircEnv F where
  argsort l := (List.range l.length).insertionSort (sortRel l)
  locate xp key := (xp.takeWhile fun a => a <=. key).length - 1

/-- there is a sorting routine and an interval search with the assumed properties -/
theorem sortEnv_ok {F : Type} [Num F] [NumOrd F] : (sortEnv (F := F)).OK := by
  refine ⟨?_, ?_⟩
  · intro l
    refine ⟨List.perm_insertionSort _ _, ?_⟩
    have htr : IsTrans Nat (sortRel l) := ⟨by
      intro a b c h1 h2
      simp only [sortRel, Bool.or_eq_true] at h1 h2 ⊢
      rcases h2 with h2 | h2
      · exact Or.inl h2
      · rcases h1 with h1 | h1
        · rw [(NumOrd.not_nan_of_le h2).1] at h1; cases h1
        · exact Or.inr (NumOrd.le_trans h1 h2)⟩
    have hto : Std.Total (sortRel l) := ⟨by
      intro a b
      simp only [sortRel, Bool.or_eq_true]
      cases ha : Num.isNaN (l.getD a Num.nan) with
      | true => exact Or.inr (Or.inl rfl)
      | false =>
        cases hb : Num.isNaN (l.getD b Num.nan) with
        | true => exact Or.inl (Or.inl rfl)
        | false =>
          rcases NumOrd.le_total ha hb with h | h
          · exact Or.inl (Or.inr h)
          · exact Or.inr (Or.inr h)⟩
    have := List.pairwise_insertionSort (sortRel l) (List.range l.length)
    apply this.imp
    intro i k h a b ha hb
    simp only [sortRel, Bool.or_eq_true, List.getD, ha, hb, Option.getD_some] at h
    exact h.symm
  · intro xp key hne
    have hsplit : xp.takeWhile (fun a => a <=. key) ++ xp.dropWhile (fun a => a <=. key) = xp :=
      List.takeWhile_append_dropWhile
    have hlen : (xp.takeWhile fun a => a <=. key).length ≤ xp.length :=
      (List.takeWhile_sublist _).length_le
    have hpos : 0 < xp.length := List.length_pos_iff.2 hne
    refine ⟨by show _ - 1 < _; omega, ?_⟩
    intro hs h0
    obtain ⟨x0, t, rfl⟩ := List.exists_cons_of_ne_nil hne
    have hx0 := h0 x0 rfl
    have hnn : ∀ a ∈ x0 :: t, Num.isNaN a = false := by
      intro a ha
      rcases List.mem_cons.1 ha with rfl | ha
      · exact (NumOrd.not_nan_of_le hx0).1
      · exact (NumOrd.not_nan_of_le ((List.pairwise_cons.1 hs).1 a ha)).2
    have hw : 0 < ((x0 :: t).takeWhile fun a => a <=. key).length := by
      rw [List.takeWhile_cons, hx0]; simp
    have hall : ∀ a ∈ (x0 :: t).takeWhile (fun a => a <=. key), (a <=. key) = true := by
      intro a ha
      exact List.all_eq_true.1 List.all_takeWhile a ha
    have hdrop : ∀ a, ((x0 :: t).dropWhile fun a => a <=. key).head? = some a →
        (a <=. key) = false := by
      intro a ha
      have := List.head?_dropWhile_not (fun a => a <=. key) (x0 :: t)
      rw [ha] at this
      simpa using this
    simp only [sortEnv]
    generalize (x0 :: t).takeWhile (fun a => a <=. key) = W at *
    generalize (x0 :: t).dropWhile (fun a => a <=. key) = D at *
    rw [← hsplit] at hs hnn ⊢
    refine ⟨?_, ?_⟩
    · intro a ha
      rw [List.getElem?_append_left (by omega)] at ha
      exact hall a (List.mem_of_getElem? ha)
    · intro k a hk ha
      rw [List.getElem?_append_right (by omega)] at ha
      obtain ⟨_, hD, _⟩ := List.pairwise_append.1 hs
      cases D with
      | nil => simp at ha
      | cons d D =>
        have hd : (key <. d) = true :=
          lt_of_not_le (hnn d (by simp)) (NumOrd.not_nan_of_le hx0).2 (hdrop d rfl)
        rcases List.mem_cons.1 (List.mem_of_getElem? ha) with rfl | hm
        · exact hd
        · exact lt_of_lt_of_le' hd ((List.pairwise_cons.1 hD).1 a hm)

/-! ## Concrete galaxies -/

section examples

/-- a sorting routine and an interval search to evaluate the examples with -/
def exEnv : CircEnv (Ext ℚ) := sortEnv

theorem exEnv_ok : exEnv.OK := sortEnv_ok

/-- a particle at `(1, 0, 0)` with tangential velocity `jz` (so `Jz = jz`) and energy `e` -/
def orbit (e jz : ℚ) : Body (Ext ℚ) :=
  ⟨q 1, q 1, q 0, q 0, q 0, q jz, q 0, q (e - jz * jz / 2)⟩

/-- three stars at the energies -1, -0.5 and -0.3 -/
def exLost : BGalaxy (Ext ℚ) where
  stars := [orbit (-1) 1, orbit (-1/2) 2, orbit (-3/10) 3]
  dm := []
  gas := []
  hasPot := true
  softS := q 0
  softDm := q 0
  softG := q 0

/-- C30 (negation), default bins: the bins at -0.5 and -0.3 are populated, and the profile only has
the point at -1. -/
theorem C30_counterexample :
    (jcirc exEnv (Galaxy.ofBodies exLost) (defaultCbin (F := Ext ℚ)).1 defaultCbin.2).toOption.map
      (fun j => (j.x, j.y)) = some ([q (-1)], [q (1/3)]) := by
  decide +kernel

/-- C30 (negation) without an empty bin: the edges are -1, -0.55, -0.1 and -0.05, all three bins are
populated, and the star at -0.07, the one with the largest `Jz`, has no point in the profile because
the points of the other two bins have `Jz = 0`. -/
theorem C30_counterexample_quiet :
    energyBins (q (9/20)) (q (1/20)) = .ok [q (-1), q (-11/20), q (-1/10), q (-1/20)] ∧
    (jcirc exEnv (Galaxy.ofBodies { exLost with stars := [orbit (-1) 1, orbit (-4/5) 2,
      orbit (-3/4) 0, orbit (-1/2) 0, orbit (-7/100) 3] }) (q (9/20)) (q (1/20))).toOption.map
      (fun j => (j.x, j.y)) = some ([q (-1), q (-3/4), q (-1/2)], [q (1/3), q 0, q 0]) := by
  decide +kernel

/-- the galaxy of `C30_counterexample` with a particle just below zero energy keeps all four bins -/
example : (jcirc exEnv (Galaxy.ofBodies { exLost with dm := [orbit (-1/1000) 4] })
      (defaultCbin (F := Ext ℚ)).1 defaultCbin.2).toOption.map
      (fun j => (j.x, j.y)) = some ([q (-1), q (-1/2), q (-3/10), q (-1/1000)],
        [q (1/4), q (1/2), q (3/4), q 1]) := by
  decide +kernel

/-- C22 (negation): an unbound star before a bound one -/
theorem C22_counterexample_raises :
    jcirc exEnv (Galaxy.ofBodies { exLost with stars := [orbit 1 1, orbit (-1) 1] })
      (defaultCbin (F := Ext ℚ)).1 defaultCbin.2 = .error .indexError := by
  decide +kernel

/-- C22 (negation): an unbound star after a bound one -/
theorem C22_counterexample_lengths :
    (jcirc exEnv (Galaxy.ofBodies { exLost with stars := [orbit (-1) 1, orbit 1 1] })
      (defaultCbin (F := Ext ℚ)).1 defaultCbin.2).toOption.map
      (fun j => (j.normalizedStarEnergy.length, j.normalizedStarJz.length, j.eps.length,
        j.epsR.length)) = some (2, 1, 2, 2) := by
  decide +kernel

/-- a full result: circularities, a star outside [-1, 1] and a counter-rotating one -/
example : (jcirc exEnv (Galaxy.ofBodies { exLost with
      stars := [orbit (-1) 1, orbit (-1/2) (-2), orbit (-1/4) 5], dm := [orbit (-1/1000) 4],
      gas := [orbit (-3/4) 2] })
      (defaultCbin (F := Ext ℚ)).1 defaultCbin.2).toOption.map
      (fun j => (j.normalizedStarEnergy, j.normalizedStarJz, j.eps))
    = some ([q (-1), q (-1/2), q (-1/4)], [q (1/5), q (-2/5), q 1], [q 1, q (-1), q 1]) := by
  decide +kernel

/-- C27: no bound particle -/
example : jcirc exEnv (Galaxy.ofBodies { exLost with stars := [orbit 1 1] })
    (defaultCbin (F := Ext ℚ)).1 defaultCbin.2 = .error .valueError := by
  decide +kernel

end examples

end GChop
