import Verif.Props.AlignedExample

/-!
# From raw particles through `potential`, `center` and `star_align` to labels

C113: the whole preparation of a galaxy.  The potential is computed in single precision, the rest in
doubles; the reference is exact arithmetic throughout, with softened Newtonian gravity.
-/

namespace GChop
open Flt Matrix

/-- the exact potential of a particle in the gravity of the others -/
noncomputable def gravPhi (g : ℚ) (b : BGalaxy Float64) (e : Float64) (a : Body Float64) : ℝ :=
  -(g * pullSum b.all e a)

/-- error bound of the potential in single precision -/
noncomputable def gravEta (g : ℚ) (b : BGalaxy Float64) (e : Float64) (a : Body Float64) : ℝ :=
  (b.all.length + 6) / 2 ^ 23 * (g * pullSum b.all e a)

/-- The particle `c` at index `i0` is the lowest by more than the errors of the potential, velocities are
far from overflow, every star is clearly inside or outside of the cutoff radius, and the stars inside rotate about an axis that is not the z axis and that rounding does not
change much. -/
structure RawTurning (rc : Option Float64) (g : ℚ) (b : BGalaxy Float64) (e : Float64) (i0 : Nat) (c : Body Float64) : Prop where
  vel : ∀ a ∈ b.all, ∀ i, Within 200 (a.vel i)
  centre : b.all[i0]? = some c
  lowest : ∀ (j : Nat) d, b.all[j]? = some d → j ≠ i0 →
    gravPhi g b e c + gravEta g b e c < gravPhi g b e d - gravEta g b e d
  cut : CutClear rc b c
  total : ∀ i, |totalJ rc b c i| ≤ 2 ^ (199 : ℤ)
  axis : ∃ i, i ≠ 2 ∧ (2 : ℝ) ^ (-199 : ℤ) ≤ |totalJ rc b c i| ∧ starLoad rc b c ≤ 2 ^ 48 * |totalJ rc b c i|

section
variable {rc : Option Float64} {g : ℚ} {b : BGalaxy Float64} {e : Float64} {i0 : Nat} {c : Body Float64} {p : Nat → Float64}
  {fG : Fmt} {G : Flt fG}

/-! ## The computed potentials do not change positions and velocities -/

theorem withPot_stars_map {α : Type} (b : BGalaxy Float64) (p : Nat → Float64) (f : Body Float64 → α)
    (hf : ∀ a q, f { a with pot := q } = f a) : (b.withPot p).stars.map f = b.stars.map f := by
  simp only [BGalaxy.withPot]
  apply List.ext_getElem?
  intro i
  simp only [List.getElem?_map, List.getElem?_mapIdx]
  cases b.stars[i]? <;> simp [hf]

theorem withPot_cutStars_map {α : Type} (rc : Option Float64) (b : BGalaxy Float64) (p : Nat → Float64)
    (c : Body Float64) (q : Float64) (f : Body Float64 → α) (hf : ∀ a q, f { a with pot := q } = f a) :
    (cutStars rc (b.withPot p) { c with pot := q }).map f = (cutStars rc b c).map f := by
  cases rc with
  | none => exact withPot_stars_map b p f hf
  | some r =>
    have key : ∀ (l l' : List (Body Float64)),
        (l.map fun a => (cutDist c a, f a)) = (l'.map fun a => (cutDist c a, f a)) →
        (l.filter fun a => decide (cutDist c a < value r ^ 2)).map f
          = (l'.filter fun a => decide (cutDist c a < value r ^ 2)).map f := by
      intro l l' h
      have e : ∀ l : List (Body Float64), (l.filter fun a => decide (cutDist c a < value r ^ 2)).map f
          = ((l.map fun a => (cutDist c a, f a)).filter fun u => decide (u.1 < value r ^ 2)).map Prod.snd := by
        intro l
        rw [List.filter_map, List.map_map]
        rfl
      rw [e, e, h]
    exact key _ _ (withPot_stars_map b p (fun a => (cutDist c a, f a)) fun a q => by rw [hf a q]; rfl)

theorem cutClear_withPot (h : CutClear rc b c) (q : Float64) :
    CutClear rc (b.withPot p) { c with pot := q } := by
  intro r hr
  obtain ⟨h1, h2, h3⟩ := h r hr
  refine ⟨h1, h2, fun a ha => ?_⟩
  simp only [BGalaxy.withPot] at ha
  obtain ⟨i, hi, rfl⟩ := List.mem_mapIdx.1 ha
  exact h3 (b.stars[i]) (List.getElem_mem hi)

theorem totalJ_withPot (rc : Option Float64) (b : BGalaxy Float64) (p : Nat → Float64) (c : Body Float64) (q : Float64) :
    totalJ rc (b.withPot p) { c with pot := q } = totalJ rc b c := by
  unfold totalJ
  rw [withPot_cutStars_map rc b p c q _ fun _ _ => rfl]
  rfl

theorem starLoad_withPot (rc : Option Float64) (b : BGalaxy Float64) (p : Nat → Float64) (c : Body Float64) (q : Float64) :
    starLoad rc (b.withPot p) { c with pot := q } = starLoad rc b c := by
  unfold starLoad
  have hl := congrArg List.length (withPot_cutStars_map rc b p c q (fun _ => ()) fun _ _ => rfl)
  rw [List.length_map, List.length_map] at hl
  rw [withPot_cutStars_map rc b p c q _ fun _ _ => rfl, hl]
  rfl

theorem axisJz_withPot (rc : Option Float64) (b : BGalaxy Float64) (p : Nat → Float64) (c : Body Float64) (q : Float64) :
    axisJz rc (b.withPot p) { c with pot := q } = axisJz rc b c := by
  funext a
  unfold axisJz
  rw [totalJ_withPot]
  rfl

theorem axisErrJz_withPot (rc : Option Float64) (b : BGalaxy Float64) (p : Nat → Float64) (c : Body Float64) (q : Float64) :
    axisErrJz rc (b.withPot p) { c with pot := q } = axisErrJz rc b c := by
  funext a
  unfold axisErrJz
  rw [totalJ_withPot, starLoad_withPot]
  rfl

theorem withPot_get {i : Nat} {a : Body Float64} (h : b.all[i]? = some a) :
    (b.withPot p).all[i]? = some { a with pot := p i } := by
  rw [withPot_all, List.getElem?_mapIdx, h]
  rfl

theorem forall_withPot {P : Body Float64 → Prop} (hP : ∀ a q, P { a with pot := q } ↔ P a)
    (h : ∀ a ∈ b.all, P a) : ∀ a ∈ (b.withPot p).all, P a := by
  intro a ha
  obtain ⟨i, rfl⟩ := mem_withPot.1 ha
  exact (hP _ _).2 (h _ (List.getElem_mem i.2))

theorem single_within {a : Float64} {lo : ℤ} {n : ℤ} (hs : IsSingle a) (hm : Moderate lo 50 a) (hn : 50 ≤ n) :
    Within n a := by
  have hv : sv a = value a := (sv_eq hs hm).2
  have hw := within_of hs hm
  refine ⟨hw.1, ?_⟩
  rw [← hv]
  rcases hm.2 with h | h
  · rw [h, abs_zero]
    exact (zpow_pos (by norm_num) _).le
  · exact h.2.trans (zpow_le_zpow_right₀ (by norm_num) hn)

theorem raw_turning (h : SingleData G g b e) (hs : SingleInput b e) (ht : RawTurning rc g b e i0 c)
    (hp : PotNear g b e p) :
    Turning rc (b.withPot p) (gravPhi g b e) (gravEta g b e) i0 { c with pot := p i0 } where
  hasPot := rfl
  mass := forall_withPot (fun _ _ => Iff.rfl) fun a ha => single_within (hs.mass a ha) (h.mass a ha).1 (by norm_num)
  pos := forall_withPot (fun a q => forall_congr' fun i => by fin_cases i <;> exact Iff.rfl) fun a ha i => by
    obtain ⟨q1, q2, q3⟩ := hs.pos a ha
    obtain ⟨r1, r2, r3⟩ := h.pos a ha
    fin_cases i
    · exact single_within q1 r1 (by norm_num)
    · exact single_within q2 r2 (by norm_num)
    · exact single_within q3 r3 (by norm_num)
  vel := forall_withPot (fun a q => forall_congr' fun i => by fin_cases i <;> exact Iff.rfl) ht.vel
  pot := by
    intro a ha
    obtain ⟨i, rfl⟩ := mem_withPot.1 ha
    refine ⟨(pot_within h hp i).1, ?_⟩
    obtain ⟨v, e1, e2⟩ := hp i
    rw [singleSum_eq] at e2
    have hv : value (p i) = v := value_eq e1
    show |(value (p i) : ℝ) - _| ≤ _
    rw [hv]
    exact e2
  centre := withPot_get ht.centre
  lowest := by
    intro j d hj hne
    have hjl : j < b.all.length := by
      have := (List.getElem?_eq_some_iff.1 hj).1
      rwa [withPot_all_length] at this
    rw [withPot_get (List.getElem?_eq_getElem hjl)] at hj
    obtain rfl := Option.some.inj hj
    exact ht.lowest j b.all[j] (List.getElem?_eq_getElem hjl) hne
  size := by
    have h1 := h.size
    have h2 : (b.withPot p).stars.length ≤ b.all.length := by
      simp [BGalaxy.withPot, BGalaxy.all]
    omega
  cut := cutClear_withPot ht.cut _
  total := by rw [totalJ_withPot]; exact ht.total
  axis := by rw [totalJ_withPot, starLoad_withPot]; exact ht.axis

theorem raw_resolved {M J θ : ℝ} (hr : AxisResolved rc b (gravPhi g b e) (gravEta g b e) c M J θ)
    (q : Float64) : AxisResolved rc (b.withPot p) (gravPhi g b e) (gravEta g b e) { c with pot := q } M J θ := by
  have ex : ∀ {P : Body Float64 → Prop}, (∀ a q, P { a with pot := q } ↔ P a) → (∃ a ∈ b.all, P a) →
      ∃ a ∈ (b.withPot p).all, P a := by
    rintro P hP ⟨a, ha, h⟩
    obtain ⟨i, hi⟩ := List.mem_iff_getElem?.1 ha
    exact ⟨_, List.mem_of_getElem? (withPot_get hi), (hP _ _).2 h⟩
  have hc : ∀ i, value (({ c with pot := q } : Body Float64).pos i) = value (c.pos i) := by
    intro i; fin_cases i <;> rfl
  refine ⟨?_, ?_, hr.M_pos, ?_, ?_, hr.J_pos, ?_, ?_, ?_, ?_⟩
  · rw [axisJz_withPot]
    simp only [hc]
    refine forall_withPot (fun a r => ?_) hr.zero
    have h1 : ∀ i, ({ a with pot := r } : Body Float64).pos i = a.pos i := by intro i; fin_cases i <;> rfl
    have h2 : ∀ i, ({ a with pot := r } : Body Float64).vel i = a.vel i := by intro i; fin_cases i <;> rfl
    simp only [h1, h2]
    exact Iff.rfl
  · exact forall_withPot (fun _ _ => Iff.rfl) hr.sign
  · exact forall_withPot (fun _ _ => Iff.rfl) hr.M_le
  · exact ex (fun _ _ => Iff.rfl) hr.M_eq
  · rw [axisJz_withPot]; exact forall_withPot (fun _ _ => Iff.rfl) hr.J_le
  · rw [axisJz_withPot]; exact ex (fun _ _ => Iff.rfl) hr.J_eq
  · exact forall_withPot (fun _ _ => Iff.rfl) hr.E
  · rw [axisErrJz_withPot]; exact forall_withPot (fun _ _ => Iff.rfl) hr.Jz

/-- the indices of the bound particles -/
noncomputable def rawBound (b : BGalaxy Float64) (E : Body Float64 → ℝ) : List (Fin b.all.length) :=
  (List.finRange b.all.length).filter fun i => decide (E b.all[i] < 0)

theorem withPot_all_map (b : BGalaxy Float64) (p : Nat → Float64) : (b.withPot p).all
    = (List.finRange b.all.length).map fun i : Fin b.all.length => { b.all[i] with pot := p i } := by
  rw [withPot_all]
  apply List.ext_getElem
  · simp
  · intro i h1 h2
    simp

theorem raw_clear {φ : Body Float64 → ℝ} (hφ : ∀ a q, φ { a with pot := q } = φ a) {M J δ : ℝ} (hδ : 0 ≤ δ)
    (q : Float64) (hc : Clear (rawBound b (orbitE φ)) (fun i => orbitE φ b.all[i] / M)
      (fun i => axisJz rc b c b.all[i] / J) defaultEdges δ) :
    Clear (orbitBound φ (b.withPot p)) (fun a => orbitE φ a / M)
      (fun a => axisJz rc (b.withPot p) { c with pot := q } a / J) defaultEdges δ := by
  have hE : ∀ (a : Body Float64) (q : Float64), orbitE φ { a with pot := q } = orbitE φ a := by
    intro a q
    unfold orbitE
    rw [hφ]
  have hb : orbitBound φ (b.withPot p)
      = (rawBound b (orbitE φ)).map fun i : Fin b.all.length => { b.all[i] with pot := p i } := by
    unfold orbitBound rawBound
    rw [withPot_all_map, List.filter_map]
    congr 1
    apply List.filter_congr
    intro i _
    rw [Function.comp_apply, hE]
  rw [hb, axisJz_withPot]
  exact hc.map hδ _ (fun i _ => by rw [hE]) fun i _ => rfl

/-- the exact galaxy with exact gravity -/
theorem exact_potGalaxy (g : ℚ) (b : BGalaxy Float64) (e : Float64) (p : Nat → Float64) :
    (gravRef g b.all e).galaxy (b.withPot p) = (potGalaxy (gravPhi g b e) (b.withPot p)).toB := by
  unfold Ref.galaxy KGalaxy.toB potGalaxy
  simp only [List.map_map]
  rfl

theorem AgreesFor.of_withPot {E Jz : Body Float64 → ℝ} (hE : ∀ a q, E { a with pot := q } = E a)
    (hJ : ∀ a q, Jz { a with pot := q } = Jz a) {M J δ : ℝ} {env : CircEnv Float64}
    {env' : CircEnv (Ext ℝ)} {b1 : Galaxy Float64} {b1' : Galaxy (Ext ℝ)}
    (h : AgreesFor (b.withPot p) E Jz M J δ env env' b1 b1') : AgreesFor b E Jz M J δ env env' b1 b1' := by
  have star : ∀ {P : Body Float64 → Prop}, (∀ a q, P a → P { a with pot := q }) → (∀ a ∈ b.stars, P a) →
      ∀ a ∈ (b.withPot p).stars, P a := by
    intro P hP h a ha
    simp only [BGalaxy.withPot, List.mem_mapIdx] at ha
    obtain ⟨i, hi, rfl⟩ := ha
    exact hP _ _ (h _ (List.getElem_mem hi))
  refine ⟨h.succeeds, ?_, ?_, ?_, ?_, ?_⟩
  · intro j j' hj hj'
    obtain ⟨C, hC, hx, hy, hxl, hyl, hxn, hyn⟩ := h.profile j j' hj hj'
    obtain ⟨D, hD⟩ : ∃ D : List (Fin b.all.length),
        D.map (fun i : Fin b.all.length => { b.all[i] with pot := p i }) = C :=
      exists_preimage _ C fun a ha => mem_withPot.1 (hC a ha).1
    rw [← hD] at hC hx hy hxl hyl hxn hyn
    clear hD
    have get : ∀ {k : Nat} {a}, (D.map fun i => b.all[i])[k]? = some a →
        ∃ q, (D.map fun i : Fin b.all.length => { b.all[i] with pot := p i })[k]? = some { a with pot := q } := by
      intro k a hk
      rw [List.getElem?_map] at hk
      obtain ⟨i, hi, rfl⟩ := Option.map_eq_some_iff.1 hk
      exact ⟨p i, by rw [List.getElem?_map, hi]; rfl⟩
    refine ⟨D.map fun i => b.all[i], fun a ha => ?_, ?_, ?_, ?_, ?_, fun k x a hk ha => ?_,
      fun k y a hk ha => ?_⟩
    · obtain ⟨i, hi, rfl⟩ := List.mem_map.1 ha
      have := (hC _ (List.mem_map_of_mem hi)).2
      rw [hE] at this
      exact ⟨List.getElem_mem i.2, this⟩
    · rw [hx, List.map_map, List.map_map]
      exact List.map_congr_left fun i _ => by rw [Function.comp_apply, Function.comp_apply, hE]
    · rw [hy, List.map_map, List.map_map]
      exact List.map_congr_left fun i _ => by rw [Function.comp_apply, Function.comp_apply, hJ]
    · rw [hxl, List.length_map, List.length_map]
    · rw [hyl, List.length_map, List.length_map]
    · obtain ⟨q, hq⟩ := get ha
      have := hxn k x _ hk hq
      rwa [hE] at this
    · obtain ⟨q, hq⟩ := get ha
      have := hyn k y _ hk hq
      rwa [hJ] at this
  · intro j j' hj hj' xs ys γ hx hy hγ hgap i a ha t ht ft
    have := h.circularity j j' hj hj' xs ys γ hx hy hγ hgap i { a with pot := p i }
      (by simp [BGalaxy.withPot, ha]) t ht ft
    rwa [hE, hJ] at this
  · intro j' hj' xs ys γ hx hy hγ hgap junk junk' cut fcut hstar
    refine h.threshold j' hj' xs ys γ hx hy hγ hgap junk junk' cut fcut (star (fun a q => ?_) hstar)
    rw [hE a q, hJ a q]
    exact id
  · intro j' hj' xs ys γ hx hy hγ hgap σ junk rng hrng m d hm hmd hd s hstar
    refine h.jhistogram j' hj' xs ys γ hx hy hγ hgap σ junk rng hrng m d hm hmd hd s (star (fun a q => ?_) hstar)
    rw [hE a q, hJ a q]
    exact id
  · intro j' hj' xs ys γ hx hy hγ hgap σ junk rng hrng m d nE hm hmd hd hE0 hE1 s hstar hen
    refine h.jehistogram j' hj' xs ys γ hx hy hγ hgap σ junk rng hrng m d nE hm hmd hd hE0 hE1 s
      (star (fun a q => ?_) hstar) (star (fun a q => ?_) hen)
    · rw [hE a q, hJ a q]
      exact id
    · rw [hE a q]
      exact id

/-! ## C113 -/

/-- what follows from potentials near the exact ones -/
theorem raw_agrees {sm : List Float64 → Float64} (hsm : ∀ l, Added l (sm l))
    {dt : List (Float64 × Float64) → Float64} (hdt : ∀ l, Fused l (dt l)) (h : SingleData G g b e)
    (hs : SingleInput b e) (ht : RawTurning rc g b e i0 c) {M J θ δ : ℝ}
    (hr : AxisResolved rc b (gravPhi g b e) (gravEta g b e) c M J θ) (hθ : θ ≤ 1 / 4)
    (hδ : 3 * θ + 1 / 2 ^ 49 ≤ δ) (hδ0 : 0 ≤ δ)
    (hc : Clear (rawBound b (orbitE (gravPhi g b e))) (fun i => orbitE (gravPhi g b e) b.all[i] / M)
      (fun i => axisJz rc b c b.all[i] / J) defaultEdges δ)
    (hp : PotNear g b e p) (env : CircEnv Float64) (henv : env.OK) (env' : CircEnv (Ext ℝ)) (henv' : env'.OK) :
    ∃ b2 b2', (center (Galaxy.ofBodies (b.withPot p)) >>= fun g => @starAlign _ (sumDot sm dt) g rc)
        = .ok (Galaxy.ofBodies b2) ∧
      (center (Galaxy.ofBodies ((gravRef g b.all e).galaxy (b.withPot p))) >>= fun g => starAlign g (exactCut rc))
        = .ok (Galaxy.ofBodies b2') ∧
      b2 = (b.withPot p).mapBodies (alignedBody sm dt rc (b.withPot p) { c with pot := p i0 }) ∧
      ((∀ i j : Nat, b2.all[i]? = b2.all[j]? → b.all[i]? = b.all[j]?) →
        AgreesFor b (orbitE (gravPhi g b e)) (axisJz rc b c) M J δ env env'
          (Galaxy.ofBodies b2) (Galaxy.ofBodies b2')) := by
  have hT := raw_turning h hs ht hp
  have hR := raw_resolved (p := p) hr (p i0)
  have hC := raw_clear (p := p) (fun _ _ => rfl) hδ0 (p i0) hc
  rw [exact_potGalaxy]
  refine ⟨_, _, hT.double, hT.exact, rfl, fun hdist => ?_⟩
  have hd : StayDistinct sm dt rc (b.withPot p) { c with pot := p i0 } := by
    rw [mapBodies_all] at hdist
    intro a ha d hd e
    obtain ⟨i, rfl⟩ := mem_withPot.1 ha
    obtain ⟨j, rfl⟩ := mem_withPot.1 hd
    have hpot := (hT.rotated hsm hdt ha).2.2.2
    have hpot' := (hT.rotated hsm hdt hd).2.2.2
    have hij := hdist i j (by
      rw [List.getElem?_map, List.getElem?_map, withPot_get (List.getElem?_eq_getElem i.2),
        withPot_get (List.getElem?_eq_getElem j.2), Option.map_some, Option.map_some]
      exact congrArg some e)
    rw [List.getElem?_eq_getElem i.2, List.getElem?_eq_getElem j.2] at hij
    have hij : b.all[i] = b.all[j] := Option.some.inj hij
    have hpp : p i = p j := by
      rw [e] at hpot
      exact hpot.symm.trans hpot'
    rw [hij, hpp]
  have hag := hT.agrees hsm hdt hR hθ hδ hC env henv env' henv' hd
  rw [axisJz_withPot] at hag
  exact hag.of_withPot (fun _ _ => rfl) fun _ _ => rfl

/-- C113: from raw particles through `potential` (compiled backend), `center` and `star_align` to the
labels of all three models, in single and double precision, against exact arithmetic with softened
Newtonian gravity. -/
theorem C113_fortran {sm : List Float64 → Float64} (hsm : ∀ l, Added l (sm l))
    {dt : List (Float64 × Float64) → Float64} (hdt : ∀ l, Fused l (dt l))
    {dt1 : List (Float32' × Float32') → Float32'} (hdt1 : ∀ l, Fused l (dt1 l)) {G : Float32'}
    (h : SingleData G g b e)
    (hs : SingleInput b e) (ht : RawTurning rc g b e i0 c) {M J θ δ : ℝ}
    (hr : AxisResolved rc b (gravPhi g b e) (gravEta g b e) c M J θ) (hθ : θ ≤ 1 / 4)
    (hδ : 3 * θ + 1 / 2 ^ 49 ≤ δ) (hδ0 : 0 ≤ δ)
    (hc : Clear (rawBound b (orbitE (gravPhi g b e))) (fun i => orbitE (gravPhi g b e) b.all[i] / M)
      (fun i => axisJz rc b c b.all[i] / J) defaultEdges δ)
    (mem : Nat → Nat → Float32') (mem' : Nat → Nat → Ext ℝ) (env : CircEnv Float64) (henv : env.OK)
    (env' : CircEnv (Ext ℝ)) (henv' : env'.OK) :
    ∃ b2 b2', (@potential _ _ _ (singleDotBy dt1) (singleEnv G true mem) (Galaxy.ofBodies b) "fortran" >>= center >>= fun g =>
        @starAlign _ (sumDot sm dt) g rc) = .ok (Galaxy.ofBodies b2) ∧
      (potential (exactEnv (g : ℝ) mem') (Galaxy.ofBodies (exactGalaxy b)) "fortran" >>= center >>= fun g =>
        starAlign g (exactCut rc)) = .ok (Galaxy.ofBodies b2') ∧
      ((∀ i j : Nat, b2.all[i]? = b2.all[j]? → b.all[i]? = b.all[j]?) →
        AgreesFor b (orbitE (gravPhi g b e)) (axisJz rc b c) M J δ env env'
          (Galaxy.ofBodies b2) (Galaxy.ofBodies b2')) := by
  obtain ⟨p, hpot, hp⟩ := C77_relative_error hdt1 h mem
  have hex := exact_sum h hs mem'
  rw [exact_withPot g b e p] at hex
  obtain ⟨b2, b2', h1, h2, -, h3⟩ := raw_agrees hsm hdt h hs ht hr hθ hδ hδ0 hc hp env henv env' henv'
  refine ⟨b2, b2', ?_, ?_, h3⟩
  · rw [hpot, Py.ok_bind]; exact h1
  · rw [hex, Py.ok_bind]; exact h2

/-- C113: the same with the numpy backend, for every order of the additions, if the memory that
`np.divide` leaves on the diagonal happens to hold zeros. -/
theorem C113_numpy {sm : List Float64 → Float64} (hsm : ∀ l, Added l (sm l))
    {dt : List (Float64 × Float64) → Float64} (hdt : ∀ l, Fused l (dt l))
    (sm1 : List Float32' → Float32') (hsm1 : ∀ l, Added l (sm1 l)) {G : Float32'}
    (h : SingleData G g b e)
    (hs : SingleInput b e) (ht : RawTurning rc g b e i0 c) {M J θ δ : ℝ}
    (hr : AxisResolved rc b (gravPhi g b e) (gravEta g b e) c M J θ) (hθ : θ ≤ 1 / 4)
    (hδ : 3 * θ + 1 / 2 ^ 49 ≤ δ) (hδ0 : 0 ≤ δ)
    (hc : Clear (rawBound b (orbitE (gravPhi g b e))) (fun i => orbitE (gravPhi g b e) b.all[i] / M)
      (fun i => axisJz rc b c b.all[i] / J) defaultEdges δ)
    (built : Bool) (mem : Nat → Nat → Float32') (hmem : ∀ i < b.all.length, toExt (mem i i) = .fin 0)
    (mem' : Nat → Nat → Ext ℝ) (env : CircEnv Float64) (henv : env.OK)
    (env' : CircEnv (Ext ℝ)) (henv' : env'.OK) :
    ∃ b2 b2', (@potential _ _ _ (singleSumBy sm1) (singleEnv G built mem) (Galaxy.ofBodies b) "numpy" >>= center
        >>= fun g => @starAlign _ (sumDot sm dt) g rc) = .ok (Galaxy.ofBodies b2) ∧
      (potential (exactEnv (g : ℝ) mem') (Galaxy.ofBodies (exactGalaxy b)) "fortran" >>= center >>= fun g =>
        starAlign g (exactCut rc)) = .ok (Galaxy.ofBodies b2') ∧
      ((∀ i j : Nat, b2.all[i]? = b2.all[j]? → b.all[i]? = b.all[j]?) →
        AgreesFor b (orbitE (gravPhi g b e)) (axisJz rc b c) M J δ env env'
          (Galaxy.ofBodies b2) (Galaxy.ofBodies b2')) := by
  obtain ⟨p, hpot, hp⟩ := C83_numpy sm1 hsm1 h built mem (fun _ => 0) fun i hi => ⟨hmem i hi, Or.inl rfl⟩
  have hp : PotNear g b e p := by
    intro i
    obtain ⟨v, e1, e2⟩ := hp i
    exact ⟨v, e1, by simpa using e2⟩
  have hex := exact_sum h hs mem'
  rw [exact_withPot g b e p] at hex
  obtain ⟨b2, b2', h1, h2, -, h3⟩ := raw_agrees hsm hdt h hs ht hr hθ hδ hδ0 hc hp env henv env' henv'
  refine ⟨b2, b2', ?_, ?_, h3⟩
  · rw [hpot, Py.ok_bind]; exact h1
  · rw [hex, Py.ok_bind]; exact h2

end

end GChop
