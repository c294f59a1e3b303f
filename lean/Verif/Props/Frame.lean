import Verif.Props.Pipeline
import Verif.Props.Potential
import Verif.Props.Invariance

/-!
# C71: the result of the whole pipeline does not depend on the frame

`potential`, `center`, `star_align` and `decompose` one after the other, for a galaxy and for the same
galaxy rotated and moved.
-/

set_option linter.unusedSectionVars false

namespace GChop
open Matrix

section exact
variable {K : Type} [Field K] [LinearOrder K] [IsStrictOrderedRing K] [FloorRing K] [HasSqrt K]
  [LawfulSqrt K]

/-- rotate position and velocity, then move the position -/
def KBody.move (A : Matrix (Fin 3) (Fin 3) K) (t : Fin 3 → K) (k : KBody K) : KBody K :=
  { k with r := A *ᵥ k.r + t, v := A *ᵥ k.v }

theorem withPot_map (g : KGalaxy K) (p : Nat → Ext K) (f : KBody K → KBody K)
    (hf : ∀ a q, f { a with pot := q } = { f a with pot := q }) :
    (g.map f).withPot p = (g.withPot p).map f := by
  have aux : ∀ (l : List (KBody K)) (q : Nat → Ext K),
      ((l.map f).mapIdx fun i a => { a with pot := q i })
        = (l.mapIdx fun i a => { a with pot := q i }).map f := by
    intro l q
    apply List.ext_getElem?
    intro i
    simp only [List.getElem?_mapIdx, List.getElem?_map]
    cases l[i]? with
    | none => rfl
    | some a => exact congrArg some (hf a (q i)).symm
  simp [KGalaxy.withPot, KGalaxy.map, aux]

theorem map_comp (g : KGalaxy K) (f h : KBody K → KBody K) :
    (g.map f).map h = g.map fun a => h (f a) := by
  simp [KGalaxy.map, Function.comp_def]

theorem rotate_rotate (g : KGalaxy K) (A B : Matrix (Fin 3) (Fin 3) K) :
    (g.rotate A).rotate B = g.rotate (B * A) := by
  unfold KGalaxy.rotate
  rw [map_comp]
  congr 1
  funext a
  simp [KBody.rotate, Matrix.mulVec_mulVec]

/-- centring a moved galaxy gives the rotated centred galaxy -/
theorem center_move (g : KGalaxy K) (hp : g.hasPot = true) (hne : g.all ≠ [])
    (A : Matrix (Fin 3) (Fin 3) K) (t : Fin 3 → K) :
    ∃ g₁ : KGalaxy K, center (Galaxy.ofBodies g.toB) = .ok (Galaxy.ofBodies g₁.toB) ∧
      center (Galaxy.ofBodies (g.map (KBody.move A t)).toB)
        = .ok (Galaxy.ofBodies (g₁.rotate A).toB) := by
  obtain ⟨k, _, hk, h1⟩ := center_toB g hp hne
  refine ⟨_, h1, ?_⟩
  obtain ⟨k', _, hk', h2⟩ := center_toB (g.map (KBody.move A t)) hp
    (by rw [KGalaxy.map_all]; simpa using hne)
  have hpots : (g.map (KBody.move A t)).all.map (·.pot) = g.all.map (·.pot) := by
    rw [KGalaxy.map_all, List.map_map]; rfl
  rw [hpots, KGalaxy.map_all, List.getElem?_map, hk] at hk'
  simp only [Option.map_some, Option.some.injEq] at hk'
  subst hk'
  rw [h2, map_comp]
  unfold KGalaxy.rotate
  rw [map_comp]
  congr 4
  funext a
  simp [KBody.move, KBody.translate, KBody.rotate, Matrix.mulVec_sub]

/-- C71: `center(potential(g))` of a galaxy that was rotated (or mirrored) and moved is the rotated
result for the galaxy itself. -/
theorem C71_potential_center (G : K) (junk : Nat → Nat → Ext K) (g : KGalaxy K)
    (hp : g.hasPot = false) (hne : g.all ≠ []) (A : Matrix (Fin 3) (Fin 3) K)
    (hA : A ∈ orthogonalGroup (Fin 3) K) (t : Fin 3 → K) (backend : String)
    (hb : backend = "fortran" ∨ backend = "numpy") :
    ∃ g₁ : KGalaxy K,
      (potential (exactEnv G junk) (Galaxy.ofBodies g.toB) backend >>= center)
        = .ok (Galaxy.ofBodies g₁.toB) ∧
      (potential (exactEnv G junk) (Galaxy.ofBodies (g.map (KBody.move A t)).toB) backend >>= center)
        = .ok (Galaxy.ofBodies (g₁.rotate A).toB) := by
  obtain ⟨p, h1, h2⟩ := C21_isometry G junk g hp (KBody.move A t) (fun _ => rfl) (by
    intro a b
    have h3 : Aᵀ * A = 1 := (mem_orthogonalGroup_iff' (Fin 3) K).1 hA
    have : (a.move A t).r - (b.move A t).r = A *ᵥ (a.r - b.r) := by
      simp [KBody.move, Matrix.mulVec_sub]
    rw [this, Matrix.dotProduct_mulVec, ← Matrix.mulVec_transpose, Matrix.mulVec_mulVec, h3,
      Matrix.one_mulVec]) backend hb
  rw [h1, h2]
  simp only [Py.ok_bind]
  rw [toB_withPot, toB_withPot, withPot_map _ _ _ (fun _ _ => rfl)]
  exact center_move (g.withPot p) rfl (by intro h; apply hne; rw [← List.length_eq_zero_iff] at h ⊢; simpa [KGalaxy.withPot, KGalaxy.all] using h) A t

/-- a rotation that keeps the z axis is a rotation about it -/
theorem so3_fix_z {B : Matrix (Fin 3) (Fin 3) K} (hB : B ∈ specialOrthogonalGroup (Fin 3) K)
    (hz : B *ᵥ ![0, 0, 1] = ![0, 0, 1]) : ∃ c s : K, c * c + s * s = 1 ∧ B = rotZ c s := by
  have hT : Bᵀ * B = 1 :=
    (mem_orthogonalGroup_iff' (Fin 3) K).1 (mem_specialOrthogonalGroup_iff.1 hB).1
  have hd := (mem_specialOrthogonalGroup_iff.1 hB).2
  have hz' : Bᵀ *ᵥ ![0, 0, 1] = ![0, 0, 1] := by
    conv_lhs => rw [← hz]
    rw [Matrix.mulVec_mulVec, hT, Matrix.one_mulVec]
  have c0 := congrFun hz 0
  have c1 := congrFun hz 1
  have c2 := congrFun hz 2
  have r0 := congrFun hz' 0
  have r1 := congrFun hz' 1
  simp [mulVec, dotProduct, Fin.sum_univ_three] at c0 c1 c2 r0 r1
  have e := fun i j => congrFun (congrFun hT i) j
  have e00 := e 0 0
  have e01 := e 0 1
  have e11 := e 1 1
  simp [Matrix.mul_apply, Fin.sum_univ_three, r0, r1] at e00 e01 e11
  rw [Matrix.det_fin_three] at hd
  simp [c0, c1, c2, r0, r1] at hd
  have h1 : B 1 1 = B 0 0 := by
    linear_combination (-(B 1 1)) * e00 + B 1 0 * e01 + B 0 0 * hd
  have h2 : B 0 1 = -B 1 0 := by
    linear_combination (-(B 0 1)) * e00 + B 0 0 * e01 - B 1 0 * hd
  refine ⟨B 0 0, B 1 0, e00, ?_⟩
  ext i j
  fin_cases i <;> fin_cases j <;> simp [rotZ, c0, c1, c2, r0, r1, h1, h2]

/-- the vector is not on the z axis -/
def OffAxis (J : Fin 3 → K) : Prop := J 0 ≠ 0 ∨ J 1 ≠ 0

/-- C71: `star_align` of a rotated galaxy differs from `star_align` of the galaxy by a rotation about
the z axis. -/
theorem C71_star_align (g : KGalaxy K) (A : Matrix (Fin 3) (Fin 3) K)
    (hA : A ∈ specialOrthogonalGroup (Fin 3) K) (rCut : Option K) (hc : ∀ c ∈ rCut, 0 < c)
    (h1 : OffAxis (totalL rCut g.stars)) (h2 : OffAxis (A *ᵥ totalL rCut g.stars)) :
    ∃ (h : KGalaxy K) (c s : K), c * c + s * s = 1 ∧
      starAlign (Galaxy.ofBodies g.toB) (rCut.map .fin) = .ok (Galaxy.ofBodies h.toB) ∧
      starAlign (Galaxy.ofBodies (g.rotate A).toB) (rCut.map .fin)
        = .ok (Galaxy.ofBodies (h.rotate (rotZ c s)).toB) := by
  have hL : totalL rCut (g.rotate A).stars = A *ᵥ totalL rCut g.stars := totalL_rotate hA rCut g.stars
  have e1 := starAlign_toB g rCut hc h1
  have e2 := starAlign_toB (g.rotate A) rCut hc (by rw [hL]; exact h2)
  rw [hL] at e2
  generalize totalL rCut g.stars = J at *
  have m1 := alignK_mem h1
  have m2 := alignK_mem h2
  have t1 : alignK J * (alignK J)ᵀ = 1 :=
    (mem_orthogonalGroup_iff (Fin 3) K).1 (mem_specialOrthogonalGroup_iff.1 m1).1
  have t2 : (alignK J)ᵀ * alignK J = 1 :=
    (mem_orthogonalGroup_iff' (Fin 3) K).1 (mem_specialOrthogonalGroup_iff.1 m1).1
  have m1' : (alignK J)ᵀ ∈ specialOrthogonalGroup (Fin 3) K := by
    apply mem_so3
    · rw [Matrix.transpose_transpose, t2]
    · rw [Matrix.det_transpose]; exact (mem_specialOrthogonalGroup_iff.1 m1).2
  set B := alignK (A *ᵥ J) * A * (alignK J)ᵀ with hBdef
  have mB : B ∈ specialOrthogonalGroup (Fin 3) K := mul_mem (mul_mem m2 hA) m1'
  have hj := ksqrt_pos (J_pos h1)
  have hz : B *ᵥ ![0, 0, 1] = ![0, 0, 1] := by
    have k1 : ![0, 0, 1] = (HasSqrt.ksqrt (J ⬝ᵥ J))⁻¹ • (alignK J *ᵥ J) := by
      rw [alignK_mulVec h1]
      ext i
      fin_cases i <;> simp [hj.ne']
    have k2 : (alignK J)ᵀ *ᵥ (alignK J *ᵥ J) = J := by
      rw [Matrix.mulVec_mulVec, t2, Matrix.one_mulVec]
    conv_lhs => rw [k1]
    rw [Matrix.mulVec_smul, hBdef, ← Matrix.mulVec_mulVec, k2, ← Matrix.mulVec_mulVec,
      alignK_mulVec h2, so3_dot hA]
    ext i
    fin_cases i <;> simp [hj.ne']
  obtain ⟨c, s, hcs, hB⟩ := so3_fix_z mB hz
  refine ⟨_, c, s, hcs, e1, ?_⟩
  rw [e2, rotate_rotate, rotate_rotate, ← hB, hBdef, Matrix.mul_assoc, t2, Matrix.mul_one]

/-- all the steps before a decomposition -/
def prepare {F S : Type} [Num F] [Num S] (env : PotEnv F S) (backend : String) (rCut : Option F) (g : Galaxy F) :
    Py (Galaxy F) := do
  let g ← potential env g backend
  let g ← center g
  starAlign g rCut

theorem prepare_move (G : K) (junk : Nat → Nat → Ext K) (g : KGalaxy K)
    (hp : g.hasPot = false) (hne : g.all ≠ []) (A : Matrix (Fin 3) (Fin 3) K)
    (hA : A ∈ specialOrthogonalGroup (Fin 3) K) (t : Fin 3 → K) (backend : String)
    (hb : backend = "fortran" ∨ backend = "numpy") (rCut : Option K) (hc : ∀ c ∈ rCut, 0 < c)
    (hoff : ∀ g₁ : KGalaxy K, (potential (exactEnv G junk) (Galaxy.ofBodies g.toB) backend >>= center)
      = .ok (Galaxy.ofBodies g₁.toB) →
      OffAxis (totalL rCut g₁.stars) ∧ OffAxis (A *ᵥ totalL rCut g₁.stars)) :
    ∃ (h : KGalaxy K) (c s : K), c * c + s * s = 1 ∧
      prepare (exactEnv G junk) backend (rCut.map .fin) (Galaxy.ofBodies g.toB)
        = .ok (Galaxy.ofBodies h.toB) ∧
      prepare (exactEnv G junk) backend (rCut.map .fin) (Galaxy.ofBodies (g.map (KBody.move A t)).toB)
        = .ok (Galaxy.ofBodies (h.rotate (rotZ c s)).toB) := by
  obtain ⟨g₁, h1, h2⟩ := C71_potential_center G junk g hp hne A
    (mem_specialOrthogonalGroup_iff.1 hA).1 t backend hb
  obtain ⟨o1, o2⟩ := hoff g₁ h1
  obtain ⟨h, c, s, hcs, e1, e2⟩ := C71_star_align g₁ A hA rCut hc o1 o2
  have hpre : ∀ g g' : Galaxy (Ext K), (potential (exactEnv G junk) g backend >>= center) = .ok g' →
      prepare (exactEnv G junk) backend (rCut.map .fin) g = starAlign g' (rCut.map .fin) := by
    intro g g' h
    show (potential (exactEnv G junk) g backend >>= fun g =>
      center g >>= fun g => starAlign g (rCut.map .fin)) = _
    rw [← bind_assoc, h]
    rfl
  exact ⟨h, c, s, hcs, by rw [hpre _ _ h1, e1], by rw [hpre _ _ h2, e2]⟩

/-- C71: circularities after `potential`, `center` and `star_align` are the same for a galaxy and for
the galaxy rotated and moved, if its angular momentum is not on the z axis before or after. -/
theorem C71_circularity (env : CircEnv (Ext K)) (G : K) (junk : Nat → Nat → Ext K) (g : KGalaxy K)
    (hp : g.hasPot = false) (hne : g.all ≠ []) (A : Matrix (Fin 3) (Fin 3) K)
    (hA : A ∈ specialOrthogonalGroup (Fin 3) K) (t : Fin 3 → K) (backend : String)
    (hb : backend = "fortran" ∨ backend = "numpy") (rCut : Option K) (hc : ∀ c ∈ rCut, 0 < c)
    (hoff : ∀ g₁ : KGalaxy K, (potential (exactEnv G junk) (Galaxy.ofBodies g.toB) backend >>= center)
      = .ok (Galaxy.ofBodies g₁.toB) →
      OffAxis (totalL rCut g₁.stars) ∧ OffAxis (A *ᵥ totalL rCut g₁.stars)) (bin0 bin1 : Ext K) :
    (prepare (exactEnv G junk) backend (rCut.map .fin) (Galaxy.ofBodies (g.map (KBody.move A t)).toB)
        >>= fun h => jcirc env h bin0 bin1)
      = (prepare (exactEnv G junk) backend (rCut.map .fin) (Galaxy.ofBodies g.toB)
        >>= fun h => jcirc env h bin0 bin1) := by
  obtain ⟨h, c, s, hcs, p1, p2⟩ := prepare_move G junk g hp hne A hA t backend hb rCut hc hoff
  rw [p1, p2]
  simp only [Py.ok_bind]
  exact C28_rotation env h hcs bin0 bin1

/-- C71: and so is the decomposition. -/
theorem C71_decompose (env : CircEnv (Ext K)) (cbins : Ext K × Ext K) (dec : Decomposer (Ext K))
    (ha : ∀ a ∈ dec.attributes, a ∈ circularityAttributes) (G : K) (junk : Nat → Nat → Ext K)
    (g : KGalaxy K) (hp : g.hasPot = false) (hne : g.all ≠ []) (A : Matrix (Fin 3) (Fin 3) K)
    (hA : A ∈ specialOrthogonalGroup (Fin 3) K) (t : Fin 3 → K) (backend : String)
    (hb : backend = "fortran" ∨ backend = "numpy") (rCut : Option K) (hc : ∀ c ∈ rCut, 0 < c)
    (hoff : ∀ g₁ : KGalaxy K, (potential (exactEnv G junk) (Galaxy.ofBodies g.toB) backend >>= center)
      = .ok (Galaxy.ofBodies g₁.toB) →
      OffAxis (totalL rCut g₁.stars) ∧ OffAxis (A *ᵥ totalL rCut g₁.stars)) :
    (prepare (exactEnv G junk) backend (rCut.map .fin) (Galaxy.ofBodies (g.map (KBody.move A t)).toB)
        >>= decompose env cbins dec)
      = (prepare (exactEnv G junk) backend (rCut.map .fin) (Galaxy.ofBodies g.toB)
        >>= decompose env cbins dec) := by
  obtain ⟨h, c, s, hcs, p1, p2⟩ := prepare_move G junk g hp hne A hA t backend hb rCut hc hoff
  rw [p1, p2]
  simp only [Py.ok_bind]
  exact C64_rotation env cbins dec ha h hcs

end exact

/-! ## Examples -/

/-- a star with angular momentum `(3, 0, 4)`, and the same galaxy rotated about the y axis by a rational
rotation that brings it to `(0, 0, 5)` -/
def exFrame : BGalaxy (Ext ℚ) :=
  { stars := [⟨q 1, q 0, q 1, q 0, q (-4), q 0, q 3, q (-100)⟩]
    dm := [⟨q 1, q 0, q 0, q 0, q 0, q 0, q 0, q (-200)⟩,
      ⟨q 1, q 0, q 2, q 0, q (-4), q 0, q 3, q (-13)⟩]
    gas := []
    hasPot := true, softS := q 0, softDm := q 0, softG := q 0 }

def exFrame' : BGalaxy (Ext ℚ) :=
  { stars := [⟨q 1, q 0, q 1, q 0, q (-5), q 0, q 0, q (-100)⟩]
    dm := [⟨q 1, q 0, q 0, q 0, q 0, q 0, q 0, q (-200)⟩,
      ⟨q 1, q 0, q 2, q 0, q (-5), q 0, q 0, q (-13)⟩]
    gas := []
    hasPot := true, softS := q 0, softDm := q 0, softG := q 0 }

/-- C71 (the condition is needed): in the frame where the angular momentum is on the z axis already,
`star_align` gives NaN (C15) and the decomposition raises. -/
theorem C71_on_axis_raises :
    ((do let g ← center (Galaxy.ofBodies exFrame)
         let g ← starAlign g none
         decompose exEnv defaultCbin (jThreshold (fun _ => 7) (q (3/5))) g).toOption.map
      Components.labels) = some [some 1, none, none] ∧
    (do let g ← center (Galaxy.ofBodies exFrame')
        let g ← starAlign g none
        let c ← decompose exEnv defaultCbin (jThreshold (fun _ => 7) (q (3/5))) g
        return c.labels) = .error .valueError := by
  constructor <;> decide +kernel

/-- two stars on opposite sides of a dark matter particle -/
noncomputable def exPair : KGalaxy ℝ :=
  { stars := [⟨1, ![1, 0, 0], ![0, 1, 1], .nan⟩, ⟨1, ![-1, 0, 0], ![0, -1, -1], .nan⟩]
    dm := [⟨1, ![0, 0, 0], ![0, 0, 0], .nan⟩]
    gas := []
    hasPot := false, softS := .fin 0, softDm := .fin 0, softG := .fin 0 }

/-- the columns of the stars determine their angular momentum -/
theorem totalL_of_eq {K : Type} [Field K] [LinearOrder K] [IsStrictOrderedRing K] [FloorRing K]
    [HasSqrt K] (rCut : Option K) {g h : KGalaxy K}
    (e : Galaxy.ofBodies g.toB = Galaxy.ofBodies h.toB) :
    totalL rCut g.stars = totalL rCut h.stars := by
  have hs := congrArg Galaxy.stars e
  have col : ∀ f : ParticleSet (Ext K) → List (Ext K),
      f (Galaxy.ofBodies g.toB).stars = f (Galaxy.ofBodies h.toB).stars := fun f => by rw [hs]
  have h1 := col (·.m)
  have h2 := col (·.x)
  have h3 := col (·.y)
  have h4 := col (·.z)
  have h5 := col (·.vx)
  have h6 := col (·.vy)
  have h7 := col (·.vz)
  simp only [Galaxy.ofBodies, ParticleSet.ofBodies, BGalaxy.sSet, KGalaxy.toB, List.map_map] at *
  generalize g.stars = s at *
  generalize h.stars = t at *
  clear hs e col
  unfold totalL
  have key : ∀ s t : List (KBody K),
      List.map ((fun x => x.m) ∘ KBody.body) s = List.map ((fun x => x.m) ∘ KBody.body) t →
      List.map ((fun x => x.x) ∘ KBody.body) s = List.map ((fun x => x.x) ∘ KBody.body) t →
      List.map ((fun x => x.y) ∘ KBody.body) s = List.map ((fun x => x.y) ∘ KBody.body) t →
      List.map ((fun x => x.z) ∘ KBody.body) s = List.map ((fun x => x.z) ∘ KBody.body) t →
      List.map ((fun x => x.vx) ∘ KBody.body) s = List.map ((fun x => x.vx) ∘ KBody.body) t →
      List.map ((fun x => x.vy) ∘ KBody.body) s = List.map ((fun x => x.vy) ∘ KBody.body) t →
      List.map ((fun x => x.vz) ∘ KBody.body) s = List.map ((fun x => x.vz) ∘ KBody.body) t →
      (s.filter (KBody.inside rCut)).map (fun k => k.m • k.L)
        = (t.filter (KBody.inside rCut)).map fun k => k.m • k.L := by
    intro s
    induction s with
    | nil => intro t h1; cases t <;> simp_all
    | cons a s ih =>
      intro t h1 h2 h3 h4 h5 h6 h7
      cases t with
      | nil => simp at h1
      | cons c t =>
        simp only [List.map_cons, List.cons.injEq, Function.comp_apply, KBody.body,
          Ext.fin.injEq] at h1 h2 h3 h4 h5 h6 h7
        have hr : a.r = c.r := by
          funext i; fin_cases i
          · exact h2.1
          · exact h3.1
          · exact h4.1
        have hv : a.v = c.v := by
          funext i; fin_cases i
          · exact h5.1
          · exact h6.1
          · exact h7.1
        have hin : a.inside rCut = c.inside rCut := by
          unfold KBody.inside; rw [hr]
        have hL : a.m • a.L = c.m • c.L := by
          unfold KBody.L; rw [hr, hv, h1.1]
        have := ih t h1.2 h2.2 h3.2 h4.2 h5.2 h6.2 h7.2
        rw [List.filter_cons, List.filter_cons, hin]
        split
        · rw [List.map_cons, List.map_cons, hL, this]
        · exact this
  rw [key s t h1 h2 h3 h4 h5 h6 h7]

/-- non-vacuity: over the reals, wherever the centre of the pair is put its angular momentum is
`(0, -2, 2)` -/
theorem exPair_J (G : ℝ) (junk : Nat → Nat → Ext ℝ) (g₁ : KGalaxy ℝ)
    (h : (potential (exactEnv G junk) (Galaxy.ofBodies exPair.toB) "fortran" >>= center)
      = .ok (Galaxy.ofBodies g₁.toB)) : totalL none g₁.stars = ![0, -2, 2] := by
  obtain ⟨p, h1, _⟩ := C21_isometry G junk exPair rfl id (fun _ => rfl) (fun _ _ => rfl) "fortran"
    (Or.inl rfl)
  rw [h1] at h
  simp only [Py.ok_bind] at h
  rw [toB_withPot] at h
  obtain ⟨k, hk, _, h2⟩ := center_toB (exPair.withPot p) rfl (by simp [exPair, KGalaxy.withPot, KGalaxy.all])
  rw [h2] at h
  injection h with h
  rw [← totalL_of_eq none h]
  simp only [exPair, KGalaxy.withPot, KGalaxy.all, KGalaxy.map, List.mapIdx_cons, List.mapIdx_nil,
    List.cons_append, List.nil_append, List.append_nil, List.mem_cons, List.not_mem_nil, or_false] at hk ⊢
  rcases hk with rfl | rfl | rfl <;>
  · have hin : (KBody.inside (none : Option ℝ)) = fun _ => true := rfl
    rw [totalL, hin, List.filter_true]
    simp only [List.map_cons, List.map_nil, KBody.translate, KBody.L, List.sum_cons, List.sum_nil,
      cross_apply]
    ext i
    fin_cases i <;> simp <;> norm_num

/-- a rotation by a right angle about the x axis -/
def exRot : Matrix (Fin 3) (Fin 3) ℝ := !![1, 0, 0; 0, 0, -1; 0, 1, 0]

example (env : CircEnv (Ext ℝ)) (G : ℝ) (junk : Nat → Nat → Ext ℝ) (t : Fin 3 → ℝ) (bin0 bin1 : Ext ℝ) :
    (prepare (exactEnv G junk) "fortran" none (Galaxy.ofBodies (exPair.map (KBody.move exRot t)).toB)
        >>= fun h => jcirc env h bin0 bin1)
      = (prepare (exactEnv G junk) "fortran" none (Galaxy.ofBodies exPair.toB)
        >>= fun h => jcirc env h bin0 bin1) := by
  refine C71_circularity env G junk exPair rfl (by simp [exPair, KGalaxy.all]) exRot ?_ t "fortran"
    (Or.inl rfl) none (by simp) ?_ bin0 bin1
  · apply mem_so3
    · ext i j
      fin_cases i <;> fin_cases j <;> simp [exRot, Matrix.mul_apply, Fin.sum_univ_three]
    · simp [exRot, Matrix.det_fin_three]
  · intro g₁ h
    rw [exPair_J G junk g₁ h]
    constructor
    · right; simp
    · right; simp [exRot, mulVec, dotProduct, Fin.sum_univ_three]

end GChop
