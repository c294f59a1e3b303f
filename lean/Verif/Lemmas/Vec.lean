import Verif.Spec.Vec
import Verif.Lemmas.Align
import Verif.Lemmas.Ext
import Mathlib.LinearAlgebra.Matrix.Adjugate
import Mathlib.Tactic.FieldSimp
import Mathlib.Tactic.LinearCombination
import Mathlib.Tactic.Positivity

/-!
# Vectors, rotations and the floats of `Ext K`
-/

set_option linter.unusedSectionVars false

namespace GChop

open Matrix

section rot
variable {K : Type} [Field K]

theorem so3_adjugate {A : Matrix (Fin 3) (Fin 3) K} (h : A ∈ specialOrthogonalGroup (Fin 3) K) :
    A.adjugate = Aᵀ := by
  obtain ⟨h1, h2⟩ := mem_specialOrthogonalGroup_iff.1 h
  have h3 : Aᵀ * A = 1 := (mem_orthogonalGroup_iff' (Fin 3) K).1 h1
  calc A.adjugate = (Aᵀ * A) * A.adjugate := by rw [h3, one_mul]
    _ = Aᵀ * (A * A.adjugate) := by rw [Matrix.mul_assoc]
    _ = Aᵀ := by rw [mul_adjugate, h2, one_smul, Matrix.mul_one]

/-- a rotation commutes with the cross product -/
theorem so3_cross {A : Matrix (Fin 3) (Fin 3) K} (h : A ∈ specialOrthogonalGroup (Fin 3) K)
    (u v : Fin 3 → K) : crossProduct (A *ᵥ u) (A *ᵥ v) = A *ᵥ crossProduct u v := by
  have h1 := so3_adjugate h
  rw [adjugate_fin_three] at h1
  have e : ∀ i j, _ := fun i j => congrFun (congrFun h1 i) j
  have e00 := e 0 0
  have e01 := e 0 1
  have e02 := e 0 2
  have e10 := e 1 0
  have e11 := e 1 1
  have e12 := e 1 2
  have e20 := e 2 0
  have e21 := e 2 1
  have e22 := e 2 2
  simp [Matrix.transpose_apply] at e00 e01 e02 e10 e11 e12 e20 e21 e22
  ext i
  fin_cases i
  · simp [cross_apply, mulVec, dotProduct, Fin.sum_univ_three]
    rw [← e00, ← e10, ← e20]; ring
  · simp [cross_apply, mulVec, dotProduct, Fin.sum_univ_three]
    rw [← e01, ← e11, ← e21]; ring
  · simp [cross_apply, mulVec, dotProduct, Fin.sum_univ_three]
    rw [← e02, ← e12, ← e22]; ring

/-- a rotation preserves scalar products -/
theorem so3_dot {A : Matrix (Fin 3) (Fin 3) K} (h : A ∈ specialOrthogonalGroup (Fin 3) K)
    (u v : Fin 3 → K) : (A *ᵥ u) ⬝ᵥ (A *ᵥ v) = u ⬝ᵥ v := by
  have h3 : Aᵀ * A = 1 :=
    (mem_orthogonalGroup_iff' (Fin 3) K).1 (mem_specialOrthogonalGroup_iff.1 h).1
  rw [Matrix.dotProduct_mulVec, ← Matrix.mulVec_transpose, Matrix.mulVec_mulVec, h3,
    Matrix.one_mulVec]

theorem mem_so3 {A : Matrix (Fin 3) (Fin 3) K} (h1 : A * Aᵀ = 1) (h2 : A.det = 1) :
    A ∈ specialOrthogonalGroup (Fin 3) K :=
  mem_specialOrthogonalGroup_iff.2 ⟨(mem_orthogonalGroup_iff (Fin 3) K).2 h1, h2⟩

variable [LinearOrder K]

theorem rotate_inside {A : Matrix (Fin 3) (Fin 3) K} (h : A ∈ specialOrthogonalGroup (Fin 3) K)
    (rCut : Option K) (k : KBody K) : (k.rotate A).inside rCut = k.inside rCut := by
  cases rCut <;> simp [KBody.inside, KBody.rotate, so3_dot h]

theorem rotate_L {A : Matrix (Fin 3) (Fin 3) K} (h : A ∈ specialOrthogonalGroup (Fin 3) K)
    (k : KBody K) : (k.rotate A).L = A *ᵥ k.L := so3_cross h _ _

theorem mulVec_list_sum (A : Matrix (Fin 3) (Fin 3) K) (l : List (Fin 3 → K)) :
    A *ᵥ l.sum = (l.map (A *ᵥ ·)).sum := by
  induction l with
  | nil => simp
  | cons a l ih => simp [Matrix.mulVec_add, ih]

theorem totalL_rotate {A : Matrix (Fin 3) (Fin 3) K} (h : A ∈ specialOrthogonalGroup (Fin 3) K)
    (rCut : Option K) (l : List (KBody K)) :
    totalL rCut (l.map (KBody.rotate A)) = A *ᵥ totalL rCut l := by
  unfold totalL
  rw [mulVec_list_sum, List.filter_map, List.map_map, List.map_map]
  have : (KBody.inside rCut ∘ KBody.rotate A) = KBody.inside rCut := by
    funext k; exact rotate_inside h rCut k
  rw [this]
  congr 1
  apply List.map_congr_left
  intro k _
  simp [rotate_L h, Matrix.mulVec_smul]
  rfl

end rot

section ext
variable {K : Type} [Field K] [LinearOrder K] [IsStrictOrderedRing K] [FloorRing K] [HasSqrt K]

theorem body_jx (k : KBody K) : k.body.jx = .fin (k.L 0) := by
  simp [Body.jx, KBody.body, KBody.L, cross_apply]
theorem body_jy (k : KBody K) : k.body.jy = .fin (k.L 1) := by
  simp [Body.jy, KBody.body, KBody.L, cross_apply]
theorem body_jz (k : KBody K) : k.body.jz = .fin (k.L 2) := by
  simp [Body.jz, KBody.body, KBody.L, cross_apply]

theorem dot_self (u : Fin 3 → K) : u ⬝ᵥ u = u 0 * u 0 + u 1 * u 1 + u 2 * u 2 := by
  simp [dotProduct, Fin.sum_univ_three]

theorem dot_self_nonneg (u : Fin 3 → K) : 0 ≤ u ⬝ᵥ u := by
  rw [dot_self]; linarith [mul_self_nonneg (u 0), mul_self_nonneg (u 1), mul_self_nonneg (u 2)]

theorem body_inside [LawfulSqrt K] (rCut : Option K) (k : KBody K) :
    k.body.inside (rCut.map Ext.fin) = k.inside rCut := by
  cases rCut with
  | none => rfl
  | some c =>
    have hs := LawfulSqrt.sqrt_mul_self (k.r ⬝ᵥ k.r) (dot_self_nonneg _)
    have hn := LawfulSqrt.sqrt_nonneg (k.r ⬝ᵥ k.r)
    have h : (Num.sqrt (Num.sq k.body.x +. Num.sq k.body.y +. Num.sq k.body.z) : Ext K)
        = .fin (HasSqrt.ksqrt (k.r ⬝ᵥ k.r)) := by
      simp only [KBody.body, Ext.num_sq, Ext.num_add]
      rw [← dot_self, Ext.num_sqrt _ (dot_self_nonneg _)]
    simp only [Body.inside, Option.map_some, h, KBody.inside, Ext.num_lt]
    congr 1
    apply propext
    generalize HasSqrt.ksqrt (k.r ⬝ᵥ k.r) = s at *
    rw [← hs]
    constructor
    · intro hc
      exact ⟨lt_of_le_of_lt hn hc, by nlinarith⟩
    · rintro ⟨hc, h2⟩
      by_contra hh
      rw [not_lt] at hh
      nlinarith

theorem filter_inside [LawfulSqrt K] (rCut : Option K) (l : List (KBody K)) :
    (l.map KBody.body).filter (Body.inside (rCut.map Ext.fin))
      = (l.filter (KBody.inside rCut)).map KBody.body := by
  rw [List.filter_map]
  congr 1
  apply List.filter_congr
  intro k _
  exact body_inside rCut k

theorem sum_fin {α : Type} (l : List α) (f : α → Ext K) (g : α → K) (h : ∀ a ∈ l, f a = .fin (g a)) :
    Num.sum (l.map f) = Ext.fin (l.map g).sum := by
  rw [← Ext.num_sum, List.map_map]
  congr 1
  exact List.map_congr_left fun a ha => h a ha

theorem totalL_apply (rCut : Option K) (l : List (KBody K)) (i : Fin 3) :
    totalL rCut l i = ((l.filter (KBody.inside rCut)).map fun k => k.m * k.L i).sum := by
  unfold totalL
  generalize l.filter (KBody.inside rCut) = l'
  induction l' with
  | nil => simp
  | cons a l ih => simp [ih]

theorem totalInside_body [LawfulSqrt K] (rCut : Option K) (l : List (KBody K))
    (f : Body (Ext K) → Ext K) (i : Fin 3) (h : ∀ k : KBody K, f k.body = .fin (k.m * k.L i)) :
    totalInside (rCut.map Ext.fin) (l.map KBody.body) f = .fin (totalL rCut l i) := by
  rw [totalL_apply]
  unfold totalInside
  rw [filter_inside, List.map_map]
  exact sum_fin _ _ _ fun k _ => h k

/-- a matrix of floats with finite entries -/
def Mat3.ofMatrix (A : Matrix (Fin 3) (Fin 3) K) : Mat3 (Ext K) :=
  ⟨.fin (A 0 0), .fin (A 0 1), .fin (A 0 2), .fin (A 1 0), .fin (A 1 1), .fin (A 1 2),
    .fin (A 2 0), .fin (A 2 1), .fin (A 2 2)⟩

theorem dot3_fin (a b c x y z : K) :
    (dot3 (.fin a) (.fin b) (.fin c) (.fin x) (.fin y) (.fin z) : Ext K)
      = .fin (a * x + b * y + c * z) := by
  show (((Ext.fin 0 : Ext K) +. (.fin a *. .fin x)) +. (.fin b *. .fin y)) +. (.fin c *. .fin z) = _
  simp

theorem rot_body (A : Matrix (Fin 3) (Fin 3) K) (k : KBody K) :
    k.body.rot (Mat3.ofMatrix A) = (k.rotate A).body := by
  simp [Body.rot, Mat3.ofMatrix, KBody.body, KBody.rotate, dot3_fin, mulVec, dotProduct,
    Fin.sum_univ_three]

theorem toB_map {f : Body (Ext K) → Body (Ext K)} {h : KBody K → KBody K}
    (hf : ∀ k, f k.body = (h k).body) (g : KGalaxy K) :
    g.toB.mapBodies f = (g.map h).toB := by
  simp [BGalaxy.mapBodies, KGalaxy.toB, KGalaxy.map, Function.comp_def, hf]

/-- the alignment matrix for a total `J` that is not on the z axis -/
def alignK (J : Fin 3 → K) : Matrix (Fin 3) (Fin 3) K :=
  let p := HasSqrt.ksqrt (J 0 * J 0 + J 1 * J 1)
  let j := HasSqrt.ksqrt (J ⬝ᵥ J)
  !![J 1 / p, -J 0 / p, 0;
     J 0 * J 2 / (p * j), J 1 * J 2 / (p * j), -p / j;
     J 0 / j, J 1 / j, J 2 / j]

theorem perp_pos {J : Fin 3 → K} (h : J 0 ≠ 0 ∨ J 1 ≠ 0) : 0 < J 0 * J 0 + J 1 * J 1 := by
  rcases h with h | h
  · have := mul_self_pos.2 h
    nlinarith [mul_self_nonneg (J 1)]
  · have := mul_self_pos.2 h
    nlinarith [mul_self_nonneg (J 0)]

theorem ksqrt_pos [LawfulSqrt K] {a : K} (h : 0 < a) : 0 < HasSqrt.ksqrt a := by
  have h1 := LawfulSqrt.sqrt_mul_self a h.le
  have h2 := LawfulSqrt.sqrt_nonneg a
  rcases h2.lt_or_eq with h3 | h3
  · exact h3
  · rw [← h3] at h1; simp at h1; exact absurd h1 h.ne

theorem ksqrt_zero [LawfulSqrt K] : HasSqrt.ksqrt (0 : K) = 0 := by
  have h1 := LawfulSqrt.sqrt_mul_self (0 : K) le_rfl
  exact mul_self_eq_zero.1 h1

theorem ksqrt_mul_self [LawfulSqrt K] {a : K} (h : 0 ≤ a) : HasSqrt.ksqrt (a * a) = a := by
  have h1 := LawfulSqrt.sqrt_mul_self (a * a) (mul_self_nonneg a)
  have h2 := LawfulSqrt.sqrt_nonneg (a * a)
  exact (mul_self_inj h2 h).1 h1

theorem J_pos {J : Fin 3 → K} (h : J 0 ≠ 0 ∨ J 1 ≠ 0) : 0 < J ⬝ᵥ J := by
  rw [dot_self]; nlinarith [perp_pos h, mul_self_nonneg (J 2)]

theorem rotFromJ_fin [LawfulSqrt K] {J : Fin 3 → K} (h : J 0 ≠ 0 ∨ J 1 ≠ 0) :
    rotFromJ (.fin (J 0)) (.fin (J 1)) (.fin (J 2)) = Mat3.ofMatrix (alignK J) := by
  have hp := (ksqrt_pos (perp_pos h)).ne'
  have hj := (ksqrt_pos (J_pos h)).ne'
  simp only [rotFromJ, Ext.num_sq, Ext.num_add, Ext.num_mul, Ext.num_neg, Ext.num_ofRat]
  rw [← dot_self, Ext.num_sqrt _ (perp_pos h).le, Ext.num_sqrt _ (J_pos h).le]
  simp only [Ext.num_neg, Ext.num_mul]
  rw [Ext.num_div _ _ hp, Ext.num_div _ _ hp, Ext.num_div _ _ hj, Ext.num_div _ _ hj,
    Ext.num_div _ _ hj, Ext.num_div _ _ hj, Ext.num_div _ _ (mul_ne_zero hp hj),
    Ext.num_div _ _ (mul_ne_zero hp hj)]
  simp [Mat3.ofMatrix, alignK]

theorem alignK_mem [LawfulSqrt K] {J : Fin 3 → K} (h : J 0 ≠ 0 ∨ J 1 ≠ 0) :
    alignK J ∈ specialOrthogonalGroup (Fin 3) K := by
  have hp := (ksqrt_pos (perp_pos h)).ne'
  have hj := (ksqrt_pos (J_pos h)).ne'
  have hpp := LawfulSqrt.sqrt_mul_self _ (perp_pos h).le
  have hjj := LawfulSqrt.sqrt_mul_self _ (J_pos h).le
  rw [dot_self] at hj hjj
  apply mem_so3
  · simp only [alignK, dot_self]
    generalize HasSqrt.ksqrt (J 0 * J 0 + J 1 * J 1) = p at *
    generalize HasSqrt.ksqrt (J 0 * J 0 + J 1 * J 1 + J 2 * J 2) = j at *
    ext a b
    fin_cases a <;> fin_cases b <;> simp [Matrix.mul_apply, Fin.sum_univ_three] <;> field_simp
    · linear_combination (-1) * hpp
    · ring
    · ring
    · ring
    · linear_combination (p ^ 2 - J 2 ^ 2) * hpp - p ^ 2 * hjj
    · linear_combination (-J 2) * hpp
    · ring
    · linear_combination (-J 2) * hpp
    · linear_combination (-1) * hjj
  · simp only [alignK, dot_self, Matrix.det_fin_three]
    generalize HasSqrt.ksqrt (J 0 * J 0 + J 1 * J 1) = p at *
    generalize HasSqrt.ksqrt (J 0 * J 0 + J 1 * J 1 + J 2 * J 2) = j at *
    simp
    field_simp
    linear_combination (-J 2 ^ 2) * hpp - p ^ 2 * hjj

theorem alignK_mulVec [LawfulSqrt K] {J : Fin 3 → K} (h : J 0 ≠ 0 ∨ J 1 ≠ 0) :
    alignK J *ᵥ J = ![0, 0, HasSqrt.ksqrt (J ⬝ᵥ J)] := by
  have hp := (ksqrt_pos (perp_pos h)).ne'
  have hj := (ksqrt_pos (J_pos h)).ne'
  have hpp := LawfulSqrt.sqrt_mul_self _ (perp_pos h).le
  have hjj := LawfulSqrt.sqrt_mul_self _ (J_pos h).le
  rw [dot_self] at hj hjj
  simp only [alignK, dot_self]
  generalize HasSqrt.ksqrt (J 0 * J 0 + J 1 * J 1) = p at *
  generalize HasSqrt.ksqrt (J 0 * J 0 + J 1 * J 1 + J 2 * J 2) = j at *
  ext a
  fin_cases a <;> simp [Matrix.mulVec, dotProduct, Fin.sum_univ_three] <;> field_simp
  · ring
  · linear_combination (-J 2) * hpp
  · linear_combination (-1) * hjj

end ext
end GChop
