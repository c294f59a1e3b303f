import Verif.Lemmas.Neg
import Verif.Props.RawAlignedExample

/-!
# C116: `potential` with other builds of its surroundings

numpy 2 multiplies the float32 sums by the float64 constant `G` in double precision, numpy 1 in single
precision.  The compiler may fuse the squares of the compiled loop with the additions.  Neither changes
the accuracy, or the labels away from the edges; both can change bits.
-/

namespace GChop
open Pd Flt Fmt

/-! ## The product with `G` -/

theorem mul_one32 (p : Float32') : (p *. Num.ofRat 1) = p := by
  have h1 : toExt (Num.ofRat 1 : Float32') = .fin 1 := by decide +kernel
  obtain ⟨t, n, e, hn⟩ := toExt_fin h1
  have ht : t = false := by
    cases t with
    | false => rfl
    | true =>
      have := n.nonneg
      simp [sval] at hn
      linarith
  subst ht
  have hn : n.val = 1 := hn
  rw [e]
  cases p with
  | nan => rfl
  | inf s =>
    show (if n.val = 0 then nan else inf (s != false)) = _
    rw [hn]
    simp
  | fin s m =>
    show ofExact (s != false) (sval s m * sval false n) = _
    rw [show sval false n = 1 from hn, mul_one, Bool.bne_false]
    exact ofExact_sval s m

/-- what numpy 2 stores: minus the product in double precision -/
theorem wideEnv_up (G : Float64) (built : Bool) (junk : Nat → Nat → Float32') (p : Float32') :
    (wideEnv G built junk).up (Num.neg (p *. (wideEnv G built junk).G))
      = Num.neg ((Flt.cast p : Float64) *. G) := by
  have hc : (Flt.cast (Num.neg p) : Float64) = Num.neg (Flt.cast p) := by
    cases p with
    | nan => rfl
    | inf s => rfl
    | fin s m =>
      show ofExact (!s) (sval (!s) m) = Flt.neg (ofExact s (sval s m))
      rw [sval_not, ofExact_neg]
  show (Flt.cast (Num.neg (p *. Num.ofRat 1)) : Float64) *. G = _
  rw [mul_one32, hc, NumNeg.neg_mul]

theorem q64_le_q32 : Fmt.binary64.q ≤ Fmt.binary32.q := by
  have h1 : Fmt.binary64.q = (1 - 2 ^ (-53 : ℤ))⁻¹ := rfl
  have h2 : Fmt.binary32.q = (1 - 2 ^ (-24 : ℤ))⁻¹ := rfl
  rw [h1, h2]
  norm_num

/-- a sum in single precision, times `G` in double precision -/
theorem near_wide {a : Float32'} {k : ℕ} {t : ℝ} (h : Near a (-93) 125 k t) {G : Float64} {g : ℚ}
    (hG : toExt G = .fin g) (hg : (2 : ℚ) ^ (-30 : ℤ) ≤ g ∧ g ≤ 1) (built : Bool)
    (junk : Nat → Nat → Float32') :
    ∃ w : ℚ, toExt ((wideEnv G built junk).up (Num.neg (a *. (wideEnv G built junk).G))) = .fin (-w) ∧
      0 ≤ w ∧ Close Fmt.binary32.q (k + 1) (w : ℝ) (t * g) := by
  obtain ⟨ht, v, e1, e2, e3⟩ := h
  have hm : Mid (-123) 125 (v * g) := e2.mul (Or.inr ⟨hg.1, by simpa using hg.2⟩ : Mid (-30) 0 g)
  obtain ⟨r1, r2⟩ := hm.srnd (fmt := Fmt.binary64) (by decide)
  have hg0 : 0 ≤ g := (zpow_pos (by norm_num) _).le.trans hg.1
  refine ⟨Fmt.binary64.srnd (v * g), ?_, r1.nonneg, ?_⟩
  · rw [wideEnv_up]
    refine toExt_neg ?_
    rw [toExt_mul ((toExt_up a).trans e1) hG, clip_of_le r1 (by decide)]
  · have hq := Fmt.binary32.one_le_q
    have r3 : Close Fmt.binary32.q 1 ((Fmt.binary64.srnd (v * g) : ℚ) : ℝ) ((v * g : ℚ) : ℝ) := by
      have a1 : (0 : ℝ) ≤ ((Fmt.binary64.srnd (v * g) : ℚ) : ℝ) := by exact_mod_cast r1.nonneg
      have a2 : (0 : ℝ) ≤ ((v * g : ℚ) : ℝ) := by exact_mod_cast hm.nonneg
      unfold Close at r2 ⊢
      rw [pow_one] at r2 ⊢
      exact ⟨r2.1.trans (mul_le_mul_of_nonneg_right q64_le_q32 a2),
        r2.2.trans (mul_le_mul_of_nonneg_right q64_le_q32 a1)⟩
    rw [add_comm]
    refine r3.trans hq ?_
    push_cast
    have g0 : (0 : ℝ) ≤ g := by exact_mod_cast hg0
    have v0 : (0 : ℝ) ≤ v := by exact_mod_cast e2.nonneg
    have := e3.mul hq v0 ht g0 g0 (Close.refl Fmt.binary32.q (g : ℝ))
    simpa using this

variable {G : Float64} {g : ℚ} {b : BGalaxy Float64} {e : Float64}

/-- C116: with numpy 2 too every potential of the compiled backend is finite and within
`(n + 6) / 2^23` of minus `G` times the softened N-body sum, however the loop is compiled. -/
theorem C116_fortran {dt1 : List (Float32' × Float32') → Float32'} (hdt1 : ∀ l, Fused l (dt1 l))
    (h : SingleData G g b e) (mem : Nat → Nat → Float32') :
    ∃ p : Nat → Float64,
      @potential _ _ _ (singleDotBy dt1) (wideEnv G true mem) (Galaxy.ofBodies b) "fortran"
        = .ok (Galaxy.ofBodies (b.withPot p)) ∧
      ∀ i : Fin b.all.length, ∃ v : ℚ, toExt (p i) = .fin v ∧
        |(v : ℝ) - -(g * singleSum b.all e i)|
          ≤ (b.all.length + 6) / 2 ^ 23 * (g * singleSum b.all e i) := by
  refine ⟨_, @potential_ofBodies _ _ _ (singleDotBy dt1) _ b "fortran" h.noPot (Or.inl ⟨rfl, rfl⟩), fun i => ?_⟩
  have hnear := h.fortran_near hdt1 i
  obtain ⟨w, f1, f2, f3⟩ := near_wide hnear h.gval h.grange true mem
  refine ⟨-w, f1, ?_⟩
  have hg0 : (0 : ℝ) ≤ g := by exact_mod_cast (zpow_pos (by norm_num) _).le.trans h.grange.1
  have := relative_of_pow (by have := h.size; omega) (mul_nonneg hnear.1 hg0) (by exact_mod_cast f2) f3
  push_cast at this ⊢
  rw [show -(w : ℝ) - -(g * singleSum b.all e i) = -(w - singleSum b.all e i * g) by ring, abs_neg]
  refine this.trans (le_of_eq ?_)
  ring

/-- C116: the same for the numpy backend, for every order of the additions, with what the output buffer
of `np.divide` held on the diagonal. -/
theorem C116_numpy (sm1 : List Float32' → Float32') (hsm1 : ∀ l, Added l (sm1 l))
    (h : SingleData G g b e) (built : Bool) (mem : Nat → Nat → Float32') (J : Nat → ℚ)
    (hJ : ∀ i < b.all.length, toExt (mem i i) = .fin (J i) ∧
      (J i = 0 ∨ ((2 : ℚ) ^ (-93 : ℤ) ≤ J i ∧ J i ≤ 2 ^ (103 : ℤ)))) :
    ∃ p : Nat → Float64,
      @potential _ _ _ (singleSumBy sm1) (wideEnv G built mem) (Galaxy.ofBodies b) "numpy"
        = .ok (Galaxy.ofBodies (b.withPot p)) ∧
      ∀ i : Fin b.all.length, ∃ v : ℚ, toExt (p i) = .fin v ∧
        |(v : ℝ) - -(g * (singleSum b.all e i + J i))|
          ≤ (b.all.length + 6) / 2 ^ 23 * (g * (singleSum b.all e i + J i)) := by
  refine ⟨_, @potential_ofBodies _ _ _ (singleSumBy sm1) _ b "numpy" h.noPot (Or.inr rfl), fun i => ?_⟩
  have hnear := h.numpy_near sm1 hsm1 mem i (hJ i i.2)
  obtain ⟨w, f1, f2, f3⟩ := near_wide hnear h.gval h.grange built mem
  refine ⟨-w, f1, ?_⟩
  have hg0 : (0 : ℝ) ≤ g := by exact_mod_cast (zpow_pos (by norm_num) _).le.trans h.grange.1
  have := relative_of_pow (by have := h.size; omega) (mul_nonneg hnear.1 hg0) (by exact_mod_cast f2) f3
  push_cast at this ⊢
  rw [show -(w : ℝ) - -(g * (singleSum b.all e i + J i)) = -(w - (singleSum b.all e i + J i) * g) by ring,
    abs_neg]
  refine this.trans (le_of_eq ?_)
  ring

variable {rc : Option Float64} {i0 : Nat} {c : Body Float64}

/-- C116: from raw particles through `potential` (compiled backend, numpy 2), `center` and `star_align`
to the labels of all three models, against exact arithmetic with softened Newtonian gravity. -/
theorem C116_labels_fortran {sm : List Float64 → Float64} (hsm : ∀ l, Added l (sm l))
    {dt : List (Float64 × Float64) → Float64} (hdt : ∀ l, Fused l (dt l))
    {dt1 : List (Float32' × Float32') → Float32'} (hdt1 : ∀ l, Fused l (dt1 l)) (h : SingleData G g b e)
    (hs : SingleInput b e) (ht : RawTurning rc g b e i0 c) {M J θ δ : ℝ}
    (hr : AxisResolved rc b (gravPhi g b e) (gravEta g b e) c M J θ) (hθ : θ ≤ 1 / 4)
    (hδ : 3 * θ + 1 / 2 ^ 49 ≤ δ) (hδ0 : 0 ≤ δ)
    (hc : Clear (rawBound b (orbitE (gravPhi g b e))) (fun i => orbitE (gravPhi g b e) b.all[i] / M)
      (fun i => axisJz rc b c b.all[i] / J) defaultEdges δ)
    (mem : Nat → Nat → Float32') (mem' : Nat → Nat → Ext ℝ) (env : CircEnv Float64) (henv : env.OK)
    (env' : CircEnv (Ext ℝ)) (henv' : env'.OK) :
    ∃ b2 b2', (@potential _ _ _ (singleDotBy dt1) (wideEnv G true mem) (Galaxy.ofBodies b) "fortran" >>= center
        >>= fun g => @starAlign _ (sumDot sm dt) g rc) = .ok (Galaxy.ofBodies b2) ∧
      (potential (exactEnv (g : ℝ) mem') (Galaxy.ofBodies (exactGalaxy b)) "fortran" >>= center >>= fun g =>
        starAlign g (exactCut rc)) = .ok (Galaxy.ofBodies b2') ∧
      ((∀ i j : Nat, b2.all[i]? = b2.all[j]? → b.all[i]? = b.all[j]?) →
        AgreesFor b (orbitE (gravPhi g b e)) (axisJz rc b c) M J δ env env'
          (Galaxy.ofBodies b2) (Galaxy.ofBodies b2')) := by
  obtain ⟨p, hpot, hp⟩ := C116_fortran hdt1 h mem
  have hex := exact_sum h hs mem'
  rw [exact_withPot g b e p] at hex
  obtain ⟨b2, b2', h1, h2, -, h3⟩ := raw_agrees hsm hdt h hs ht hr hθ hδ hδ0 hc hp env henv env' henv'
  refine ⟨b2, b2', ?_, ?_, h3⟩
  · rw [hpot, Py.ok_bind]; exact h1
  · rw [hex, Py.ok_bind]; exact h2

/-- C116: the same with the numpy backend, for every order of the additions, if the memory that
`np.divide` leaves on the diagonal happens to hold zeros. -/
theorem C116_labels_numpy {sm : List Float64 → Float64} (hsm : ∀ l, Added l (sm l))
    {dt : List (Float64 × Float64) → Float64} (hdt : ∀ l, Fused l (dt l))
    (sm1 : List Float32' → Float32') (hsm1 : ∀ l, Added l (sm1 l)) (h : SingleData G g b e)
    (hs : SingleInput b e) (ht : RawTurning rc g b e i0 c) {M J θ δ : ℝ}
    (hr : AxisResolved rc b (gravPhi g b e) (gravEta g b e) c M J θ) (hθ : θ ≤ 1 / 4)
    (hδ : 3 * θ + 1 / 2 ^ 49 ≤ δ) (hδ0 : 0 ≤ δ)
    (hc : Clear (rawBound b (orbitE (gravPhi g b e))) (fun i => orbitE (gravPhi g b e) b.all[i] / M)
      (fun i => axisJz rc b c b.all[i] / J) defaultEdges δ)
    (built : Bool) (mem : Nat → Nat → Float32') (hmem : ∀ i < b.all.length, toExt (mem i i) = .fin 0)
    (mem' : Nat → Nat → Ext ℝ) (env : CircEnv Float64) (henv : env.OK)
    (env' : CircEnv (Ext ℝ)) (henv' : env'.OK) :
    ∃ b2 b2', (@potential _ _ _ (singleSumBy sm1) (wideEnv G built mem) (Galaxy.ofBodies b) "numpy" >>= center
        >>= fun g => @starAlign _ (sumDot sm dt) g rc) = .ok (Galaxy.ofBodies b2) ∧
      (potential (exactEnv (g : ℝ) mem') (Galaxy.ofBodies (exactGalaxy b)) "fortran" >>= center >>= fun g =>
        starAlign g (exactCut rc)) = .ok (Galaxy.ofBodies b2') ∧
      ((∀ i j : Nat, b2.all[i]? = b2.all[j]? → b.all[i]? = b.all[j]?) →
        AgreesFor b (orbitE (gravPhi g b e)) (axisJz rc b c) M J δ env env'
          (Galaxy.ofBodies b2) (Galaxy.ofBodies b2')) := by
  obtain ⟨p, hpot, hp⟩ := C116_numpy sm1 hsm1 h built mem (fun _ => 0) fun i hi => ⟨hmem i hi, Or.inl rfl⟩
  have hp : PotNear g b e p := by
    intro i
    obtain ⟨v, e1, e2⟩ := hp i
    exact ⟨v, e1, by simpa using e2⟩
  have hex := exact_sum h hs mem'
  rw [exact_withPot g b e p] at hex
  obtain ⟨b2, b2', h1, h2, -, h3⟩ := raw_agrees hsm hdt h hs ht hr hθ hδ hδ0 hc hp env henv env' henv'
  refine ⟨b2, b2', ?_, ?_, h3⟩
  · rw [hpot, Py.ok_bind]; exact h1
  · rw [hex, Py.ok_bind]; exact h2

/-! ## Bits -/

/-- stars in the plane, without softening -/
def planeGalaxy (l : List (ℚ × ℚ × ℚ)) : BGalaxy Float64 :=
  { axisGalaxy [] with stars := l.map fun a => { onAxis a.1 a.2.1 with y := .ofExact false a.2.2 } }

/-- C116: the same number `G = 1 - 2^-24` gives other potentials with numpy 1 than with numpy 2, for a
pair of stars at distance one. -/
theorem C116_numpy_differs :
    let b := axisGalaxy [(1, 0), (1 + 1 / 2 ^ 23, 1)]
    ∃ p p', potential (singleEnv (.ofExact false (1 - 1 / 2 ^ 24)) true fun _ _ => Num.ofRat 0)
        (Galaxy.ofBodies b) "fortran" = .ok (Galaxy.ofBodies (b.withPot p)) ∧
      potential (wideEnv (.ofExact false (1 - 1 / 2 ^ 24)) true fun _ _ => Num.ofRat 0)
        (Galaxy.ofBodies b) "fortran" = .ok (Galaxy.ofBodies (b.withPot p')) ∧
      toExt (p 0) = .fin (-1) ∧ toExt (p' 0) = .fin (-(1 + 1 / 2 ^ 24 - 1 / 2 ^ 47)) := by
  refine ⟨_, _, potential_ofBodies _ _ _ rfl (Or.inl ⟨rfl, rfl⟩),
    potential_ofBodies _ _ _ rfl (Or.inl ⟨rfl, rfl⟩), ?_, ?_⟩ <;> decide +kernel

/-- C116: a compiler that fuses the squares with the additions gives other potentials than one that does
not, for a pair of stars. -/
theorem C116_compiler_differs :
    let b := planeGalaxy [(1, 0, 0), (1, 3495 / 512, 7857 / 1024)]
    ∃ p p', potential (singleEnv (Num.ofRat 1) true fun _ _ => Num.ofRat 0)
        (Galaxy.ofBodies b) "fortran" = .ok (Galaxy.ofBodies (b.withPot p)) ∧
      @potential _ _ _ (singleDotBy fmaChain) (singleEnv (Num.ofRat 1) true fun _ _ => Num.ofRat 0)
        (Galaxy.ofBodies b) "fortran" = .ok (Galaxy.ofBodies (b.withPot p')) ∧
      toExt (p 0) = .fin (-13069137 / 134217728) ∧ toExt (p' 0) = .fin (-816821 / 8388608) := by
  refine ⟨_, _, potential_ofBodies _ _ _ rfl (Or.inl ⟨rfl, rfl⟩),
    @potential_ofBodies _ _ _ (singleDotBy fmaChain) _ _ _ rfl (Or.inl ⟨rfl, rfl⟩), ?_, ?_⟩ <;> decide +kernel

/-! ## Examples -/

/-- the near pair with a constant that single precision does not have -/
theorem nearPair_wide : SingleData (.ofExact false (1 / 2 ^ 17 + 1 / 2 ^ 60) : Float64) (1 / 2 ^ 17 + 1 / 2 ^ 60)
    (axisGalaxy [(1, 0), (1, 1 / 2 ^ 10)]) (.ofExact false 0) :=
  { nearPair_ok with gval := by decide +kernel, grange := by norm_num }

example := C116_fortran fused_fmaChain nearPair_wide
example := C116_numpy npSum added_npSum nearPair_wide true (fun _ _ => .ofExact false 0) (fun _ => 0)
  fun _ _ => ⟨toExt_zero, Or.inl rfl⟩

/-- the example of C113 with numpy 2 -/
theorem exWhirl_wide : SingleData (Num.ofRat (1 / 2 ^ 17) : Float64) exGrav exWhirl (Num.ofRat 0) :=
  { exWhirl_data with gval := by decide +kernel }

example := C116_labels_fortran added_npSum (dt := fmaChain) fused_fmaChain (dt1 := fmaChain) fused_fmaChain
  exWhirl_wide exWhirl_input exWhirl_turning exWhirl_resolved (by norm_num)
  (δ := ((1 / 2 ^ 16 : ℚ) : ℝ)) (by norm_num) (by norm_num) exWhirl_clear
example := C116_labels_numpy added_npSum (dt := fmaChain) fused_fmaChain npSum added_npSum
  exWhirl_wide exWhirl_input exWhirl_turning exWhirl_resolved (by norm_num)
  (δ := ((1 / 2 ^ 16 : ℚ) : ℝ)) (by norm_num) (by norm_num) exWhirl_clear true (fun _ _ => .ofExact false 0)
  fun _ _ => toExt_zero

end GChop
