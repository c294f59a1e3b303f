import Verif.Props.NearHistogram
import Verif.Props.RawLabels

/-!
# From raw particles to the labels of the histogram models

C111: the statements of `Props/NearHistogram.lean` for the raw particles of `Props/RawLabels.lean`: the
potential in single precision, the circularities and histograms in doubles, against exact arithmetic
throughout.
-/

namespace GChop
open Flt

variable {σ : Type}

/-- `b1` and `b1'` are the particles of `b` with potentials, in doubles and in exact arithmetic: the
histogram models give the same labels to both, with the same random generator, when no star is within
the margin of an edge of a bin. -/
structure AgreesHistogram (g : ℚ) (b : BGalaxy Float64) (e : Float64) (M J δ : ℝ) (env : CircEnv Float64)
    (env' : CircEnv (Ext ℝ)) (b1 : Galaxy Float64) (b1' : Galaxy (Ext ℝ)) : Prop where
  jhistogram : ∀ j', jcirc env' b1' defaultCbin.1 defaultCbin.2 = .ok j' →
    ∀ (xs ys : List ℝ) (γ : ℝ), j'.x = xs.map .fin → j'.y = ys.map .fin → 0 < γ →
    (xs.Pairwise fun u v => γ ≤ v - u) →
    ∀ (σ : Type) (junk : Nat → Int) (rng : Rng σ), rng.OK → ∀ (m d : Nat), 0 < m → m ∣ 10 ^ d → d ≤ 14 →
    ∀ s : σ,
    (∀ i : Fin b.all.length, (i : Nat) < b.stars.length → gravE g b e i < 0 →
      (gravE g b e i / M, |gravJz b i / J|) ∈ xs.zip ys ∨
      ∀ P, OnPolygon xs ys (gravE g b e i / M) P → 2 * δ + 2 * δ / γ < |(|gravJz b i / J| - P)| ∧
        ∀ k : Nat, 0 < k → k < 2 * m → 3 * δ + 2 * δ / γ < |gravJz b i / J - ((k : ℝ) / m - 1) * P|) →
    ∃ c c', decompose env defaultCbin (jHistogram junk rng (2 * m : ℤ) d s) b1 = .ok c ∧
      decompose env' defaultCbin (jHistogram junk rng (2 * m : ℤ) d s) b1' = .ok c' ∧
      c.labels = c'.labels
  jehistogram : ∀ j', jcirc env' b1' defaultCbin.1 defaultCbin.2 = .ok j' →
    ∀ (xs ys : List ℝ) (γ : ℝ), j'.x = xs.map .fin → j'.y = ys.map .fin → 0 < γ →
    (xs.Pairwise fun u v => γ ≤ v - u) →
    ∀ (σ : Type) (junk : Nat → Int) (rng : Rng σ), rng.OK → ∀ (m d nE : Nat), 0 < m → m ∣ 10 ^ d → d ≤ 14 →
    0 < nE → nE ≤ 2 ^ 53 → ∀ s : σ,
    (∀ i : Fin b.all.length, (i : Nat) < b.stars.length → gravE g b e i < 0 →
      (gravE g b e i / M, |gravJz b i / J|) ∈ xs.zip ys ∨
      ∀ P, OnPolygon xs ys (gravE g b e i / M) P → 2 * δ + 2 * δ / γ < |(|gravJz b i / J| - P)| ∧
        ∀ k : Nat, 0 < k → k < 2 * m → 3 * δ + 2 * δ / γ < |gravJz b i / J - ((k : ℝ) / m - 1) * P|) →
    (∀ i : Fin b.all.length, (i : Nat) < b.stars.length → gravE g b e i < 0 → ∀ k : Nat, 0 < k → k ≤ nE →
      2 * δ < |gravE g b e i / M - ((k : ℝ) / nE - 1)|) →
    ∃ c c', decompose env defaultCbin (jeHistogram junk rng (2 * m : ℤ) d nE s) b1 = .ok c ∧
      decompose env' defaultCbin (jeHistogram junk rng (2 * m : ℤ) d nE s) b1' = .ok c' ∧
      c.labels = c'.labels

theorem star_index {b : BGalaxy Float64} {p : Nat → Float64} {a : Body Float64} (ha : a ∈ (b.withPot p).stars) :
    ∃ i : Fin b.all.length, (i : Nat) < b.stars.length ∧ a = { b.all[i] with pot := p i } := by
  obtain ⟨i, hi⟩ := List.mem_iff_getElem?.1 ha
  have hi' : i < b.stars.length := by
    have := (List.getElem?_eq_some_iff.1 hi).1
    simpa [BGalaxy.withPot] using this
  have hia : i < b.all.length := by simp [BGalaxy.all]; omega
  rw [star_getElem p ⟨i, hia⟩ hi'] at hi
  exact ⟨⟨i, hia⟩, hi', (Option.some.inj hi).symm⟩

theorem histogram_agrees {fG : Fmt} {G : Flt fG} {g : ℚ} {b : BGalaxy Float64} {e : Float64} (h : SingleData G g b e)
    (hs : SingleInput b e) {M J θ δ : ℝ} (hr : GravResolved g b e M J θ) (hθ : θ ≤ 1 / 4)
    (hδ : 3 * θ + 1 / 2 ^ 49 ≤ δ)
    (hc : Clear (gravBound g b e) (fun i => gravE g b e i / M) (fun i => gravJz b i / J) defaultEdges δ)
    {p : Nat → Float64} (hp : PotNear g b e p) (env : CircEnv Float64) (henv : env.OK)
    (env' : CircEnv (Ext ℝ)) (henv' : env'.OK) :
    AgreesHistogram g b e M J δ env env' (Galaxy.ofBodies (b.withPot p))
      (Galaxy.ofBodies ((gravRef g b.all e).galaxy (b.withPot p))) := by
  obtain ⟨hn, hcl⟩ := pipeline_core h hs hr hδ hc hp
  have hsuc := C109_succeeds env env' _ _ _ _ hn
  constructor
  · intro j' hj' xs ys γ hx hy hγ hgap σ junk rng hrng m d hm hmd hd s hstar
    obtain ⟨j, hj⟩ := hsuc.2 ⟨j', hj'⟩
    refine C111_jhistogram (R := gravRef g b.all e) env henv env' henv' _ j hj M J θ δ γ hn hθ hδ hcl j' hj' xs ys
      hx hy hγ hgap junk rng hrng hm hmd hd s ?_
    intro a ha h0
    obtain ⟨i, hi, rfl⟩ := star_index ha
    obtain ⟨hE, -, hJ, -⟩ := gravRef_E g b e (p i) i
    rw [hE] at h0 ⊢
    rw [hJ]
    exact hstar i hi h0
  · intro j' hj' xs ys γ hx hy hγ hgap σ junk rng hrng m d nE hm hmd hd hE0 hE s hstar hen
    obtain ⟨j, hj⟩ := hsuc.2 ⟨j', hj'⟩
    refine C111_jehistogram (R := gravRef g b.all e) env henv env' henv' _ j hj M J θ δ γ hn hθ hδ hcl j' hj' xs
      ys hx hy hγ hgap junk rng hrng hm hmd hd hE0 hE s ?_ ?_
    · intro a ha h0
      obtain ⟨i, hi, rfl⟩ := star_index ha
      obtain ⟨hE, -, hJ, -⟩ := gravRef_E g b e (p i) i
      rw [hE] at h0 ⊢
      rw [hJ]
      exact hstar i hi h0
    · intro a ha h0
      obtain ⟨i, hi, rfl⟩ := star_index ha
      obtain ⟨hE, -, hJ, -⟩ := gravRef_E g b e (p i) i
      rw [hE] at h0 ⊢
      exact hen i hi h0

/-- C111: from raw particles to the labels of the histogram models with the compiled backend.  The
potential is computed in single precision and the rest in doubles; the labels are those of exact
arithmetic when the exact choices and bins are clear by the margin. -/
theorem C111_fortran {dt1 : List (Float32' × Float32') → Float32'} (hdt1 : ∀ l, Fused l (dt1 l))
    {G : Float32'} {g : ℚ} {b : BGalaxy Float64} {e : Float64} (h : SingleData G g b e)
    (hs : SingleInput b e) {M J θ δ : ℝ} (hr : GravResolved g b e M J θ) (hθ : θ ≤ 1 / 4)
    (hδ : 3 * θ + 1 / 2 ^ 49 ≤ δ)
    (hc : Clear (gravBound g b e) (fun i => gravE g b e i / M) (fun i => gravJz b i / J) defaultEdges δ)
    (mem : Nat → Nat → Float32') (mem' : Nat → Nat → Ext ℝ) (env : CircEnv Float64) (henv : env.OK)
    (env' : CircEnv (Ext ℝ)) (henv' : env'.OK) :
    ∃ b1 b1', @potential _ _ _ (singleDotBy dt1) (singleEnv G true mem) (Galaxy.ofBodies b) "fortran" = .ok b1 ∧
      potential (exactEnv (g : ℝ) mem') (Galaxy.ofBodies (exactGalaxy b)) "fortran" = .ok b1' ∧
      AgreesHistogram g b e M J δ env env' b1 b1' := by
  obtain ⟨p, hpot, hp⟩ := C77_relative_error hdt1 h mem
  have hex := exact_sum h hs mem'
  rw [exact_withPot g b e p] at hex
  exact ⟨_, _, hpot, hex, histogram_agrees h hs hr hθ hδ hc hp env henv env' henv'⟩

/-- C111: the same with the numpy backend, for every order of the additions, if the memory that
`np.divide` leaves on the diagonal happens to hold zeros. -/
theorem C111_numpy (sm : List Float32' → Float32') (hsm : ∀ l, Added l (sm l)) {G : Float32'} {g : ℚ}
    {b : BGalaxy Float64} {e : Float64} (h : SingleData G g b e)
    (hs : SingleInput b e) {M J θ δ : ℝ} (hr : GravResolved g b e M J θ) (hθ : θ ≤ 1 / 4)
    (hδ : 3 * θ + 1 / 2 ^ 49 ≤ δ)
    (hc : Clear (gravBound g b e) (fun i => gravE g b e i / M) (fun i => gravJz b i / J) defaultEdges δ)
    (built : Bool) (mem : Nat → Nat → Float32') (hmem : ∀ i < b.all.length, toExt (mem i i) = .fin 0)
    (mem' : Nat → Nat → Ext ℝ) (env : CircEnv Float64) (henv : env.OK)
    (env' : CircEnv (Ext ℝ)) (henv' : env'.OK) :
    ∃ b1 b1', @potential _ _ _ (singleSumBy sm) (singleEnv G built mem) (Galaxy.ofBodies b) "numpy" = .ok b1 ∧
      potential (exactEnv (g : ℝ) mem') (Galaxy.ofBodies (exactGalaxy b)) "fortran" = .ok b1' ∧
      AgreesHistogram g b e M J δ env env' b1 b1' := by
  obtain ⟨p, hpot, hp⟩ := C83_numpy sm hsm h built mem (fun _ => 0) fun i hi => ⟨hmem i hi, Or.inl rfl⟩
  have hp : PotNear g b e p := by
    intro i
    obtain ⟨v, e1, e2⟩ := hp i
    exact ⟨v, e1, by simpa using e2⟩
  have hex := exact_sum h hs mem'
  rw [exact_withPot g b e p] at hex
  exact ⟨_, _, hpot, hex, histogram_agrees h hs hr hθ hδ hc hp env henv env' henv'⟩

/-! ## The example of `Props/RawLabels.lean` -/

/-- a stretch of a polygon: the value between two neighbouring corners -/
theorem polygon_value {xs ys : List ℝ} (hs : xs.Pairwise (· < ·)) {k : Nat} {x0 x1 y0 y1 t P : ℝ}
    (h0 : xs[k]? = some x0) (h1 : xs[k + 1]? = some x1) (g0 : ys[k]? = some y0) (g1 : ys[k + 1]? = some y1)
    (l0 : x0 < t) (l1 : t < x1) (h : OnPolygon xs ys t P) : P = y0 + (y1 - y0) * ((t - x0) / (x1 - x0)) := by
  have mono : ∀ (i m : Nat) u v, xs[i]? = some u → xs[m]? = some v → i ≤ m → u ≤ v := by
    intro i m u v hu hv him
    rcases Nat.eq_or_lt_of_le him with rfl | hlt
    · rw [hu] at hv; exact (Option.some.inj hv).le
    · obtain ⟨a1, a2⟩ := List.getElem?_eq_some_iff.1 hu
      obtain ⟨b1, b2⟩ := List.getElem?_eq_some_iff.1 hv
      have := List.pairwise_iff_getElem.1 hs i m a1 b1 hlt
      rw [a2, b2] at this
      exact this.le
  rcases h with ⟨x, hx, hle, -⟩ | ⟨x, hx, hle, -⟩ | ⟨i, u0, u1, v0, v1, hu0, hu1, hv0, hv1, m0, m1, rfl⟩
  · rw [List.head?_eq_getElem?] at hx
    have := mono 0 k x x0 hx h0 (by omega)
    linarith
  · rw [List.getLast?_eq_getElem?] at hx
    have hlt := (List.getElem?_eq_some_iff.1 h1).1
    have := mono (k + 1) (xs.length - 1) x1 x h1 hx (by omega)
    linarith
  · have hik : i = k := by
      rcases Nat.lt_trichotomy i k with h | h | h
      · have := mono (i + 1) k u1 x0 hu1 h0 (by omega)
        linarith
      · exact h
      · have := mono (k + 1) i x1 u0 h1 hu0 (by omega)
        linarith
    subst hik
    rw [h0] at hu0
    rw [h1] at hu1
    rw [g0] at hv0
    rw [g1] at hv1
    rw [Option.some.inj hu0, Option.some.inj hu1, Option.some.inj hv0, Option.some.inj hv1]

/-- the stars of the example are corners, or clear of the circular orbit and of the edges of the hundred
bins -/
theorem exSystem_bins (i : Fin exSystem.all.length) (hi : (i : Nat) < exSystem.stars.length) :
    (gravE exGrav exSystem (Num.ofRat 0) i / 1, |gravJz exSystem i / ((255 / 128 : ℚ) : ℝ)|)
      ∈ ([-1, -13/24, -101/384, -511/131072] : List ℝ).zip [0, 32/85, 48/85, 1] ∨
    ∀ P, OnPolygon [-1, -13/24, -101/384, -511/131072] [0, 32/85, 48/85, 1]
        (gravE exGrav exSystem (Num.ofRat 0) i / 1) P →
      2 * ((1 / 2 ^ 16 : ℚ) : ℝ) + 2 * ((1 / 2 ^ 16 : ℚ) : ℝ) / (1 / 4)
        < |(|gravJz exSystem i / ((255 / 128 : ℚ) : ℝ)| - P)| ∧
      ∀ k : Nat, 0 < k → k < 2 * 50 → 3 * ((1 / 2 ^ 16 : ℚ) : ℝ) + 2 * ((1 / 2 ^ 16 : ℚ) : ℝ) / (1 / 4)
        < |gravJz exSystem i / ((255 / 128 : ℚ) : ℝ) - ((k : ℝ) / (50 : Nat) - 1) * P| := by
  have B : 2 * ((1 / 2 ^ 16 : ℚ) : ℝ) + 2 * ((1 / 2 ^ 16 : ℚ) : ℝ) / (1 / 4) < 1 / 1000 := by norm_num
  have B2 : 3 * ((1 / 2 ^ 16 : ℚ) : ℝ) + 2 * ((1 / 2 ^ 16 : ℚ) : ℝ) / (1 / 4) < 1 / 1000 := by norm_num
  generalize 2 * ((1 / 2 ^ 16 : ℚ) : ℝ) + 2 * ((1 / 2 ^ 16 : ℚ) : ℝ) / (1 / 4) = B' at B ⊢
  generalize 3 * ((1 / 2 ^ 16 : ℚ) : ℝ) + 2 * ((1 / 2 ^ 16 : ℚ) : ℝ) / (1 / 4) = B2' at B2 ⊢
  obtain ⟨E0, E1, E2, E3, E4, E5⟩ := exVals
  obtain ⟨J0, J1, J2, J3, J4, J5⟩ := exVals'
  have hsort' := exSystem_gaps.imp fun {u v} (h : (1 / 4 : ℝ) ≤ v - u) => (by linarith : u < v)
  rcases exCases i hi with rfl | rfl | rfl | rfl | rfl | rfl
  · left; rw [E0, J0]; norm_num
  · right
    intro P hP
    rw [E1, div_one] at hP
    obtain ⟨p1, p2⟩ := polygon_between hsort' (k := 0) (y0 := 0) (y1 := 32 / 85) rfl rfl
      rfl rfl (by norm_num) (by norm_num) (by norm_num) hP
    rw [J1]
    refine ⟨?_, fun k hk0 hk => ?_⟩
    · rw [abs_of_pos (show (0 : ℝ) < 91 / 204 by norm_num), abs_of_pos (by linarith)]
      linarith
    · have hk' : (k : ℝ) ≤ 2 * 50 := by exact_mod_cast hk.le
      have hq : (k : ℝ) / (50 : Nat) - 1 ≤ 1 := by
        push_cast
        linarith
      have : ((k : ℝ) / (50 : Nat) - 1) * P ≤ 1 * P := mul_le_mul_of_nonneg_right hq p1
      rw [abs_of_pos (by linarith)]
      linarith
  · left; rw [E2, J2]; norm_num
  · left
    rw [E3, J3, show |(-48 / 85 : ℝ)| = 48 / 85 by rw [abs_of_neg] <;> norm_num]
    norm_num
  · right
    intro P hP
    rw [E4, div_one] at hP
    have hPv := polygon_value hsort' (k := 1) (y0 := 32 / 85) (y1 := 48 / 85) rfl rfl
      rfl rfl (by norm_num) (by norm_num) hP
    rw [J4]
    norm_num at hPv
    subst hPv
    refine ⟨?_, fun k hk0 hk => ?_⟩
    · rw [abs_of_pos (show (0 : ℝ) < 2 / 17 by norm_num), abs_of_neg (by norm_num)]
      norm_num
      linarith
    · push_cast
      rcases Nat.lt_or_ge k 66 with h | h
      · have hk' : (k : ℝ) ≤ 65 := by exact_mod_cast Nat.le_of_lt_succ h
        rw [abs_of_pos (by linarith)]
        linarith
      · have hk' : (66 : ℝ) ≤ k := by exact_mod_cast h
        rw [abs_of_neg (by linarith)]
        linarith
  · left; rw [E5, J5]; norm_num

/-- the energies of the example are clear of the twenty energy bins -/
theorem exSystem_energies (i : Fin exSystem.all.length) (hi : (i : Nat) < exSystem.stars.length) (k : Nat)
    (hk0 : 0 < k) : 2 * ((1 / 2 ^ 16 : ℚ) : ℝ)
      < |gravE exGrav exSystem (Num.ofRat 0) i / 1 - ((k : ℝ) / (20 : Nat) - 1)| := by
  have B : 2 * ((1 / 2 ^ 16 : ℚ) : ℝ) < 1 / 1000 := by norm_num
  generalize 2 * ((1 / 2 ^ 16 : ℚ) : ℝ) = B' at B ⊢
  obtain ⟨E0, E1, E2, E3, E4, E5⟩ := exVals
  have key : ∀ (t : ℝ) (n : Nat), (n : ℝ) / 20 - 1 + 1 / 1000 ≤ t → t ≤ ((n + 1 : Nat) : ℝ) / 20 - 1 - 1 / 1000 →
      B' < |t / 1 - ((k : ℝ) / (20 : Nat) - 1)| := by
    intro t n h1 h2
    push_cast at h2 ⊢
    rcases Nat.lt_or_ge n k with h | h
    · have hk' : (n : ℝ) + 1 ≤ k := by exact_mod_cast h
      rw [abs_of_neg (by linarith)]
      linarith
    · have hk' : (k : ℝ) ≤ n := by exact_mod_cast h
      rw [abs_of_pos (by linarith)]
      linarith
  rcases exCases i hi with rfl | rfl | rfl | rfl | rfl | rfl
  · rw [E0]
    have hk' : (1 : ℝ) ≤ k := by exact_mod_cast hk0
    push_cast
    rw [abs_of_neg (by linarith)]
    linarith
  · rw [E1]; exact key _ 9 (by norm_num) (by norm_num)
  · rw [E2]; exact key _ 9 (by norm_num) (by norm_num)
  · rw [E3]; exact key _ 14 (by norm_num) (by norm_num)
  · rw [E4]; exact key _ 9 (by norm_num) (by norm_num)
  · rw [E5]; exact key _ 19 (by norm_num) (by norm_num)

theorem exSystemRun_jhistogram : ((potential (singleEnv (Num.ofRat (1 / 2 ^ 17)) true fun _ _ => Num.ofRat 0)
    (Galaxy.ofBodies exSystem) "fortran").toOption.bind fun b1 =>
      (decompose sortEnv defaultCbin (jHistogram (fun _ => 9) firstRng 100 2 ()) b1).toOption.map
        Components.labels) = some [none, none, some 0, some 0, some 1, some 1, none] := by
  decide +kernel

theorem exSystemRun_jehistogram : ((potential (singleEnv (Num.ofRat (1 / 2 ^ 17)) true fun _ _ => Num.ofRat 0)
    (Galaxy.ofBodies exSystem) "fortran").toOption.bind fun b1 =>
      (decompose sortEnv defaultCbin (jeHistogram (fun _ => 9) firstRng 100 2 20 ()) b1).toOption.map
        Components.labels) = some [none, none, some 1, some 0, some 1, some 1, none] := by
  decide +kernel

/-- C111: the example satisfies the hypotheses with the default bins, so the labels of both models are
those of exact arithmetic.  The fourth star moves backwards; JHistogram puts the third star into the
spheroid with it, JEHistogram finds no partner of the same energy. -/
theorem C111_example : ∃ b1 b1' c c' k k',
    potential (singleEnv (Num.ofRat (1 / 2 ^ 17)) true fun _ _ => Num.ofRat 0) (Galaxy.ofBodies exSystem)
      "fortran" = .ok b1 ∧
    potential (exactEnv (1 / 2 ^ 17 : ℝ) fun _ _ => .fin 0) (Galaxy.ofBodies (exactGalaxy exSystem)) "fortran"
      = .ok b1' ∧
    decompose sortEnv defaultCbin (jHistogram (fun _ => 9) firstRng 100 2 ()) b1 = .ok c ∧
    decompose sortEnv defaultCbin (jHistogram (fun _ => 9) firstRng 100 2 ()) b1' = .ok c' ∧
    c'.labels = [none, none, some 0, some 0, some 1, some 1, none] ∧ c.labels = c'.labels ∧
    decompose sortEnv defaultCbin (jeHistogram (fun _ => 9) firstRng 100 2 20 ()) b1 = .ok k ∧
    decompose sortEnv defaultCbin (jeHistogram (fun _ => 9) firstRng 100 2 20 ()) b1' = .ok k' ∧
    k'.labels = [none, none, some 1, some 0, some 1, some 1, none] ∧ k.labels = k'.labels := by
  have δ49 : 3 * ((1 / 2 ^ 18 : ℚ) : ℝ) + 1 / 2 ^ 49 ≤ ((1 / 2 ^ 16 : ℚ) : ℝ) := by norm_num
  have θ4 : ((1 / 2 ^ 18 : ℚ) : ℝ) ≤ 1 / 4 := by norm_num
  obtain ⟨b1, b1', hp, hp', hag⟩ := C111_fortran (dt1 := Num.dot) fused_leftFold exSystem_data exSystem_input exSystem_resolved θ4 δ49 exSystem_clear
    (fun _ _ => Num.ofRat 0) (fun _ _ => .fin 0) sortEnv sortEnv_ok sortEnv sortEnv_ok
  obtain ⟨b2, b2', hq, hq', hag'⟩ := C110_fortran (dt1 := Num.dot) fused_leftFold exSystem_data exSystem_input exSystem_resolved θ4 δ49 exSystem_clear
    (fun _ _ => Num.ofRat 0) (fun _ _ => .fin 0) sortEnv sortEnv_ok sortEnv sortEnv_ok
  rw [hp] at hq
  rw [hp'] at hq'
  have e1 := Except.ok.inj hq
  have e2 := Except.ok.inj hq'
  subst e1
  subst e2
  obtain ⟨j', hj', hx, hy⟩ := exSystem_tables hp hag'
  obtain ⟨c, c', hc, hc', hlab⟩ := hag.jhistogram j' hj' _ _ (1 / 4) hx hy (by norm_num) exSystem_gaps Unit
    (fun _ => 9) firstRng firstRng_ok 50 2 (by norm_num) (by norm_num) (by norm_num) ()
    fun i hi _ => exSystem_bins i hi
  obtain ⟨k, k', hk, hk', hlab'⟩ := hag.jehistogram j' hj' _ _ (1 / 4) hx hy (by norm_num) exSystem_gaps Unit
    (fun _ => 9) firstRng firstRng_ok 50 2 20 (by norm_num) (by norm_num) (by norm_num) (by norm_num)
    (by norm_num) () (fun i hi _ => exSystem_bins i hi) fun i hi _ n hn _ => exSystem_energies i hi n hn
  have h1 := exSystemRun_jhistogram
  have h2 := exSystemRun_jehistogram
  rw [hp] at h1 h2
  simp only [Except.toOption, Option.bind_some] at h1 h2
  refine ⟨b1, b1', c, c', k, k', hp, ?_, hc, hc', ?_, hlab, hk, hk', ?_, hlab'⟩
  · rw [← hp']
    congr 2
    unfold exGrav
    push_cast
    rfl
  · rw [← hlab]
    have hc : decompose sortEnv defaultCbin (jHistogram (fun _ => 9) firstRng 100 2 ()) b1 = .ok c := hc
    rw [hc] at h1
    exact Option.some.inj h1
  · rw [← hlab']
    have hk : decompose sortEnv defaultCbin (jeHistogram (fun _ => 9) firstRng 100 2 20 ()) b1 = .ok k := hk
    rw [hk] at h2
    exact Option.some.inj h2

end GChop
