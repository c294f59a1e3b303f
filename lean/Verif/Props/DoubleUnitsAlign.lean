import Verif.Lemmas.FusedScale
import Verif.Props.DoubleUnits
import Verif.Props.DoubleAlign

/-!
# C89: `center` and `star_align` in units that differ by powers of two, in double precision
-/

namespace GChop
open Flt

/-- the same particle in other units: mass times `2^l`, lengths times `2^i`, velocities times `2^j`,
potential times `2^p` -/
def Body.rescale (l i j p : ℤ) (a : Body Float64) : Body Float64 where
  m := Num.ofRat (2 ^ l) *. a.m
  x := Num.ofRat (2 ^ i) *. a.x
  y := Num.ofRat (2 ^ i) *. a.y
  z := Num.ofRat (2 ^ i) *. a.z
  vx := Num.ofRat (2 ^ j) *. a.vx
  vy := Num.ofRat (2 ^ j) *. a.vy
  vz := Num.ofRat (2 ^ j) *. a.vz
  pot := Num.ofRat (2 ^ p) *. a.pot

/-- the same galaxy in other units -/
def BGalaxy.rescale (l i j p : ℤ) (b : BGalaxy Float64) : BGalaxy Float64 :=
  { b.mapBodies (Body.rescale l i j p) with
    softS := Num.ofRat (2 ^ i) *. b.softS
    softDm := Num.ofRat (2 ^ i) *. b.softDm
    softG := Num.ofRat (2 ^ i) *. b.softG }

/-- Mass, coordinates and velocities are multiples of `2^-92`; masses and velocities are at most `2^41`
and coordinates at most `2^h`, in both units. -/
structure Body.Fits (l i j h : ℤ) (a : Body Float64) : Prop where
  m : OnGrid l (-92) 41 a.m
  x : OnGrid i (-92) h a.x
  y : OnGrid i (-92) h a.y
  z : OnGrid i (-92) h a.z
  vx : OnGrid j (-92) 41 a.vx
  vy : OnGrid j (-92) 41 a.vy
  vz : OnGrid j (-92) 41 a.vz

theorem pair_grid {k h : ℤ} {c : Float64} (g : OnGrid k (-92) h c) (hk : |k| ≤ 400) (h1 : 0 ≤ h)
    (h2 : h ≤ 400) : Pair k (-92) h c (Num.ofRat (2 ^ k) *. c) := by
  rw [abs_le] at hk
  exact g.pair (by rw [nrm64]; omega) (by rw [emax64]; omega) (by rw [nrm64]; omega)
    (by rw [nrm64]; omega) (by rw [emax64]; omega)

theorem Flt.Scaled.mul_eq64 {k : ℤ} {a b : Float64} (h : Scaled k a b) (hk : |k| ≤ 400) :
    Num.ofRat (2 ^ k) *. a = b := by
  rw [abs_le] at hk
  exact h.mul_eq (by rw [nrm64]; omega) (by rw [emax64]; omega)

theorem Flt.Scaled.le_zero {fmt : Fmt} {k : ℤ} {a b : Flt fmt} (h : Scaled k a b) :
    (b <=. Num.ofRat 0) = (a <=. Num.ofRat 0) := by
  have hk : (0 : ℚ) < 2 ^ k := zpow_pos (by norm_num) _
  show Ext.le (Flt.toExt b) (Flt.toExt (ofExact false 0)) = Ext.le (Flt.toExt a) (Flt.toExt (ofExact false 0))
  rw [toExt_zero, h.toExt]
  cases Flt.toExt a with
  | fin x =>
    have : 2 ^ k * x ≤ 0 ↔ x ≤ 0 := by
      rw [mul_nonpos_iff]; simp [hk.le, hk.not_ge]
    simp only [Ext.le, this]
  | pinf => rfl
  | ninf => rfl
  | nan => rfl

section
variable {l i j p : ℤ}

theorem pair_moment {a a' b b' c c' d d' m m' : Float64} (hm : Pair l (-92) 41 m m')
    (ha : Pair i (-92) 41 a a') (hb : Pair j (-92) 41 b b') (hc : Pair i (-92) 41 c c')
    (hd : Pair j (-92) 41 d d') :
    Pair (l + (i + j)) (-276) 124 (m *. ((a *. b) -. (c *. d))) (m' *. ((a' *. b') -. (c' *. d'))) := by
  have h1 := ha.mul hb (by rw [nrm64]; omega) (by rw [nrm64]; omega) (by rw [emax64]; omega)
  have h2 := hc.mul hd (by rw [nrm64]; omega) (by rw [nrm64]; omega) (by rw [emax64]; omega)
  have h3 := h1.sub h2 (by rw [nrm64]; omega) (by rw [nrm64]; omega) (by rw [emax64]; omega)
  exact hm.mul h3 (by rw [nrm64]; omega) (by rw [nrm64]; omega) (by rw [emax64]; omega)

/-- the radius in both units -/
theorem Body.Fits.inside {a : Body Float64} (h : a.Fits l i j 41) (hi : |i| ≤ 400)
    {rCut : Option Float64} (hc : ∀ c ∈ rCut, InRange i 200 c) :
    (a.rescale l i j p).inside (rCut.map (Num.ofRat (2 ^ i) *. ·)) = a.inside rCut := by
  cases rCut with
  | none => rfl
  | some c =>
    have hr := (pair_grid h.x hi (by omega) (by omega)).root3 (pair_grid h.y hi (by omega) (by omega))
      (pair_grid h.z hi (by omega) (by omega)) (by rw [nrm64]; omega) (by rw [nrm64]; omega)
      (by rw [emax64]; omega) (by rw [nrm64]; omega) (by rw [nrm64]; omega) (by rw [emax64]; omega)
    rw [abs_le] at hi
    exact hr.scaled.lt (pair_coord (hc c rfl) hi.1 hi.2).scaled

/-- one component of the total angular momentum in both units -/
theorem pair_total {sm : List Float64 → Float64} (hs : SameOrder sm) {k : ℤ} (s : List (Body Float64))
    (f g : Body Float64 → Float64) (h : ∀ a ∈ s, Pair k (-276) 124 (f a) (g a))
    (hn : s.length ≤ 2 ^ 30) : Pair k (-276) 154 (sm (s.map f)) (sm (s.map g)) := by
  have ha := hs (s.map fun a => (f a, g a))
  rw [List.map_map, List.map_map] at ha
  have hq : ((s.map fun a => (f a, g a)).length : ℚ) ≤ 2 ^ 30 := by
    rw [List.length_map]; exact_mod_cast hn
  have hb : ((s.map fun a => (f a, g a)).length : ℚ) * 2 ^ (124 : ℤ) ≤ 2 ^ (154 : ℤ) := by
    calc _ ≤ (2 : ℚ) ^ 30 * 2 ^ (124 : ℤ) :=
          mul_le_mul_of_nonneg_right hq (zpow_pos (by norm_num) _).le
      _ = 2 ^ (154 : ℤ) := by norm_num
  refine (added2_pairs ha (k := k) (e := -276) (h := 124) ?_ (by rw [nrm64]; omega) (by decide) ?_
    (hb.trans (Fmt.binary64.pow_le_maxFin (by rw [emax64]; omega)))).pair hb
  · simp only [List.mem_map]
    rintro _ ⟨a, ha, rfl⟩
    exact h a ha
  · rw [List.length_map]
    exact hn.trans (by decide)

/-- an entry of the matrix -/
def EntryGrid (c : Float64) : Prop := Grid (-915) 964 c ∨ Num.isFinite c = false

theorem entry_weaken {c : Float64} {e h : ℤ} (g : Grid e h c ∨ Num.isFinite c = false) (h1 : -915 ≤ e)
    (h2 : h ≤ 964) : EntryGrid c := g.imp_left fun g => g.weaken h1 h2

/-- The matrix has no unit, and its entries are not too small. -/
theorem rotFromJ_units {k : ℤ} {X Y Z X' Y' Z' : Float64} (hX : Pair k (-276) 154 X X')
    (hY : Pair k (-276) 154 Y Y') (hZ : Pair k (-276) 154 Z Z') :
    rotFromJ X' Y' Z' = rotFromJ X Y Z ∧
      (let A := rotFromJ X Y Z
       EntryGrid A.e1x ∧ EntryGrid A.e1y ∧ EntryGrid A.e1z ∧ EntryGrid A.e2x ∧ EntryGrid A.e2y ∧
        EntryGrid A.e2z ∧ EntryGrid A.e3x ∧ EntryGrid A.e3y ∧ EntryGrid A.e3z) := by
  have hp := hX.root2 hY (by rw [nrm64]; omega) (by rw [nrm64]; omega)
      (by rw [emax64]; omega) (by rw [nrm64]; omega) (by rw [nrm64]; omega) (by rw [emax64]; omega)
  have hj := hX.root3 hY hZ (by rw [nrm64]; omega) (by rw [nrm64]; omega)
      (by rw [emax64]; omega) (by rw [nrm64]; omega) (by rw [nrm64]; omega) (by rw [emax64]; omega)
  rw [prec64] at hp hj
  have hpj := hp.mul hj (by rw [nrm64]; omega) (by rw [nrm64]; omega) (by rw [emax64]; omega)
  have hXZ := hX.mul hZ (by rw [nrm64]; omega) (by rw [nrm64]; omega) (by rw [emax64]; omega)
  have hYZ := hY.mul hZ (by rw [nrm64]; omega) (by rw [nrm64]; omega) (by rw [emax64]; omega)
  have q : ∀ {e h e' h' : ℤ} {a b : Float64}, Grid e h a → Grid e' h' b → -1022 ≤ h - e' →
      h - e' ≤ 964 → -863 ≤ e - h' → EntryGrid (a /. b) := by
    intro e h e' h' a b g g' h1 h2 h3
    exact entry_weaken (grid_div g g' (by rw [nrm64]; omega) (by rw [emax64]; omega))
      (by rw [prec64]; omega) h2
  constructor
  · unfold rotFromJ
    dsimp only
    rw [hY.scaled.div hp.scaled, hX.neg.scaled.div hp.scaled, hXZ.scaled.div hpj.scaled,
      hYZ.scaled.div hpj.scaled, hp.neg.scaled.div hj.scaled, hX.scaled.div hj.scaled,
      hY.scaled.div hj.scaled, hZ.scaled.div hj.scaled]
  · refine ⟨q hY.left hp.left ?_ ?_ ?_, q hX.neg.left hp.left ?_ ?_ ?_, ?_, q hXZ.left hpj.left ?_ ?_ ?_,
      q hYZ.left hpj.left ?_ ?_ ?_, q hp.neg.left hj.left ?_ ?_ ?_, q hX.left hj.left ?_ ?_ ?_,
      q hY.left hj.left ?_ ?_ ?_, q hZ.left hj.left ?_ ?_ ?_⟩
    case refine_7 =>
      left
      exact grid_ofExact (n := 0) (by simp) (by simp) (by rw [nrm64]; omega) (by rw [emax64]; omega)
    all_goals omega

/-- one component of the product with the matrix -/
theorem dot3_units {sm : List Float64 → Float64} {dt : List (Float64 × Float64) → Float64} (hd : SameDot dt)
    {k : ℤ} (hk : |k| ≤ 400) {a b c x y z : Float64} (ha : EntryGrid a) (hb : EntryGrid b)
    (hc : EntryGrid c) (hx : OnGrid k (-92) 41 x) (hy : OnGrid k (-92) 41 y) (hz : OnGrid k (-92) 41 z) :
    @dot3 _ (sumDot sm dt) a b c (Num.ofRat (2 ^ k) *. x) (Num.ofRat (2 ^ k) *. y)
        (Num.ofRat (2 ^ k) *. z)
      = Num.ofRat (2 ^ k) *. @dot3 _ (sumDot sm dt) a b c x y z := by
  have t : ∀ {u : Float64}, OnGrid k (-92) 41 u → Pair k (-92) 41 u (Num.ofRat (2 ^ k) *. u) :=
    fun hu => pair_grid hu hk (by omega) (by omega)
  have h := hd [((a, x), (a, Num.ofRat (2 ^ k) *. x)), ((b, y), (b, Num.ofRat (2 ^ k) *. y)),
    ((c, z), (c, Num.ofRat (2 ^ k) *. z))]
  have := fused2_sums h (k := k) (e := -92) (h := 41) (e' := -915) (h' := 964) (by
      intro q hq
      simp only [List.mem_cons, List.not_mem_nil, or_false] at hq
      rcases hq with rfl | rfl | rfl
      exacts [⟨rfl, ha, t hx⟩, ⟨rfl, hb, t hy⟩, ⟨rfl, hc, t hz⟩])
    (by rw [nrm64]; omega) (by rw [nrm64]; omega) (by rw [emax64]; omega) (by decide) (by
      show 3 ≤ _
      decide) (by
      refine le_trans ?_ (Fmt.binary64.pow_le_maxFin (e := 1007) (by rw [emax64]; omega))
      show ((3 : ℕ) : ℚ) * _ ≤ _
      rw [show (1007 : ℤ) = 2 + (964 + 41) by norm_num, zpow_add₀ (by norm_num) 2]
      exact mul_le_mul_of_nonneg_right (by norm_num) (zpow_pos (by norm_num) _).le)
  exact (this.scaled.mul_eq64 hk).symm

theorem rot_units {sm : List Float64 → Float64} {dt : List (Float64 × Float64) → Float64}
    (hd : SameDot dt) (hi : |i| ≤ 400) (hj : |j| ≤ 400)
    {A : Mat3 Float64} (hA : EntryGrid A.e1x ∧ EntryGrid A.e1y ∧ EntryGrid A.e1z ∧ EntryGrid A.e2x ∧
      EntryGrid A.e2y ∧ EntryGrid A.e2z ∧ EntryGrid A.e3x ∧ EntryGrid A.e3y ∧ EntryGrid A.e3z)
    {a : Body Float64} (h : a.Fits l i j 41) :
    @Body.rot _ (sumDot sm dt) A (a.rescale l i j p) = (@Body.rot _ (sumDot sm dt) A a).rescale l i j p := by
  obtain ⟨h1, h2, h3, h4, h5, h6, h7, h8, h9⟩ := hA
  unfold Body.rot Body.rescale
  simp only [dot3_units hd hi h1 h2 h3 h.x h.y h.z, dot3_units hd hi h4 h5 h6 h.x h.y h.z,
    dot3_units hd hi h7 h8 h9 h.x h.y h.z, dot3_units hd hj h1 h2 h3 h.vx h.vy h.vz,
    dot3_units hd hj h4 h5 h6 h.vx h.vy h.vz, dot3_units hd hj h7 h8 h9 h.vx h.vy h.vz]

/-- the matrix in both units -/
theorem alignMatrix_units {sm : List Float64 → Float64} (hs : SameOrder sm)
    (dt : List (Float64 × Float64) → Float64) (hl : |l| ≤ 400)
    (hi : |i| ≤ 400) (hj : |j| ≤ 400) (s : List (Body Float64)) (h : ∀ a ∈ s, a.Fits l i j 41)
    (hn : s.length ≤ 2 ^ 30) {rCut : Option Float64} (hc : ∀ c ∈ rCut, InRange i 200 c) :
    let A := @alignMatrix _ (sumDot sm dt) rCut s
    @alignMatrix _ (sumDot sm dt) (rCut.map (Num.ofRat (2 ^ i) *. ·)) (s.map (Body.rescale l i j p)) = A ∧
      EntryGrid A.e1x ∧ EntryGrid A.e1y ∧ EntryGrid A.e1z ∧ EntryGrid A.e2x ∧
      EntryGrid A.e2y ∧ EntryGrid A.e2z ∧ EntryGrid A.e3x ∧ EntryGrid A.e3y ∧ EntryGrid A.e3z := by
  have hf : (s.map (Body.rescale l i j p)).filter (Body.inside (rCut.map (Num.ofRat (2 ^ i) *. ·)))
      = (s.filter (Body.inside rCut)).map (Body.rescale l i j p) := by
    rw [List.filter_map]
    congr 1
    exact List.filter_congr fun a ha => (h a ha).inside hi hc
  have hlen : (s.filter (Body.inside rCut)).length ≤ 2 ^ 30 := (List.length_filter_le _ _).trans hn
  have hm : ∀ a ∈ s.filter (Body.inside rCut), a.Fits l i j 41 := fun a ha => h a (List.mem_filter.1 ha).1
  have g : ∀ {k : ℤ} {c : Float64}, OnGrid k (-92) 41 c → |k| ≤ 400 →
      Pair k (-92) 41 c (Num.ofRat (2 ^ k) *. c) := fun hc hk => pair_grid hc hk (by omega) (by omega)
  have tx := pair_total hs (k := l + (i + j)) (s.filter (Body.inside rCut)) (fun a => a.m *. a.jx)
    (fun a => (a.rescale l i j p).m *. (a.rescale l i j p).jx) (fun a ha =>
      pair_moment (g (hm a ha).m hl) (g (hm a ha).y hi) (g (hm a ha).vz hj) (g (hm a ha).z hi)
        (g (hm a ha).vy hj)) hlen
  have ty := pair_total hs (k := l + (i + j)) (s.filter (Body.inside rCut)) (fun a => a.m *. a.jy)
    (fun a => (a.rescale l i j p).m *. (a.rescale l i j p).jy) (fun a ha =>
      pair_moment (g (hm a ha).m hl) (g (hm a ha).z hi) (g (hm a ha).vx hj) (g (hm a ha).x hi)
        (g (hm a ha).vz hj)) hlen
  have tz := pair_total hs (k := l + (i + j)) (s.filter (Body.inside rCut)) (fun a => a.m *. a.jz)
    (fun a => (a.rescale l i j p).m *. (a.rescale l i j p).jz) (fun a ha =>
      pair_moment (g (hm a ha).m hl) (g (hm a ha).x hi) (g (hm a ha).vy hj) (g (hm a ha).y hi)
        (g (hm a ha).vx hj)) hlen
  have key := rotFromJ_units tx ty tz
  refine ⟨?_, key.2⟩
  have e : ∀ f : Body Float64 → Float64,
      @totalInside _ (sumDot sm dt) (rCut.map (Num.ofRat (2 ^ i) *. ·)) (s.map (Body.rescale l i j p)) f
        = sm ((s.filter (Body.inside rCut)).map fun a => f (a.rescale l i j p)) := by
    intro f
    have : @totalInside _ (sumDot sm dt) (rCut.map (Num.ofRat (2 ^ i) *. ·)) (s.map (Body.rescale l i j p)) f
        = sm (((s.map (Body.rescale l i j p)).filter
          (Body.inside (rCut.map (Num.ofRat (2 ^ i) *. ·)))).map f) := rfl
    rw [this, hf, List.map_map]
    rfl
  have e' : @alignMatrix _ (sumDot sm dt) (rCut.map (Num.ofRat (2 ^ i) *. ·)) (s.map (Body.rescale l i j p))
      = rotFromJ
        (@totalInside _ (sumDot sm dt) (rCut.map (Num.ofRat (2 ^ i) *. ·)) (s.map (Body.rescale l i j p))
          fun a => a.m *. a.jx)
        (@totalInside _ (sumDot sm dt) (rCut.map (Num.ofRat (2 ^ i) *. ·)) (s.map (Body.rescale l i j p))
          fun a => a.m *. a.jy)
        (@totalInside _ (sumDot sm dt) (rCut.map (Num.ofRat (2 ^ i) *. ·)) (s.map (Body.rescale l i j p))
          fun a => a.m *. a.jz) := rfl
  rw [e', e, e, e]
  exact key.1

/-- C89: `star_align` commutes with a change of units by powers of two, bit for bit, whatever the order
of the additions. -/
theorem C89_star_align (sm : List Float64 → Float64) (hs : SameOrder sm)
    (dt : List (Float64 × Float64) → Float64) (hd : SameDot dt) (b : BGalaxy Float64)
    (l i j p : ℤ) (hl : |l| ≤ 400) (hi : |i| ≤ 400) (hj : |j| ≤ 400)
    (h : ∀ a ∈ b.all, a.Fits l i j 41) (hn : b.stars.length ≤ 2 ^ 30) (rCut : Option Float64)
    (hc : ∀ c ∈ rCut, InRange i 200 c) :
    (@starAlign _ (sumDot sm dt) (Galaxy.ofBodies b) rCut = .error .valueError ∧
      @starAlign _ (sumDot sm dt) (Galaxy.ofBodies (b.rescale l i j p))
        (rCut.map (Num.ofRat (2 ^ i) *. ·)) = .error .valueError) ∨
    ∃ b' : BGalaxy Float64,
      @starAlign _ (sumDot sm dt) (Galaxy.ofBodies b) rCut = .ok (Galaxy.ofBodies b') ∧
      @starAlign _ (sumDot sm dt) (Galaxy.ofBodies (b.rescale l i j p))
        (rCut.map (Num.ofRat (2 ^ i) *. ·)) = .ok (Galaxy.ofBodies (b'.rescale l i j p)) ∧
      b'.hasPot = b.hasPot ∧ b'.all.map (·.pot) = b.all.map (·.pot) := by
  have hbad : @badCut _ (sumDot sm dt) (rCut.map (Num.ofRat (2 ^ i) *. ·)) = @badCut _ (sumDot sm dt) rCut := by
    cases rCut with
    | none => rfl
    | some c =>
      rw [abs_le] at hi
      exact (pair_coord (hc c rfl) hi.1 hi.2).scaled.le_zero
  cases hb : @badCut _ (sumDot sm dt) rCut with
  | true =>
    exact Or.inl ⟨@starAlign_bad _ (sumDot sm dt) _ _ hb, @starAlign_bad _ (sumDot sm dt) _ _ (hbad.trans hb)⟩
  | false =>
    right
    have hst : ∀ a ∈ b.stars, a.Fits l i j 41 := fun a ha => h a (by simp [BGalaxy.all, ha])
    obtain ⟨hA, hE⟩ := alignMatrix_units hs dt (p := p) hl hi hj b.stars hst hn hc
    refine ⟨_, @starAlign_ofBodies _ (sumDot sm dt) b rCut hb, ?_, rfl, by
      rw [mapBodies_all, List.map_map]; rfl⟩
    refine (@starAlign_ofBodies _ (sumDot sm dt) _ _ (hbad.trans hb)).trans ?_
    have e : (b.rescale l i j p).stars = b.stars.map (Body.rescale l i j p) := rfl
    rw [e, hA]
    have hr : ∀ a ∈ b.all, @Body.rot _ (sumDot sm dt) (@alignMatrix _ (sumDot sm dt) rCut b.stars) (a.rescale l i j p)
        = (@Body.rot _ (sumDot sm dt) (@alignMatrix _ (sumDot sm dt) rCut b.stars) a).rescale l i j p :=
      fun a ha => rot_units hd hi hj hE (h a ha)
    congr 2
    unfold BGalaxy.rescale BGalaxy.mapBodies
    simp only [List.map_map, Function.comp_def, BGalaxy.mk.injEq, and_true]
    refine ⟨?_, ?_, ?_⟩ <;> refine List.map_congr_left fun a ha => hr a ?_ <;> simp [BGalaxy.all, ha]

/-! ## Centring -/

theorem argBestAux_units {F α : Type} [Num F] {R : F → F → Prop} {better : F → F → Bool}
    (hb : ∀ {a b c d}, R a b → R c d → better b d = better a c) (s : List α) (f g : α → F)
    (h : ∀ a ∈ s, R (f a) (g a)) (n : Nat) {x y : Nat × F} (h1 : x.1 = y.1) (h2 : R x.2 y.2) :
    (Np.argBestAux better (s.map g) n y).1 = (Np.argBestAux better (s.map f) n x).1 := by
  induction s generalizing n x y with
  | nil => exact h1.symm
  | cons a s ih =>
    have ha := h a List.mem_cons_self
    refine ih (fun b hb => h b (List.mem_cons_of_mem _ hb)) (n + 1) ?_ ?_
    · rw [hb ha h2]; split <;> simp [h1]
    · rw [hb ha h2]; split <;> assumption

theorem UnitRel.argmin {F α : Type} [Num F] {R : F → F → Prop} (hR : UnitRel R) (s : List α) (f g : α → F)
    (h : ∀ a ∈ s, R (f a) (g a)) : Np.argmin (s.map g) = Np.argmin (s.map f) := by
  cases s with
  | nil => rfl
  | cons a s =>
    refine congrArg Except.ok (argBestAux_units (R := R) ?_ s f g
      (fun b hb => h b (List.mem_cons_of_mem _ hb)) 1 rfl (h a List.mem_cons_self))
    intro a b c d h1 h2
    rw [hR.isNaN h1, hR.isNaN h2, hR.lt h1 h2]

theorem UnitRel.lowIdx {F α : Type} [Num F] {R : F → F → Prop} (hR : UnitRel R)
    (hinf : R Num.pinf Num.pinf) (s : List α) (f g : α → F) (h : ∀ a ∈ s, R (f a) (g a)) :
    lowIdx (s.map g) = lowIdx (s.map f) := by
  unfold GChop.lowIdx
  have e : (s.map g).all Num.isNaN = (s.map f).all Num.isNaN := by
    rw [List.all_map, List.all_map]
    rw [Bool.eq_iff_iff, List.all_eq_true, List.all_eq_true]
    exact forall₂_congr fun a ha => by simp [hR.isNaN (h a ha)]
  rw [e, List.length_map, List.length_map, List.map_map, List.map_map]
  split
  · rfl
  · rw [hR.argmin s ((fun a => if Num.isNaN a then Num.pinf else a) ∘ f)
      ((fun a => if Num.isNaN a then Num.pinf else a) ∘ g)]
    intro a ha
    simp only [Function.comp_apply, hR.isNaN (h a ha)]
    split
    · exact hinf
    · exact h a ha

/-- the potential can be expressed in both units -/
def Body.PotFits (p : ℤ) (a : Body Float64) : Prop :=
  InRange p 400 a.pot ∨ Num.isFinite a.pot = false

theorem Body.PotFits.scaled {a : Body Float64} (h : a.PotFits p) (hp : |p| ≤ 800) :
    Scaled p a.pot (Num.ofRat (2 ^ p) *. a.pot) := by
  rw [abs_le] at hp
  rcases h with h | h
  · exact (h.pair (by rw [nrm64]; omega) (by rw [emax64]; omega)
      (by rw [nrm64, prec64]; omega) (by omega) (by rw [emax64]; omega)).scaled
  · have hs : Scaled p a.pot a.pot := .of_not_finite h
    rw [hs.mul_eq (by rw [nrm64]; omega) (by rw [emax64]; omega)]
    exact hs

theorem shift_units (hi : |i| ≤ 400) {a c : Body Float64} (ha : a.Fits l i j 40) (hc : c.Fits l i j 40) :
    (a.rescale l i j p).shift (c.rescale l i j p).x (c.rescale l i j p).y (c.rescale l i j p).z
      = (a.shift c.x c.y c.z).rescale l i j p := by
  have t : ∀ {u v : Float64}, OnGrid i (-92) 40 u → OnGrid i (-92) 40 v →
      (Num.ofRat (2 ^ i) *. u) -. (Num.ofRat (2 ^ i) *. v) = Num.ofRat (2 ^ i) *. (u -. v) := by
    intro u v hu hv
    exact (((pair_grid hu hi (by omega) (by omega)).sub (pair_grid hv hi (by omega) (by omega))
      (by rw [nrm64]; omega) (by rw [nrm64]; omega) (by rw [emax64]; omega)).scaled.mul_eq64 hi).symm
  unfold Body.shift Body.rescale
  simp only [t ha.x hc.x, t ha.y hc.y, t ha.z hc.z]

theorem Flt.OnGrid.weaken {k e h h' : ℤ} {fmt : Fmt} {a : Flt fmt} (g : OnGrid k e h a) (hh : h ≤ h') :
    OnGrid k e h' a := by
  obtain ⟨s, m, rfl, g, g', l, l'⟩ := g
  have := zpow_le_zpow_right₀ (a := (2 : ℚ)) (by norm_num) hh
  exact ⟨s, m, rfl, g, g', l.trans this, l'.trans this⟩

theorem Flt.Pair.onGrid {k e h : ℤ} {fmt : Fmt} {a b : Flt fmt} (p : Pair k e h a b) : OnGrid k e h a := by
  obtain ⟨s, m, m', rfl, rfl, hm, g, g', l, l'⟩ := p.dest
  rw [hm] at g' l'
  exact ⟨s, m, rfl, g, g', l, l'⟩

/-- a centred galaxy can be aligned -/
theorem shift_fits (hi : |i| ≤ 400) {a c : Body Float64} (ha : a.Fits l i j 40) (hc : c.Fits l i j 40) :
    (a.shift c.x c.y c.z).Fits l i j 41 := by
  have t : ∀ {u v : Float64}, OnGrid i (-92) 40 u → OnGrid i (-92) 40 v → OnGrid i (-92) 41 (u -. v) := by
    intro u v hu hv
    exact ((pair_grid hu hi (by omega) (by omega)).sub (pair_grid hv hi (by omega) (by omega))
      (by rw [nrm64]; omega) (by rw [nrm64]; omega) (by rw [emax64]; omega)).onGrid
  exact ⟨ha.m, t ha.x hc.x, t ha.y hc.y, t ha.z hc.z, ha.vx, ha.vy, ha.vz⟩

theorem rescale_all (b : BGalaxy Float64) :
    (b.rescale l i j p).all = b.all.map (Body.rescale l i j p) := by
  simp [BGalaxy.rescale, BGalaxy.mapBodies, BGalaxy.all]

/-- C89: `center` commutes with a change of units by powers of two, bit for bit; the result can be
aligned. -/
theorem C89_center (b : BGalaxy Float64) (l i j p : ℤ) (hi : |i| ≤ 400) (hp : |p| ≤ 800)
    (h : ∀ a ∈ b.all, a.Fits l i j 40) (hpot : ∀ a ∈ b.all, a.PotFits p) :
    (center (Galaxy.ofBodies b) = .error .valueError ∧
      center (Galaxy.ofBodies (b.rescale l i j p)) = .error .valueError) ∨
    ∃ b' : BGalaxy Float64, center (Galaxy.ofBodies b) = .ok (Galaxy.ofBodies b') ∧
      center (Galaxy.ofBodies (b.rescale l i j p)) = .ok (Galaxy.ofBodies (b'.rescale l i j p)) ∧
      (∀ a ∈ b'.all, a.Fits l i j 41) ∧ b'.stars.length = b.stars.length ∧ b'.hasPot = b.hasPot ∧
      b'.all.map (·.pot) = b.all.map (·.pot) := by
  cases hpt : b.hasPot with
  | false =>
    left
    have : ∀ g : Galaxy Float64, g.hasPotential = false → center g = .error .valueError := by
      intro g hg
      simp [center, hg]
    exact ⟨this _ hpt, this _ hpt⟩
  | true =>
    by_cases hne : b.all = []
    · exact Or.inl ⟨center_empty b hpt hne, center_empty (b.rescale l i j p) hpt (by
        rw [rescale_all, hne]; rfl)⟩
    · right
      have hidx : lowIdx ((b.rescale l i j p).all.map (·.pot)) = lowIdx (b.all.map (·.pot)) := by
        rw [rescale_all, List.map_map]
        exact (unitRel_scaled p).lowIdx rfl b.all _ _ fun a ha => (hpot a ha).scaled hp
      have hlt : lowIdx (b.all.map (·.pot)) < b.all.length := by
        obtain ⟨k, h1, h2, h3⟩ := seriesArgmin_lowIdx (pots := b.all.map (·.pot)) (by simpa using hne)
        simpa using h3
      have hc : b.all[lowIdx (b.all.map (·.pot))]? = some (b.all[lowIdx (b.all.map (·.pot))]) :=
        List.getElem?_eq_getElem hlt
      generalize b.all[lowIdx (b.all.map (·.pot))] = c at hc
      have hcm : c ∈ b.all := List.mem_of_getElem? hc
      have hc' : (b.rescale l i j p).all[lowIdx ((b.rescale l i j p).all.map (·.pot))]?
          = some (c.rescale l i j p) := by
        rw [hidx, rescale_all, List.getElem?_map, hc]
        rfl
      refine ⟨_, center_ofBodies b hpt c hc, ?_, ?_, by simp [BGalaxy.mapBodies], hpt, by
        rw [mapBodies_all, List.map_map]; rfl⟩
      · rw [center_ofBodies (b.rescale l i j p) hpt _ hc']
        congr 2
        unfold BGalaxy.rescale BGalaxy.mapBodies
        simp only [List.map_map, Function.comp_def, BGalaxy.mk.injEq, and_true]
        refine ⟨?_, ?_, ?_⟩ <;> refine List.map_congr_left fun a ha => shift_units hi (h a ?_) (h c hcm) <;>
          simp [BGalaxy.all, ha]
      · intro a ha
        rw [mapBodies_all] at ha
        obtain ⟨a', ha', rfl⟩ := List.mem_map.1 ha
        exact shift_fits hi (h a' ha') (h c hcm)

/-- a number that is zero or between `2^-40` and `2^40` in both units -/
theorem onGrid_of_inRange {k : ℤ} {a : Float64} (h : InRange k 40 a) : OnGrid k (-92) 40 a := by
  have := h.onGrid
  rwa [prec64] at this

/-- C89: numbers that are zero or between `2^-40` and `2^40` in both units satisfy the hypotheses. -/
theorem C89_range {a : Body Float64} (hm : InRange l 40 a.m) (hx : InRange i 40 a.x)
    (hy : InRange i 40 a.y) (hz : InRange i 40 a.z) (hvx : InRange j 40 a.vx) (hvy : InRange j 40 a.vy)
    (hvz : InRange j 40 a.vz) : a.Fits l i j 40 ∧ a.Fits l i j 41 := by
  have w : ∀ {k : ℤ} {a : Float64}, InRange k 40 a → OnGrid k (-92) 41 a := fun h =>
    (onGrid_of_inRange h).weaken (by omega)
  exact ⟨⟨w hm, onGrid_of_inRange hx, onGrid_of_inRange hy, onGrid_of_inRange hz, w hvx, w hvy, w hvz⟩,
    ⟨w hm, w hx, w hy, w hz, w hvx, w hvy, w hvz⟩⟩

/-- C89 for the model as it stands, for numpy's order, for products that are rounded before they are added
and for a chain of fused multiply-adds: none depends on the numbers. -/
theorem C89_orders : SameOrder (Num.sum : List Float64 → Float64) ∧
    SameOrder (npSum : List Float64 → Float64) ∧ SameDot (Num.dot : List (Float64 × Float64) → Float64) ∧
    sumDot Num.sum Num.dot = (inferInstance : Num Float64) ∧
    (∀ sm : List Float64 → Float64, SameOrder sm → SameDot fun l => sm (l.map fun p => p.1 *. p.2)) ∧
    SameDot (fmaChain : List (Float64 × Float64) → Float64) :=
  ⟨sameOrder_leftFold, sameOrder_npSum, sameDot_dot, rfl, fun _ => sameDot_of_sameOrder, sameDot_fmaChain⟩

/-! ## Other factors -/

/-- a star at (0, 1, 1) with velocity (1, 0, 0) -/
def exSlant : BGalaxy Float64 := starsOnly [starAt (dv 0 1 1) (dv 1 0 0)]

/-- a star at (0.1, 0, 0), and one at (0.5, 0, 0) with a lower potential -/
def exApart : BGalaxy Float64 :=
  starsOnly [starAt (dv (1/10) 0 0) (dv 0 0 0),
    { starAt (dv (1/2) 0 0) (dv 0 0 0) with pot := Num.ofRat (-1) }]

/-- C89 (negation for other factors): `star_align` and `center` do not commute with the multiplication
of the lengths by three. -/
theorem C89_other_factor :
    (∃ b' b'' : BGalaxy Float64, starAlign (Galaxy.ofBodies exSlant) none = .ok (Galaxy.ofBodies b') ∧
      starAlign (Galaxy.ofBodies (exSlant.mapBodies (Body.stretch (Num.ofRat 3)))) none
        = .ok (Galaxy.ofBodies b'') ∧
      b''.stars.map (·.y) ≠ b'.stars.map (Num.ofRat 3 *. ·.y)) ∧
    ∃ b' b'' : BGalaxy Float64, center (Galaxy.ofBodies exApart) = .ok (Galaxy.ofBodies b') ∧
      center (Galaxy.ofBodies (exApart.mapBodies (Body.stretch (Num.ofRat 3)))) = .ok (Galaxy.ofBodies b'') ∧
      b''.stars.map (·.x) ≠ b'.stars.map (Num.ofRat 3 *. ·.x) :=
  ⟨⟨_, _, starAlign_ofBodies _ none rfl, starAlign_ofBodies _ none rfl, by decide +kernel⟩,
    _, _, center_ofBodies _ rfl { starAt (dv (1/2) 0 0) (dv 0 0 0) with pot := Num.ofRat (-1) }
      (by decide +kernel),
    center_ofBodies _ rfl (Body.stretch (Num.ofRat 3)
      { starAt (dv (1/2) 0 0) (dv 0 0 0) with pot := Num.ofRat (-1) }) (by decide +kernel),
    by decide +kernel⟩

/-- C89 (negation without the bounds): in units in which the angular momentum is of size `2^-540` the
star of `exSlant` is not aligned: the squares of the components underflow. -/
theorem C89_underflow :
    (∃ b' : BGalaxy Float64, starAlign (Galaxy.ofBodies exSlant) none = .ok (Galaxy.ofBodies b') ∧
      ∀ a ∈ b'.all, Num.isFinite a.x = true) ∧
    ∃ b' : BGalaxy Float64, starAlign (Galaxy.ofBodies (exSlant.rescale 0 (-540) 0 0)) none
        = .ok (Galaxy.ofBodies b') ∧ ∀ a ∈ b'.all, Num.isFinite a.x = false :=
  ⟨⟨_, starAlign_ofBodies _ none rfl, by decide +kernel⟩,
    _, starAlign_ofBodies _ none rfl, by decide +kernel⟩

/-- the hypotheses hold for the galaxies of the counterexamples and powers of two: masses times 4,
lengths times 32, velocities divided by 128, potentials divided by 16 -/
example : (∀ a ∈ exApart.all, a.Fits 2 5 (-7) 40 ∧ a.PotFits (-4)) ∧ ∀ a ∈ exSlant.all, a.Fits 2 5 (-7) 41 := by
  have f : ∀ {a : Body Float64}, inRangeB 2 40 a.m = true → inRangeB 5 40 a.x = true →
      inRangeB 5 40 a.y = true → inRangeB 5 40 a.z = true → inRangeB (-7) 40 a.vx = true →
      inRangeB (-7) 40 a.vy = true → inRangeB (-7) 40 a.vz = true →
      a.Fits 2 5 (-7) 40 ∧ a.Fits 2 5 (-7) 41 := fun h1 h2 h3 h4 h5 h6 h7 =>
    C89_range (inRange_of h1) (inRange_of h2) (inRange_of h3) (inRange_of h4) (inRange_of h5)
      (inRange_of h6) (inRange_of h7)
  constructor
  · intro a ha
    simp only [exApart, starsOnly, BGalaxy.all, List.append_nil, List.mem_cons, List.not_mem_nil,
      or_false] at ha
    rcases ha with rfl | rfl
    · exact ⟨(f (by decide +kernel) (by decide +kernel) (by decide +kernel) (by decide +kernel)
        (by decide +kernel) (by decide +kernel) (by decide +kernel)).1, Or.inl (inRange_of (by decide +kernel))⟩
    · exact ⟨(f (by decide +kernel) (by decide +kernel) (by decide +kernel) (by decide +kernel)
        (by decide +kernel) (by decide +kernel) (by decide +kernel)).1, Or.inl (inRange_of (by decide +kernel))⟩
  · intro a ha
    simp only [exSlant, starsOnly, BGalaxy.all, List.append_nil, List.mem_cons, List.not_mem_nil,
      or_false] at ha
    subst ha
    exact (f (by decide +kernel) (by decide +kernel) (by decide +kernel) (by decide +kernel)
      (by decide +kernel) (by decide +kernel) (by decide +kernel)).2

end
end GChop
