import Verif.Props.NearCirc

/-! # Circularities in doubles and in exact arithmetic

C108: when the choices that the profile of circular orbits makes are clear by a margin, doubles build it
from the particles that exact arithmetic takes, and the circularities and the labels of JThreshold follow
those of exact arithmetic on the same coordinates. -/

namespace GChop

open Flt

/-! ## Galaxies of real numbers -/

/-- the particle with the same coordinates in exact arithmetic -/
noncomputable def exactBody (a : Body Float64) : Body (Ext ℝ) where
  m := .fin (value a.m)
  x := .fin (value a.x)
  y := .fin (value a.y)
  z := .fin (value a.z)
  vx := .fin (value a.vx)
  vy := .fin (value a.vy)
  vz := .fin (value a.vz)
  pot := .fin (value a.pot)

/-- the galaxy with the same coordinates in exact arithmetic -/
noncomputable def exactGalaxy (b : BGalaxy Float64) : BGalaxy (Ext ℝ) where
  stars := b.stars.map exactBody
  dm := b.dm.map exactBody
  gas := b.gas.map exactBody
  hasPot := b.hasPot
  softS := .fin (value b.softS)
  softDm := .fin (value b.softDm)
  softG := .fin (value b.softG)

/-- specific energy of a particle, exactly -/
noncomputable def trueE (a : Body Float64) : ℝ := exactKinetic a.vx a.vy a.vz + value a.pot

/-- specific angular momentum of a particle about the z axis, exactly -/
noncomputable def trueJz (a : Body Float64) : ℝ := value a.x * value a.vy - value a.y * value a.vx

/-- error bound of the computed energy, C84 -/
noncomputable def errE (a : Body Float64) : ℝ :=
  (exactKinetic a.vx a.vy a.vz + |(value a.pot : ℝ)|) * (7 / 2 ^ 53) + 8 * tiny

/-- error bound of the computed angular momentum, C84 -/
noncomputable def errJz (a : Body Float64) : ℝ :=
  (|(value a.x * value a.vy : ℝ)| + |(value a.y * value a.vx : ℝ)|) / 2 ^ 51 + 4 * tiny

/-- coordinates and potential far from overflow -/
structure ModerateCoords (a : Body Float64) : Prop where
  x : Within 490 a.x
  y : Within 490 a.y
  vx : Within 490 a.vx
  vy : Within 490 a.vy
  vz : Within 490 a.vz
  pot : Within 980 a.pot

/-- `M` is the size of the lowest energy and `J` the largest `|Jz|` of the bound particles, in exact
arithmetic; the errors of the computed energies and angular momenta of bound particles are at most `θ`
times these, and no error is large enough to move an energy across zero. -/
structure Resolved (b : BGalaxy Float64) (M J θ : ℝ) : Prop where
  moderate : ∀ a ∈ b.all, ModerateCoords a
  sign : ∀ a ∈ b.all, errE a < |trueE a|
  M_pos : 0 < M
  M_le : ∀ a ∈ b.all, -M ≤ trueE a
  M_eq : ∃ a ∈ b.all, trueE a = -M
  J_pos : 0 < J
  J_le : ∀ a ∈ b.all, trueE a < 0 → |trueJz a| ≤ J
  J_eq : ∃ a ∈ b.all, trueE a < 0 ∧ |trueJz a| = J
  E : ∀ a ∈ b.all, trueE a < 0 → errE a ≤ θ * M
  Jz : ∀ a ∈ b.all, trueE a < 0 → errJz a ≤ θ * J

theorem exactBody_energy (a : Body Float64) : (exactBody a).energy = .fin (trueE a) := by
  simp only [exactBody, Body.energy, Body.kinetic, trueE, exactKinetic, Ext.num_ofRat, Ext.num_sq,
    Ext.num_add, Ext.num_mul]
  congr 1
  push_cast
  ring

theorem exactBody_jz (a : Body Float64) : (exactBody a).jz = .fin (trueJz a) := by
  simp only [exactBody, Body.jz, trueJz, Ext.num_mul, Ext.num_sub]

theorem exactGalaxy_all (b : BGalaxy Float64) : (exactGalaxy b).all = b.all.map exactBody := by
  simp [exactGalaxy, BGalaxy.all]

theorem energy_err {a : Body Float64} (h : ModerateCoords a) :
    Num.isFinite a.energy = true ∧ |(value a.energy : ℝ) - trueE a| ≤ errE a := by
  obtain ⟨f, e⟩ := kinetic_err h.vx h.vy h.vz
  obtain ⟨k0, k1⟩ := exactKinetic_le h.vx h.vy h.vz
  exact total_err f k0 e k1 h.pot

theorem jz_err {a : Body Float64} (h : ModerateCoords a) :
    Num.isFinite a.jz = true ∧ |(value a.jz : ℝ) - trueJz a| ≤ errJz a :=
  cross_err h.x h.vy h.y h.vx

/-- an angular momentum that is exactly zero is computed exactly -/
theorem jz_zero {a : Body Float64} (h : ModerateCoords a) (h0 : trueJz a = 0) : (value a.jz : ℝ) = 0 := by
  obtain ⟨N, -, mul, -, -⟩ := room
  obtain ⟨f1, -, -⟩ := mul h.x h.vy
  obtain ⟨f2, -, -⟩ := mul h.y h.vx
  have hq : value a.x * value a.vy = value a.y * value a.vx := by
    have : (value a.x : ℝ) * value a.vy = value a.y * value a.vx := sub_eq_zero.1 h0
    exact_mod_cast this
  have e1 := toExt_mul (toExt_value h.x.1) (toExt_value h.vy.1)
  have e2 := toExt_mul (toExt_value h.y.1) (toExt_value h.vx.1)
  rw [hq, ← e2, toExt_value f1, toExt_value f2] at e1
  have hv : value (a.x *. a.vy) = value (a.y *. a.vx) := by injection e1
  obtain ⟨-, e⟩ := rel_sub f1 f2 (by rw [hv]; simp)
  rw [hv] at e
  simp at e
  exact_mod_cast e
/-- the same coordinates in exact arithmetic -/
noncomputable def exactRef : Ref where
  body := exactBody
  E := trueE
  Jz := trueJz
  errE := errE
  errJz := errJz
  body_energy := exactBody_energy
  body_jz := exactBody_jz

theorem exactRef_galaxy (b : BGalaxy Float64) : exactRef.galaxy b = exactGalaxy b := rfl

/-- the bound particles of a galaxy -/
noncomputable def boundOf (b : BGalaxy Float64) : List (Body Float64) :=
  b.all.filter fun a => decide (trueE a < 0)

theorem Resolved.near {b : BGalaxy Float64} {M J θ : ℝ} (hr : Resolved b M J θ) : NearRef exactRef b M J θ where
  energy a ha := energy_err (hr.moderate a ha)
  jz a ha := jz_err (hr.moderate a ha)
  zero a ha h0 := jz_zero (hr.moderate a ha) h0
  sign := hr.sign
  M_pos := hr.M_pos
  M_le := hr.M_le
  M_eq := hr.M_eq
  J_pos := hr.J_pos
  J_le := hr.J_le
  J_eq := hr.J_eq
  E := hr.E
  Jz := hr.Jz

/-! ## C108 -/

/-- C108: when the choices are clear, doubles and exact arithmetic build the profile of circular orbits
from the same particles in the same order; the first one is the deepest.  The exact corners are their
normalised energies and angular momenta, and the computed corners are within `δ` of these. -/
theorem C108_profile (env : CircEnv Float64) (henv : env.OK) (env' : CircEnv (Ext ℝ)) (henv' : env'.OK)
    (b : BGalaxy Float64) (j : JCirc Float64)
    (h : jcirc env (Galaxy.ofBodies b) defaultCbin.1 defaultCbin.2 = .ok j) (M J θ δ : ℝ)
    (hr : Resolved b M J θ) (hθ : θ ≤ 1 / 4) (hδ : 3 * θ + 1 / 2 ^ 49 ≤ δ)
    (hc : Clear (boundOf b) (fun a => trueE a / M) (fun a => trueJz a / J) defaultEdges δ) :
    ∃ j', jcirc env' (Galaxy.ofBodies (exactGalaxy b)) defaultCbin.1 defaultCbin.2 = .ok j' ∧
    ∃ C : List (Body Float64), (∀ a ∈ C, a ∈ b.all ∧ trueE a < 0) ∧
      C.head?.map trueE = some (-M) ∧
      j'.x = C.map (fun a => .fin (trueE a / M)) ∧ j'.y = C.map (fun a => .fin |trueJz a / J|) ∧
      j.x.length = C.length ∧ j.y.length = C.length ∧
      (∀ (k : Nat) x a, j.x[k]? = some x → C[k]? = some a →
        Num.isFinite x = true ∧ |(value x : ℝ) - trueE a / M| ≤ δ) ∧
      ∀ (k : Nat) y a, j.y[k]? = some y → C[k]? = some a →
        Num.isFinite y = true ∧ |(value y : ℝ) - abs (trueJz a / J)| ≤ δ :=
  C109_profile (R := exactRef) env henv env' henv' b j h M J θ δ hr.near hθ hδ hc

/-- C108: with corners at least `γ` apart, a circularity computed in doubles is that of the exact
computation up to `2 δ + 2 δ / γ` relative to the circular orbit `P` of the energy of the star. -/
theorem C108_circularity (env : CircEnv Float64) (henv : env.OK) (env' : CircEnv (Ext ℝ)) (henv' : env'.OK)
    (b : BGalaxy Float64) (j : JCirc Float64)
    (h : jcirc env (Galaxy.ofBodies b) defaultCbin.1 defaultCbin.2 = .ok j) (M J θ δ γ : ℝ)
    (hr : Resolved b M J θ) (hθ : θ ≤ 1 / 4) (hδ : 3 * θ + 1 / 2 ^ 49 ≤ δ)
    (hc : Clear (boundOf b) (fun a => trueE a / M) (fun a => trueJz a / J) defaultEdges δ)
    (j' : JCirc (Ext ℝ))
    (h' : jcirc env' (Galaxy.ofBodies (exactGalaxy b)) defaultCbin.1 defaultCbin.2 = .ok j')
    (xs ys : List ℝ) (hx : j'.x = xs.map .fin) (hy : j'.y = ys.map .fin) (hγ : 0 < γ)
    (hgap : xs.Pairwise fun u v => γ ≤ v - u)
    (i : Nat) (a : Body Float64) (ha : b.stars[i]? = some a) (e : Float64) (he : j.eps[i]? = some e)
    (fe : Num.isFinite e = true) :
    trueE a < 0 ∧ ∃ P : ℝ, OnPolygon xs ys (trueE a / M) P ∧ (0 ≤ P ∧ P ≤ 1) ∧
      |value e * P - trueJz a / J| ≤ 2 * δ + 2 * δ / γ ∧
      ∀ x : ℝ, j'.eps[i]? = some (.fin x) →
        x * P = trueJz a / J ∧ |value e - x| * P ≤ 2 * δ + 2 * δ / γ :=
  C109_circularity (R := exactRef) env henv env' henv' b j h M J θ δ γ hr.near hθ hδ hc j' h' xs ys hx hy hγ hgap i a ha e he fe

/-- C108: JThreshold gives in doubles the labels of the exact computation if every bound star is a corner
of the profile or is clear of the threshold and of the circular orbit by `2 δ + 2 δ / γ`. -/
theorem C108_labels (env : CircEnv Float64) (henv : env.OK) (env' : CircEnv (Ext ℝ)) (henv' : env'.OK)
    (b : BGalaxy Float64) (j : JCirc Float64)
    (h : jcirc env (Galaxy.ofBodies b) defaultCbin.1 defaultCbin.2 = .ok j) (M J θ δ γ : ℝ)
    (hr : Resolved b M J θ) (hθ : θ ≤ 1 / 4) (hδ : 3 * θ + 1 / 2 ^ 49 ≤ δ)
    (hc : Clear (boundOf b) (fun a => trueE a / M) (fun a => trueJz a / J) defaultEdges δ)
    (j' : JCirc (Ext ℝ))
    (h' : jcirc env' (Galaxy.ofBodies (exactGalaxy b)) defaultCbin.1 defaultCbin.2 = .ok j')
    (xs ys : List ℝ) (hx : j'.x = xs.map .fin) (hy : j'.y = ys.map .fin) (hγ : 0 < γ)
    (hgap : xs.Pairwise fun u v => γ ≤ v - u)
    (junk junk' : Nat → Int) (cut : Float64) (fcut : Num.isFinite cut = true)
    (hstar : ∀ a ∈ b.stars, trueE a < 0 → (trueE a / M, |trueJz a / J|) ∈ xs.zip ys ∨
      ∀ P, OnPolygon xs ys (trueE a / M) P →
        2 * δ + 2 * δ / γ < |(|trueJz a / J| - P)| ∧
        2 * δ + 2 * δ / γ < |trueJz a / J - value cut * P|) :
    ∃ c c', decompose env defaultCbin (jThreshold junk cut) (Galaxy.ofBodies b) = .ok c ∧
      decompose env' defaultCbin (jThreshold junk' (.fin (value cut))) (Galaxy.ofBodies (exactGalaxy b))
        = .ok c' ∧
      c.labels = c'.labels ∧ c.ptypes = c'.ptypes :=
  C109_labels (R := exactRef) env henv env' henv' b j h M J θ δ γ hr.near hθ hδ hc j' h' xs ys hx hy hγ hgap junk junk' cut fcut hstar

/-! ## An example -/

/-- exact energy as a fraction -/
def energyQ (a : Body Float64) : ℚ := (value a.vx ^ 2 + value a.vy ^ 2 + value a.vz ^ 2) / 2 + value a.pot
/-- exact angular momentum as a fraction -/
def jzQ (a : Body Float64) : ℚ := value a.x * value a.vy - value a.y * value a.vx

theorem trueE_Q (a : Body Float64) : trueE a = (energyQ a : ℝ) := by
  unfold trueE energyQ exactKinetic; push_cast; ring
theorem trueJz_Q (a : Body Float64) : trueJz a = (jzQ a : ℝ) := by
  unfold trueJz jzQ; push_cast; ring

/-- `SameBin` for fractions -/
def SameBinQ (edges : List ℚ) (u v : ℚ) : Bool := edges.all fun t => decide (u ≤ t) == decide (v ≤ t)

/-- `Clear` for fractions -/
def clearQ {α : Type} [DecidableEq α] (l : List α) (E J : α → ℚ) (edges : List ℚ) (δ : ℚ) : Bool :=
  (l.all fun a => decide (E a < -δ)) &&
  (l.all fun a => l.all fun c => !decide (E a = -1) || decide (c = a) || decide (-1 + 2 * δ < E c)) &&
  (l.all fun a => edges.all fun u => decide (u = -1) || decide (δ < |E a - u|)) &&
  (l.all fun a => decide (J a = 0) || decide (δ < |J a|)) &&
  (l.all fun a => l.all fun c => !SameBinQ edges (E a) (E c) || decide (a = c) ||
    decide (2 * δ < |(|J a| - |J c|)|)) &&
  (l.all fun a => l.all fun c => !SameBinQ edges (E a) (E c) || decide (a = c) ||
    !(l.all fun d => !SameBinQ edges (E d) (E a) ||
      (decide (|J d| ≤ |J a|) && (decide (d = a) || decide (|J d| ≤ |J c|)))) ||
    decide (2 * δ < |(|J c| - 99 / 100 * |J a|)|))

theorem sameBinQ {α : Type} {E : α → ℝ} {Eq : α → ℚ} (hE : ∀ a, E a = (Eq a : ℝ)) {edges : List ℚ} {a c : α} :
    SameBin E (edges.map fun q : ℚ => (q : ℝ)) a c ↔ SameBinQ edges (Eq a) (Eq c) = true := by
  unfold SameBin SameBinQ
  simp only [List.mem_map, forall_exists_index, and_imp, forall_apply_eq_imp_iff₂, hE, Rat.cast_le,
    List.all_eq_true, beq_iff_eq, decide_eq_decide]

theorem clear_of_Q {α : Type} [DecidableEq α] {l : List α} {E J : α → ℝ} {Eq Jq : α → ℚ}
    (hE : ∀ a, E a = (Eq a : ℝ)) (hJ : ∀ a, J a = (Jq a : ℝ)) {edges : List ℚ} {δ : ℚ}
    (h : clearQ l Eq Jq edges δ = true) :
    Clear l E J (edges.map fun q : ℚ => (q : ℝ)) (δ : ℝ) := by
  unfold clearQ at h
  simp only [Bool.and_eq_true, List.all_eq_true, Bool.or_eq_true, Bool.not_eq_true', decide_eq_true_eq,
    decide_eq_false_iff_not] at h
  obtain ⟨⟨⟨⟨⟨h1, h2⟩, h3⟩, h4⟩, h5⟩, h6⟩ := h
  refine ⟨?_, ?_, ?_, ?_, ?_, ?_⟩
  · intro a ha
    rw [hE]
    exact_mod_cast h1 a ha
  · intro a ha c hc h0 hne
    rw [hE] at h0 ⊢
    have h0' : Eq a = -1 := by exact_mod_cast h0
    rcases h2 a ha c hc with (h | h) | h
    · exact absurd h0' h
    · exact absurd h hne
    · exact_mod_cast h
  · intro a ha u hu hne
    obtain ⟨q, hq, rfl⟩ := List.mem_map.1 hu
    rw [hE]
    rcases h3 a ha q hq with h | h
    · exact absurd (by rw [h]; norm_num) hne
    · exact_mod_cast h
  · intro a ha
    rw [hJ]
    rcases h4 a ha with h | h
    · left; exact_mod_cast h
    · right; exact_mod_cast h
  · intro a ha c hc hs hne
    rw [sameBinQ hE] at hs
    rw [hJ, hJ]
    rcases h5 a ha c hc with (h | h) | h
    · rw [hs] at h; cases h
    · exact absurd h hne
    · exact_mod_cast h
  · intro a ha c hc hs hne hd
    rw [sameBinQ hE] at hs
    rw [hJ, hJ]
    rcases h6 a ha c hc with ((h | h) | h) | h
    · rw [hs] at h; cases h
    · exact absurd h hne
    · exfalso
      rw [Bool.eq_false_iff] at h
      apply h
      rw [List.all_eq_true]
      intro d hdl
      simp only [Bool.or_eq_true, Bool.not_eq_true', Bool.and_eq_true, decide_eq_true_eq]
      cases hb : SameBinQ edges (Eq d) (Eq a) with
      | false => left; rfl
      | true =>
        right
        obtain ⟨g1, g2⟩ := hd d hdl ((sameBinQ hE).2 hb)
        rw [hJ, hJ] at g1
        refine ⟨by exact_mod_cast g1, ?_⟩
        by_cases hda : d = a
        · exact Or.inl hda
        · have := g2 hda
          rw [hJ, hJ] at this
          exact Or.inr (by exact_mod_cast this)
    · have h' : ((2 * δ : ℚ) : ℝ) < ((|(|Jq c| - 99 / 100 * |Jq a|)| : ℚ) : ℝ) := Rat.cast_lt.2 h
      push_cast at h'
      exact h'

/-- `Resolved` for fractions -/
def resolvedQ (b : BGalaxy Float64) (M J θ : ℚ) : Bool :=
  let K (a : Body Float64) : ℚ := (value a.vx ^ 2 + value a.vy ^ 2 + value a.vz ^ 2) / 2
  let eE (a : Body Float64) : ℚ := (K a + |value a.pot|) * (7 / 2 ^ 53) + 8 * tiny
  let eJ (a : Body Float64) : ℚ := (|value a.x * value a.vy| + |value a.y * value a.vx|) / 2 ^ 51 + 4 * tiny
  (b.all.all fun a => [a.x, a.y, a.vx, a.vy, a.vz, a.pot].all fun v =>
    Num.isFinite v && decide (|value v| ≤ 2)) &&
  (b.all.all fun a => decide (eE a < |energyQ a|)) && decide (0 < M) &&
  (b.all.all fun a => decide (-M ≤ energyQ a)) && (b.all.any fun a => decide (energyQ a = -M)) &&
  decide (0 < J) && (b.all.all fun a => !decide (energyQ a < 0) || decide (|jzQ a| ≤ J)) &&
  (b.all.any fun a => decide (energyQ a < 0) && decide (|jzQ a| = J)) &&
  (b.all.all fun a => decide (eE a ≤ θ * M)) && (b.all.all fun a => decide (eJ a ≤ θ * J))

theorem resolved_of_Q {b : BGalaxy Float64} {M J θ : ℚ} (h : resolvedQ b M J θ = true) :
    Resolved b (M : ℝ) (J : ℝ) (θ : ℝ) := by
  unfold resolvedQ at h
  simp only [Bool.and_eq_true, List.all_eq_true, List.any_eq_true, Bool.or_eq_true, Bool.not_eq_true',
    decide_eq_true_eq, decide_eq_false_iff_not] at h
  obtain ⟨⟨⟨⟨⟨⟨⟨⟨⟨h1, h2⟩, h3⟩, h4⟩, h5⟩, h6⟩, h7⟩, h8⟩, h9⟩, h10⟩ := h
  have w : ∀ {e : ℤ} {v : Float64}, 1 ≤ e → Num.isFinite v = true ∧ |value v| ≤ 2 → Within e v := by
    intro e v he hv
    refine ⟨hv.1, hv.2.trans ?_⟩
    calc (2 : ℚ) = 2 ^ (1 : ℤ) := by norm_num
      _ ≤ _ := zpow_le_zpow_right₀ (by norm_num) he
  have eE : ∀ a, errE a = (((value a.vx ^ 2 + value a.vy ^ 2 + value a.vz ^ 2) / 2 + |value a.pot|) *
      (7 / 2 ^ 53) + 8 * tiny : ℚ) := by
    intro a
    unfold errE exactKinetic
    push_cast
    rfl
  have eJ : ∀ a, errJz a = ((|value a.x * value a.vy| + |value a.y * value a.vx|) / 2 ^ 51
      + 4 * tiny : ℚ) := by
    intro a
    unfold errJz
    push_cast
    rfl
  refine ⟨?_, ?_, by exact_mod_cast h3, ?_, ?_, by exact_mod_cast h6, ?_, ?_, ?_, ?_⟩
  · intro a ha
    have := h1 a ha
    exact ⟨w (by norm_num) (this a.x (by simp)), w (by norm_num) (this a.y (by simp)),
      w (by norm_num) (this a.vx (by simp)), w (by norm_num) (this a.vy (by simp)),
      w (by norm_num) (this a.vz (by simp)), w (by norm_num) (this a.pot (by simp))⟩
  · intro a ha
    rw [eE, trueE_Q, ← Rat.cast_abs, Rat.cast_lt]
    exact h2 a ha
  · intro a ha
    rw [trueE_Q]
    exact_mod_cast h4 a ha
  · obtain ⟨a, ha, h⟩ := h5
    exact ⟨a, ha, by rw [trueE_Q, h]; push_cast; rfl⟩
  · intro a ha hneg
    rw [trueE_Q] at hneg
    rw [trueJz_Q]
    rcases h7 a ha with h | h
    · exact absurd (by exact_mod_cast hneg) h
    · exact_mod_cast h
  · obtain ⟨a, ha, h, h'⟩ := h8
    exact ⟨a, ha, by rw [trueE_Q]; exact_mod_cast h, by rw [trueJz_Q]; exact_mod_cast h'⟩
  · intro a ha _
    rw [eE, ← Rat.cast_mul, Rat.cast_le]
    exact h9 a ha
  · intro a ha _
    rw [eJ, ← Rat.cast_mul, Rat.cast_le]
    exact h10 a ha

/-- a star at (1, 0, 0) with velocity `v` along y -/
def exOrbit (v p : ℚ) : Body Float64 :=
  ⟨Num.ofRat 1, Num.ofRat 1, Num.ofRat 0, Num.ofRat 0, Num.ofRat 0, Num.ofRat v, Num.ofRat 0, Num.ofRat p⟩

/-- five stars of energies -1, -0.53, -0.525, -0.265 and -0.515 and Jz 0, 1, 0.5, 0.7 and 0.1, and a
particle of energy -0.003 and Jz 0.9, with the velocities and potentials rounded to doubles -/
def exClear : BGalaxy Float64 where
  stars := [exOrbit 0 (-1), exOrbit 1 (-103/100), exOrbit (1/2) (-65/100), exOrbit (7/10) (-51/100),
    exOrbit (1/10) (-52/100)]
  dm := [exOrbit (9/10) (-408/1000)]
  gas := []
  hasPot := true
  softS := Num.ofRat 0
  softDm := Num.ofRat 0
  softG := Num.ofRat 0

theorem exClear_resolved : Resolved exClear 1 1 ((1 / 2 ^ 49 : ℚ) : ℝ) := by
  have : Resolved exClear ((1 : ℚ) : ℝ) ((1 : ℚ) : ℝ) ((1 / 2 ^ 49 : ℚ) : ℝ) :=
    resolved_of_Q (by decide +kernel)
  simpa using this

theorem exClear_clear : Clear (boundOf exClear) (fun a => trueE a / 1) (fun a => trueJz a / 1) defaultEdges
    ((1 / 2 ^ 47 : ℚ) : ℝ) := by
  rw [show boundOf exClear = exClear.bound from (bound_eq exClear_resolved.near).symm, defaultEdges_eq]
  exact clear_of_Q (Eq := energyQ) (Jq := jzQ) (fun a => by rw [div_one, trueE_Q])
    (fun a => by rw [div_one, trueJz_Q]) (by decide +kernel)

/-- the corners of `exClear`: the first, third and fourth star and the dark matter -/
def exCorners : List (Body Float64) :=
  [exOrbit 0 (-1), exOrbit (1/2) (-65/100), exOrbit (7/10) (-51/100), exOrbit (9/10) (-408/1000)]

theorem exClear_table : ∃ j, jcirc (sortEnv (F := Float64)) (Galaxy.ofBodies exClear) defaultCbin.1
      defaultCbin.2 = .ok j ∧ j.x.length = exCorners.length ∧
    ∀ (k : Nat) x t, j.x[k]? = some x → exCorners[k]? = some t → ∀ a ∈ exClear.all,
      |value x - energyQ a| ≤ 1 / 2 ^ 47 → a = t := by
  have h : ((jcirc (sortEnv (F := Float64)) (Galaxy.ofBodies exClear) defaultCbin.1
      defaultCbin.2).toOption.map fun j => decide (j.x.length = exCorners.length) && exClear.all.all fun a =>
        (j.x.zip exCorners).all fun p =>
          !decide (|value p.1 - energyQ a| ≤ 1 / 2 ^ 47) || decide (a = p.2)) = some true := by
    decide +kernel
  cases hj : jcirc (sortEnv (F := Float64)) (Galaxy.ofBodies exClear) defaultCbin.1 defaultCbin.2 with
  | error e => rw [hj] at h; cases h
  | ok j =>
    rw [hj] at h
    simp only [Except.toOption, Option.map_some, Option.some.injEq, Bool.and_eq_true, decide_eq_true_eq,
      List.all_eq_true, Bool.or_eq_true, Bool.not_eq_true', decide_eq_false_iff_not] at h
    obtain ⟨h3, h⟩ := h
    refine ⟨j, rfl, h3, ?_⟩
    intro k x t hx ht a ha hle
    have hm : (x, t) ∈ j.x.zip exCorners :=
      List.mem_of_getElem? (i := k) (List.getElem?_zip_eq_some.2 ⟨hx, ht⟩)
    rcases h a ha _ hm with h | h
    · exact absurd hle h
    · exact h

theorem cast_between {q lo hi : ℚ} (h : (decide (lo < q) && decide (q < hi)) = true) :
    (lo : ℝ) < q ∧ (q : ℝ) < hi := by
  simp only [Bool.and_eq_true, decide_eq_true_eq] at h
  exact ⟨by exact_mod_cast h.1, by exact_mod_cast h.2⟩

/-- a stretch of a polygon: with `t` strictly between two neighbouring corners, the value is between
those of the corners -/
theorem polygon_between {xs ys : List ℝ} (hs : xs.Pairwise (· < ·)) {k : Nat} {x0 x1 y0 y1 t P : ℝ}
    (h0 : xs[k]? = some x0) (h1 : xs[k + 1]? = some x1) (g0 : ys[k]? = some y0) (g1 : ys[k + 1]? = some y1)
    (l0 : x0 < t) (l1 : t < x1) (hy : y0 ≤ y1) (h : OnPolygon xs ys t P) : y0 ≤ P ∧ P ≤ y1 := by
  have mono : ∀ (i m : Nat) u v, xs[i]? = some u → xs[m]? = some v → i ≤ m → u ≤ v := by
    intro i m u v hu hv him
    rcases Nat.eq_or_lt_of_le him with rfl | hlt
    · rw [hu] at hv; exact (Option.some.inj hv).le
    · obtain ⟨a1, a2⟩ := List.getElem?_eq_some_iff.1 hu
      obtain ⟨b1, b2⟩ := List.getElem?_eq_some_iff.1 hv
      have := List.pairwise_iff_getElem.1 hs i m a1 b1 hlt
      rw [a2, b2] at this
      exact this.le
  rcases h with ⟨x, hx, hle, -⟩ | ⟨x, hx, hle, -⟩ | ⟨i, u0, u1, v0, v1, hu0, hu1, hv0, hv1, m0, m1, rfl⟩
  · rw [List.head?_eq_getElem?] at hx
    have := mono 0 k x x0 hx h0 (by omega)
    linarith
  · rw [List.getLast?_eq_getElem?] at hx
    have hlt := (List.getElem?_eq_some_iff.1 h1).1
    have := mono (k + 1) (xs.length - 1) x1 x h1 hx (by omega)
    linarith
  · have hik : i = k := by
      rcases Nat.lt_trichotomy i k with h | h | h
      · have := mono (i + 1) k u1 x0 hu1 h0 (by omega)
        linarith
      · exact h
      · have := mono (k + 1) i x1 u0 h1 hu0 (by omega)
        linarith
    subst hik
    rw [h0] at hu0
    rw [h1] at hu1
    rw [g0] at hv0
    rw [g1] at hv1
    cases hu0
    cases hu1
    cases hv0
    cases hv1
    have r0 : 0 ≤ (t - x0) / (x1 - x0) := div_nonneg (by linarith) (by linarith)
    have r1 : (t - x0) / (x1 - x0) ≤ 1 := (div_le_one (by linarith)).2 (by linarith)
    constructor
    · have := mul_nonneg (sub_nonneg.2 hy) r0
      linarith
    · have := mul_le_mul_of_nonneg_left r1 (sub_nonneg.2 hy)
      linarith

/-- C108: `exClear` has clear choices, so JThreshold with the cut 0.5 gives the labels of exact
arithmetic: the first star has no circularity, the second is above the circular orbit, the third and the
fourth are circular orbits, the fifth is in the spheroid. -/
theorem C108_example : ∃ c c', decompose sortEnv defaultCbin (jThreshold (fun _ => 9) (Num.ofRat (1/2)))
      (Galaxy.ofBodies exClear) = .ok c ∧
    decompose sortEnv defaultCbin (jThreshold (fun _ => 9) (.fin (1/2)))
      (Galaxy.ofBodies (exactGalaxy exClear)) = .ok c' ∧
    c'.labels = [none, none, some 1, some 1, some 0, none] ∧ c.labels = c'.labels := by
  obtain ⟨j, hj, hlen, htab⟩ := exClear_table
  have δ49 : 3 * ((1 / 2 ^ 49 : ℚ) : ℝ) + 1 / 2 ^ 49 ≤ ((1 / 2 ^ 47 : ℚ) : ℝ) := by norm_num
  have θ4 : ((1 / 2 ^ 49 : ℚ) : ℝ) ≤ 1 / 4 := by norm_num
  obtain ⟨j', hj', C, hC, hhead, hx, hy, hxl, -, hxn, -⟩ := C108_profile sortEnv sortEnv_ok sortEnv
    sortEnv_ok exClear j hj 1 1 _ _ exClear_resolved θ4 δ49 exClear_clear
  have hCe : C = exCorners := by
    apply List.ext_getElem?
    intro k
    cases ha : C[k]? with
    | none =>
      symm
      rw [List.getElem?_eq_none_iff, ← hlen, hxl]
      exact List.getElem?_eq_none_iff.1 ha
    | some a =>
      have hk : k < C.length := (List.getElem?_eq_some_iff.1 ha).1
      have hk1 : k < j.x.length := by rw [hxl]; exact hk
      have hk2 : k < exCorners.length := by rw [← hlen]; exact hk1
      have hn := (hxn k _ a (List.getElem?_eq_getElem hk1) ha).2
      rw [div_one, trueE_Q] at hn
      rw [List.getElem?_eq_getElem hk2, htab k _ _ (List.getElem?_eq_getElem hk1)
        (List.getElem?_eq_getElem hk2) a (hC a (List.mem_of_getElem? ha)).1 (by exact_mod_cast hn)]
  rw [hCe] at hx hy
  -- energies and angular momenta as fractions
  have E0 : trueE (exOrbit 0 (-1)) = -1 := by
    rw [trueE_Q, show energyQ (exOrbit 0 (-1)) = -1 by decide +kernel]; norm_num
  have E1 : (-54 / 100 : ℚ) < trueE (exOrbit 1 (-103/100)) ∧ trueE (exOrbit 1 (-103/100)) <
      (-528 / 1000 : ℚ) := by rw [trueE_Q]; exact cast_between (by decide +kernel)
  have E2 : (-526 / 1000 : ℚ) < trueE (exOrbit (1/2) (-65/100)) ∧ trueE (exOrbit (1/2) (-65/100)) <
      (-524 / 1000 : ℚ) := by rw [trueE_Q]; exact cast_between (by decide +kernel)
  have E3 : (-27 / 100 : ℚ) < trueE (exOrbit (7/10) (-51/100)) ∧ trueE (exOrbit (7/10) (-51/100)) <
      (-26 / 100 : ℚ) := by rw [trueE_Q]; exact cast_between (by decide +kernel)
  have E4 : (-52 / 100 : ℚ) < trueE (exOrbit (1/10) (-52/100)) ∧ trueE (exOrbit (1/10) (-52/100)) <
      (-51 / 100 : ℚ) := by rw [trueE_Q]; exact cast_between (by decide +kernel)
  have E5 : (-1 / 100 : ℚ) < trueE (exOrbit (9/10) (-408/1000)) ∧ trueE (exOrbit (9/10) (-408/1000)) <
      (0 : ℚ) := by rw [trueE_Q]; exact cast_between (by decide +kernel)
  have J0 : trueJz (exOrbit 0 (-1)) = 0 := by
    rw [trueJz_Q, show jzQ (exOrbit 0 (-1)) = 0 by decide +kernel]; norm_num
  have J1 : trueJz (exOrbit 1 (-103/100)) = 1 := by
    rw [trueJz_Q, show jzQ (exOrbit 1 (-103/100)) = 1 by decide +kernel]; norm_num
  have J2 : trueJz (exOrbit (1/2) (-65/100)) = 1 / 2 := by
    rw [trueJz_Q, show jzQ (exOrbit (1/2) (-65/100)) = 1 / 2 by decide +kernel]; norm_num
  have J3 : (69 / 100 : ℚ) < trueJz (exOrbit (7/10) (-51/100)) ∧ trueJz (exOrbit (7/10) (-51/100)) <
      (71 / 100 : ℚ) := by rw [trueJz_Q]; exact cast_between (by decide +kernel)
  have J4 : (9 / 100 : ℚ) < trueJz (exOrbit (1/10) (-52/100)) ∧ trueJz (exOrbit (1/10) (-52/100)) <
      (11 / 100 : ℚ) := by rw [trueJz_Q]; exact cast_between (by decide +kernel)
  push_cast at E1 E2 E3 E4 E5 J3 J4
  have hcut : value (Num.ofRat (1/2) : Float64) = 1 / 2 := by decide +kernel
  have fcut : Num.isFinite (Num.ofRat (1/2) : Float64) = true := by decide +kernel
  have hlabels : (decompose sortEnv defaultCbin (jThreshold (fun _ => 9) (Num.ofRat (1/2)))
      (Galaxy.ofBodies exClear)).toOption.map Components.labels
        = some [none, none, some 1, some 1, some 0, none] := by decide +kernel
  have hstars : exClear.stars = [exOrbit 0 (-1), exOrbit 1 (-103/100), exOrbit (1/2) (-65/100),
    exOrbit (7/10) (-51/100), exOrbit (1/10) (-52/100)] := rfl
  have hcor : exCorners = [exOrbit 0 (-1), exOrbit (1/2) (-65/100), exOrbit (7/10) (-51/100),
    exOrbit (9/10) (-408/1000)] := rfl
  have B : 2 * ((1 / 2 ^ 47 : ℚ) : ℝ) + 2 * ((1 / 2 ^ 47 : ℚ) : ℝ) / (1 / 4) < 1 / 1000 := by norm_num
  generalize exOrbit 0 (-1) = a0 at *
  generalize exOrbit 1 (-103/100) = a1 at *
  generalize exOrbit (1/2) (-65/100) = a2 at *
  generalize exOrbit (7/10) (-51/100) = a3 at *
  generalize exOrbit (1/10) (-52/100) = a4 at *
  generalize exOrbit (9/10) (-408/1000) = a5 at *
  have hsort : (exCorners.map fun a => trueE a / 1).Pairwise fun u v => 1 / 4 ≤ v - u := by
    rw [hcor]
    simp only [List.map_cons, List.map_nil, div_one, List.pairwise_cons, List.mem_cons, List.not_mem_nil,
      or_false, forall_eq_or_imp, forall_eq, false_implies, implies_true, List.Pairwise.nil, and_true]
    refine ⟨⟨?_, ?_, ?_⟩, ⟨?_, ?_⟩, ?_⟩ <;> linarith [E2.1, E2.2, E3.1, E3.2, E5.1, E5.2]
  obtain ⟨c, c', hc, hc', hlab, -⟩ := C108_labels sortEnv sortEnv_ok sortEnv sortEnv_ok exClear j hj 1 1 _ _
    (1 / 4) exClear_resolved θ4 δ49 exClear_clear j' hj' (exCorners.map fun a => trueE a / 1)
    (exCorners.map fun a => |trueJz a / 1|) (by rw [hx, List.map_map]; rfl)
    (by rw [hy, List.map_map]; rfl) (by norm_num) hsort
    (fun _ => 9) (fun _ => 9) (Num.ofRat (1/2)) fcut (by
      intro a ha _
      have hsort' := hsort.imp fun {u v} (h : (1 / 4 : ℝ) ≤ v - u) => (by linarith : u < v)
      generalize 2 * ((1 / 2 ^ 47 : ℚ) : ℝ) + 2 * ((1 / 2 ^ 47 : ℚ) : ℝ) / (1 / 4) = B' at B ⊢
      rw [hcut]
      push_cast
      rw [hcor] at hsort' ⊢
      rw [hstars] at ha
      simp only [List.mem_cons, List.not_mem_nil, or_false] at ha
      rcases ha with rfl | rfl | rfl | rfl | rfl
      · left; simp
      · right
        intro P hP
        obtain ⟨p1, p2⟩ := polygon_between hsort' (k := 0) (y0 := 0) (y1 := 1 / 2) rfl rfl
          (by simp [J0]) (by simp [J2]) (by linarith [E1.1]) (by linarith [E1.2, E2.1]) (by norm_num) hP
        rw [J1, div_one, abs_one, abs_of_pos (by linarith), abs_of_pos (by linarith)]
        exact ⟨by linarith, by linarith⟩
      · left; simp
      · left; simp
      · right
        intro P hP
        obtain ⟨p1, p2⟩ := polygon_between hsort' (k := 1) (y0 := 1 / 2) (y1 := trueJz a3) rfl rfl
          (by simp [J2]) (by simp [abs_of_pos (show 0 < trueJz a3 by linarith [J3.1])])
          (by linarith [E4.1, E2.2]) (by linarith [E4.2, E3.1]) (by linarith [J3.1]) hP
        rw [div_one, abs_of_pos (show 0 < trueJz a by linarith [J4.1]), abs_of_neg (by linarith [J4.2]),
          abs_of_neg (by linarith [J4.2])]
        exact ⟨by linarith [J4.2], by linarith [J4.2]⟩)
  refine ⟨c, c', hc, ?_, ?_, hlab⟩
  · rw [hcut] at hc'
    push_cast at hc'
    exact hc'
  · rw [← hlab]
    rw [hc] at hlabels
    exact Option.some.inj hlabels

end GChop
