import Verif.Lemmas.Circ
import Verif.Lemmas.Ext
import Verif.Props.Data

/-!
# Properties C22, C23, C24, C26, C27 of `jcirc`

They hold for every arithmetic with IEEE comparisons (`NumOrd`; C26 also uses laws of division), any
sorting routine and any interval search.
-/

set_option linter.unusedSectionVars false

namespace GChop

variable {F : Type} [Num F] [NumOrd F]

/-- a specific energy that excludes a particle: positive, `-inf` or NaN -/
def Unbound (e : F) : Prop :=
  (Num.ofRat 0 <. e) = true ∨ (e ==. Num.ninf) = true ∨ Num.isNaN e = true

theorem isBound_eq_false {e : F} : isBound e = false ↔ Unbound e := by
  have h0 : Num.isNaN (Num.ofRat 0 : F) = false :=
    (not_nan_of_lt (NumOrd.neg_one_lt_zero (F := F))).2
  unfold isBound Unbound
  cases hn : Num.isNaN e with
  | true => simp [le_nan_left hn]
  | false =>
    cases hl : (e <=. Num.ofRat 0) with
    | true => simp [not_lt_of_le hl]
    | false => simp [lt_of_not_le hn h0 hl]

theorem isBound_eq_true {e : F} : isBound e = true ↔ ¬ Unbound e := by
  rw [← isBound_eq_false]; simp

/-- no unbound star stands before a bound one -/
def BoundFirst (stars : List (Body F)) : Prop :=
  ∀ (i j : Nat) (a c : Body F), i < j → stars[i]? = some a → stars[j]? = some c →
    Unbound a.energy → Unbound c.energy

theorem trueFirst_iff (stars : List (Body F)) :
    trueFirst (fun a => isBound a.energy) stars = true ↔ BoundFirst stars := by
  constructor
  · intro h i j a c hij hi hj ha
    obtain ⟨A, U, rfl, hA, hU⟩ := trueFirst_split h
    rw [← isBound_eq_false] at ha ⊢
    have hiA : ¬ i < A.length := by
      intro hlt
      rw [List.getElem?_append_left hlt] at hi
      have := hA a (List.mem_of_getElem? hi)
      rw [ha] at this; cases this
    rw [List.getElem?_append_right (by omega)] at hj
    exact hU c (List.mem_of_getElem? hj)
  · intro h
    unfold trueFirst
    rw [List.all_eq_true]
    intro c hc
    have hsplit : stars.takeWhile (fun a => isBound a.energy) ++
        stars.dropWhile (fun a => isBound a.energy) = stars := List.takeWhile_append_dropWhile
    generalize stars.takeWhile (fun a => isBound a.energy) = A at hsplit
    cases hd : stars.dropWhile (fun a => isBound a.energy) with
    | nil => rw [hd] at hc; cases hc
    | cons u U =>
      rw [hd] at hc hsplit
      have hu : isBound u.energy = false := by
        have := List.head?_dropWhile_not (fun a : Body F => isBound a.energy) stars
        rw [hd] at this
        simpa using this
      rcases List.mem_cons.1 hc with rfl | hcU
      · simp [hu]
      · obtain ⟨k, hk⟩ := List.mem_iff_getElem?.1 hcU
        have := h A.length (A.length + 1 + k) u c (by omega)
          (by rw [← hsplit]; simp) (by
            rw [← hsplit, List.getElem?_append_right (by omega)]
            have : A.length + 1 + k - A.length = k + 1 := by omega
            rw [this]; simpa using hk)
          (isBound_eq_false.1 hu)
        simp [isBound_eq_false.2 this]

theorem bound_ne_nil {b : BGalaxy F} : b.bound ≠ [] ↔ ∃ a ∈ b.all, ¬ Unbound a.energy := by
  unfold BGalaxy.bound
  rw [Ne, List.filter_eq_nil_iff]
  push Not
  constructor
  · rintro ⟨a, h1, h2⟩; exact ⟨a, h1, isBound_eq_true.1 h2⟩
  · rintro ⟨a, h1, h2⟩; exact ⟨a, h1, isBound_eq_true.2 h2⟩

theorem mem_bound {b : BGalaxy F} {a : Body F} : a ∈ b.bound ↔ a ∈ b.all ∧ ¬ Unbound a.energy := by
  unfold BGalaxy.bound
  rw [List.mem_filter, isBound_eq_true]

theorem energyBins_ok {bin0 bin1 : F} (h0 : Num.isNaN bin0 = false) (h1 : Num.isNaN bin1 = false)
    (z0 : (bin0 ==. Num.ofRat 0) = false) (z1 : (bin1 ==. Num.ofRat 0) = false) :
    ∃ aux, energyBins bin0 bin1 = .ok aux := by
  unfold energyBins Np.arange
  simp [h0, h1, z0, z1]

/-- the normalisation succeeds exactly when there is a bound particle and an energy bin -/
theorem circNorm_ok (env : CircEnv F) (b : BGalaxy F) {bin0 bin1 : F} {aux : List F}
    (hb : b.bound ≠ []) (hbins : energyBins bin0 bin1 = .ok aux) (ha : aux ≠ []) :
    ∃ n, circNorm env b bin0 bin1 = .ok n ∧
      Np.amin (b.bound.map Body.energy) = .ok n.eMin ∧
      Np.amax (b.bound.map fun a => Num.abs a.jz) = .ok n.jzMax ∧
      Np.amax (b.bound.map fun a => Num.abs a.jr) = .ok n.jrMax ∧
      profile env aux (b.bound.map n.e) (b.bound.map n.jz) = .ok n.pts := by
  obtain ⟨eMin, h1⟩ := amin_ok (l := b.bound.map Body.energy) (by simpa using hb)
  obtain ⟨jzMax, h2⟩ := amax_ok (l := b.bound.map fun a => Num.abs a.jz) (by simpa using hb)
  obtain ⟨jrMax, h3⟩ := amax_ok (l := b.bound.map fun a => Num.abs a.jr) (by simpa using hb)
  obtain ⟨i0, pts, _, h4⟩ := profile_ok env aux (b.bound.map fun a => a.energy /. Num.abs eMin)
    (b.bound.map fun a => a.jz /. jzMax) (by simpa using hb) (by simp) ha
  refine ⟨⟨eMin, jzMax, jrMax, _⟩, ?_, h1, h2, h3, h4⟩
  simp [circNorm, h1, h2, h3, h4, hbins]

theorem circNorm_empty (env : CircEnv F) (b : BGalaxy F) {bin0 bin1 : F}
    (hb : b.bound ≠ []) (hbins : energyBins bin0 bin1 = .ok []) :
    circNorm env b bin0 bin1 = .error .indexError := by
  obtain ⟨eMin, h1⟩ := amin_ok (l := b.bound.map Body.energy) (by simpa using hb)
  obtain ⟨jzMax, h2⟩ := amax_ok (l := b.bound.map fun a => Num.abs a.jz) (by simpa using hb)
  simp [circNorm, h1, h2, hbins, profile_empty env (b.bound.map fun a => a.energy /. Num.abs eMin)
    (b.bound.map fun a => a.jz /. jzMax) (by simpa using hb)]

theorem circNorm_inv {env : CircEnv F} {b : BGalaxy F} {bin0 bin1 : F} {n : CircNorm F}
    (h : circNorm env b bin0 bin1 = .ok n) :
    b.bound ≠ [] ∧ Np.amin (b.bound.map Body.energy) = .ok n.eMin ∧
      Np.amax (b.bound.map fun a => Num.abs a.jz) = .ok n.jzMax ∧
      Np.amax (b.bound.map fun a => Num.abs a.jr) = .ok n.jrMax ∧
      ∃ aux, energyBins bin0 bin1 = .ok aux ∧ aux ≠ [] ∧
        profile env aux (b.bound.map n.e) (b.bound.map n.jz) = .ok n.pts := by
  have hb : b.bound ≠ [] := by
    intro hb
    simp [circNorm, hb, Np.amin] at h
  cases hbins : energyBins bin0 bin1 with
  | error e =>
    obtain ⟨eMin, h1⟩ := amin_ok (l := b.bound.map Body.energy) (by simpa using hb)
    obtain ⟨jzMax, h2⟩ := amax_ok (l := b.bound.map fun a => Num.abs a.jz) (by simpa using hb)
    simp [circNorm, h1, h2, hbins] at h
  | ok aux =>
    by_cases ha : aux = []
    · subst ha; rw [circNorm_empty env b hb hbins] at h; cases h
    · obtain ⟨n', h1, h2⟩ := circNorm_ok env b hb hbins ha
      rw [h] at h1
      cases h1
      exact ⟨hb, h2.1, h2.2.1, h2.2.2.1, aux, rfl, ha, h2.2.2.2⟩

/-- everything a successful call says -/
theorem jcirc_inv {env : CircEnv F} {b : BGalaxy F} {bin0 bin1 : F} {j : JCirc F}
    (h : jcirc env (Galaxy.ofBodies b) bin0 bin1 = .ok j) :
    b.hasPot = true ∧ BoundFirst b.stars ∧ ∃ n, circNorm env b bin0 bin1 = .ok n ∧
      j = circResult env n b.stars := by
  cases hp : b.hasPot with
  | false => rw [jcirc_noPot env b hp] at h; cases h
  | true =>
    rw [jcirc_ofBodies env b hp] at h
    cases hn : circNorm env b bin0 bin1 with
    | error e => rw [hn] at h; cases h
    | ok n =>
      rw [hn] at h
      change (if _ then _ else _) = _ at h
      by_cases ht : trueFirst (fun a : Body F => isBound a.energy) b.stars = true
      · rw [if_pos ht] at h
        cases h
        exact ⟨rfl, (trueFirst_iff _).1 ht, n, rfl, rfl⟩
      · rw [if_neg ht] at h; cases h

/-! ## C27 -/

/-- C27: without potential `jcirc` raises `ValueError`, with any bins. -/
theorem C27_no_potential (env : CircEnv F) (g : Galaxy F) (hg : g.Valid)
    (hp : g.hasPotential = false) (bin0 bin1 : F) :
    jcirc env g bin0 bin1 = .error .valueError := by
  obtain ⟨b, rfl⟩ := Galaxy.valid_iff.1 hg
  exact jcirc_noPot env b hp bin0 bin1

/-- C27: without a bound particle `jcirc` raises `ValueError`, with any bins. -/
theorem C27_no_bound_particle (env : CircEnv F) (b : BGalaxy F)
    (h : ∀ a ∈ b.all, Unbound a.energy) (bin0 bin1 : F) :
    jcirc env (Galaxy.ofBodies b) bin0 bin1 = .error .valueError := by
  cases hp : b.hasPot with
  | false => exact jcirc_noPot env b hp bin0 bin1
  | true =>
    rw [jcirc_ofBodies env b hp]
    have hb : b.bound = [] := by
      unfold BGalaxy.bound
      rw [List.filter_eq_nil_iff]
      intro a ha
      rw [isBound_eq_false.2 (h a ha)]; simp
    simp [circNorm, hb, Np.amin, Except.bind]

/-- C27: with a bound particle the outcome is decided by the bins and by the order of the stars:
success or `IndexError`, never `ValueError`, when the bins are numbers other than zero. -/
theorem C27_outcome (env : CircEnv F) (b : BGalaxy F) (hp : b.hasPot = true)
    (h : ∃ a ∈ b.all, ¬ Unbound a.energy) (bin0 bin1 : F) (aux : List F)
    (hbins : energyBins bin0 bin1 = .ok aux) :
    ((∃ j, jcirc env (Galaxy.ofBodies b) bin0 bin1 = .ok j) ↔ aux ≠ [] ∧ BoundFirst b.stars) ∧
    ((¬ (aux ≠ [] ∧ BoundFirst b.stars)) →
      jcirc env (Galaxy.ofBodies b) bin0 bin1 = .error .indexError) := by
  have hb := bound_ne_nil.2 h
  rw [jcirc_ofBodies env b hp]
  by_cases ha : aux = []
  · subst ha
    rw [circNorm_empty env b hb hbins]
    simp [Except.bind]
  · obtain ⟨n, hn, _⟩ := circNorm_ok env b hb hbins ha
    rw [hn]
    change (_ ↔ _) ∧ _
    by_cases ht : BoundFirst b.stars
    · have ht' := (trueFirst_iff _).2 ht
      simp [Except.bind, ht', ht, ha]
    · have ht' : trueFirst (fun a : Body F => isBound a.energy) b.stars = false := by
        rw [← Bool.not_eq_true, trueFirst_iff]; exact ht
      simp [Except.bind, ht', ht]

/-- C27: bins that are numbers other than zero never raise. -/
theorem C27_bins_ok {bin0 bin1 : F} (h0 : Num.isNaN bin0 = false) (h1 : Num.isNaN bin1 = false)
    (z0 : (bin0 ==. Num.ofRat 0) = false) (z1 : (bin1 ==. Num.ofRat 0) = false) :
    ∃ aux, energyBins bin0 bin1 = .ok aux := energyBins_ok h0 h1 z0 z1

/-! ## C22 -/

/-- C22 (negation): an unbound star before a bound one makes `jcirc` raise `IndexError`. -/
theorem C22_unbound_first_raises (env : CircEnv F) (b : BGalaxy F) (hp : b.hasPot = true)
    (i j : Nat) (a c : Body F) (hij : i < j) (hi : b.stars[i]? = some a)
    (hj : b.stars[j]? = some c) (ha : Unbound a.energy) (hc : ¬ Unbound c.energy)
    (bin0 bin1 : F) (h0 : Num.isNaN bin0 = false) (h1 : Num.isNaN bin1 = false)
    (z0 : (bin0 ==. Num.ofRat 0) = false) (z1 : (bin1 ==. Num.ofRat 0) = false) :
    jcirc env (Galaxy.ofBodies b) bin0 bin1 = .error .indexError := by
  obtain ⟨aux, hbins⟩ := energyBins_ok h0 h1 z0 z1
  have hmem : c ∈ b.all := by
    unfold BGalaxy.all
    simp [List.mem_of_getElem? hj]
  refine (C27_outcome env b hp ⟨c, hmem, hc⟩ bin0 bin1 aux hbins).2 ?_
  rintro ⟨_, h⟩
  exact hc (h i j a c hij hi hj ha)

/-- C22: the lengths of the four arrays of a successful call. -/
theorem C22_lengths (env : CircEnv F) (b : BGalaxy F) (bin0 bin1 : F) (j : JCirc F)
    (h : jcirc env (Galaxy.ofBodies b) bin0 bin1 = .ok j) (bnd : List (Body F))
    (hb : b.stars = bnd ++ b.stars.drop bnd.length) (h1 : ∀ a ∈ bnd, ¬ Unbound a.energy)
    (h2 : ∀ a ∈ b.stars.drop bnd.length, Unbound a.energy) :
    j.normalizedStarEnergy.length = b.stars.length ∧ j.eps.length = b.stars.length ∧
    j.epsR.length = b.stars.length ∧ j.normalizedStarJz.length = bnd.length := by
  obtain ⟨_, _, n, _, rfl⟩ := jcirc_inv h
  refine ⟨by simp [circResult], by simp [circResult], by simp [circResult], ?_⟩
  simp only [circResult, List.length_map]
  rw [hb, List.filter_append, List.filter_eq_self.2 (fun a ha => isBound_eq_true.2 (h1 a ha)),
    List.filter_eq_nil_iff.2 (fun a ha => by rw [isBound_eq_false.2 (h2 a ha)]; simp)]
  simp

/-- C22 (negation): with an unbound star, a successful call returns arrays of different lengths. -/
theorem C22_unbound_shortens (env : CircEnv F) (b : BGalaxy F) (bin0 bin1 : F) (j : JCirc F)
    (h : jcirc env (Galaxy.ofBodies b) bin0 bin1 = .ok j)
    (hu : ∃ a ∈ b.stars, Unbound a.energy) :
    j.normalizedStarJz.length < b.stars.length ∧ j.eps.length = b.stars.length ∧
    j.isfinite = .error .valueError := by
  obtain ⟨_, _, n, _, rfl⟩ := jcirc_inv h
  obtain ⟨a, ha, hau⟩ := hu
  have hlt : (circResult env n b.stars).normalizedStarJz.length < b.stars.length := by
    simp only [circResult, List.length_map]
    apply List.length_filter_lt_length_iff_exists.2
    exact ⟨a, ha, by rw [isBound_eq_false.2 hau]; simp⟩
  refine ⟨hlt, by simp [circResult], ?_⟩
  unfold JCirc.isfinite
  have hne : (circResult env n b.stars).normalizedStarEnergy.length = b.stars.length := by
    simp [circResult]
  rw [if_neg]
  intro hall
  rw [List.all_eq_true] at hall
  have := hall (circResult env n b.stars).normalizedStarJz (by simp [JCirc.asDict])
  rw [hne] at this
  have := eq_of_beq this
  omega

/-- C22, what remains: when every star is bound, all four arrays have one entry per star. -/
theorem C22_all_bound_partial (env : CircEnv F) (b : BGalaxy F) (hp : b.hasPot = true)
    (hall : ∀ a ∈ b.stars, ¬ Unbound a.energy) (h : ∃ a ∈ b.all, ¬ Unbound a.energy)
    (bin0 bin1 : F) (aux : List F) (hbins : energyBins bin0 bin1 = .ok aux) (ha : aux ≠ []) :
    ∃ j, jcirc env (Galaxy.ofBodies b) bin0 bin1 = .ok j ∧
      j.normalizedStarEnergy.length = b.stars.length ∧
      j.normalizedStarJz.length = b.stars.length ∧
      j.eps.length = b.stars.length ∧ j.epsR.length = b.stars.length := by
  have hf : BoundFirst b.stars := by
    intro i j a c _ hi _ hau
    exact absurd hau (hall a (List.mem_of_getElem? hi))
  obtain ⟨j, hj⟩ := (C27_outcome env b hp h bin0 bin1 aux hbins).1.2 ⟨ha, hf⟩
  refine ⟨j, hj, ?_⟩
  have := C22_lengths env b bin0 bin1 j hj b.stars (by simp) hall (by simp)
  exact ⟨this.1, this.2.2.2, this.2.1, this.2.2.1⟩

/-! ## C23 -/

/-- `m` is the largest value of `f` on the list, if none of the values is NaN -/
def IsMaxOf {α : Type} (l : List α) (f : α → F) (m : F) : Prop :=
  (∀ a ∈ l, Num.isNaN (f a) = false) → (∃ a ∈ l, f a = m) ∧ ∀ a ∈ l, (f a <=. m) = true

/-- `m` is the smallest value of `f` on the list, if none of the values is NaN -/
def IsMinOf {α : Type} (l : List α) (f : α → F) (m : F) : Prop :=
  (∀ a ∈ l, Num.isNaN (f a) = false) → (∃ a ∈ l, f a = m) ∧ ∀ a ∈ l, (m <=. f a) = true

theorem isMaxOf_amax {α : Type} {l : List α} {f : α → F} {m : F}
    (h : Np.amax (l.map f) = .ok m) : IsMaxOf l f m := by
  intro hn
  obtain ⟨h1, h2⟩ := amax_spec (by simpa using hn) h
  exact ⟨by simpa using h1, by simpa using h2⟩

theorem isMinOf_amin {α : Type} {l : List α} {f : α → F} {m : F}
    (h : Np.amin (l.map f) = .ok m) : IsMinOf l f m := by
  intro hn
  obtain ⟨h1, h2⟩ := amin_spec (by simpa using hn) h
  exact ⟨by simpa using h1, by simpa using h2⟩

theorem keepEps_true {e : F} (h : keepEps e = true) : Num.isNaN e = true ∨
    ((Num.ofRat (-1) <=. e) = true ∧ (e <=. Num.ofRat 1) = true) := by
  unfold keepEps at h
  rw [Bool.and_eq_true, Bool.not_eq_true', Bool.not_eq_true'] at h
  cases hn : Num.isNaN e with
  | true => exact Or.inl rfl
  | false =>
    right
    have h1 := (not_nan_of_lt (NumOrd.zero_lt_one (F := F))).2
    have h2 := (not_nan_of_lt (NumOrd.neg_one_lt_zero (F := F))).1
    exact ⟨le_of_not_lt h2 hn h.2, le_of_not_lt hn h1 h.1⟩

/-- C23: every circularity is NaN or between -1 and 1. -/
theorem C23_eps_range (env : CircEnv F) (b : BGalaxy F) (bin0 bin1 : F) (j : JCirc F)
    (h : jcirc env (Galaxy.ofBodies b) bin0 bin1 = .ok j) :
    ∀ e ∈ j.eps, Num.isNaN e = true ∨
      ((Num.ofRat (-1) <=. e) = true ∧ (e <=. Num.ofRat 1) = true) := by
  obtain ⟨_, _, n, _, rfl⟩ := jcirc_inv h
  intro e he
  simp only [circResult, List.mem_map] at he
  obtain ⟨a, _, rfl⟩ := he
  split
  · rename_i hk
    rw [Bool.and_eq_true] at hk
    exact keepEps_true hk.2
  · exact Or.inl NumOrd.nan_isNaN

/-- C23: what the four outputs of a bound star are.  `m` is the lowest energy of a bound particle,
`J` and `R` the largest `|Jz|` and `|Jr|` of a bound particle, and `raw` is the star's `Jz/J` over
the value at `E/|m|` of the interpolated profile.  If `raw` is above 1 or below -1 all four outputs
are NaN, otherwise they are the normalised energy, normalised Jz, `raw` and the same ratio for
`Jr`. -/
theorem C23_star_outputs (env : CircEnv F) (b : BGalaxy F) (bin0 bin1 : F) (j : JCirc F)
    (h : jcirc env (Galaxy.ofBodies b) bin0 bin1 = .ok j) :
    ∃ m J R : F, IsMinOf b.bound Body.energy m ∧
      IsMaxOf b.bound (fun a => Num.abs a.jz) J ∧ IsMaxOf b.bound (fun a => Num.abs a.jr) R ∧
      ∀ (i : Nat) (a : Body F), b.stars[i]? = some a → ¬ Unbound a.energy →
        let jc := Np.interp1 env.locate j.x j.y (a.energy /. Num.abs m)
        let raw := (a.jz /. J) /. jc
        let out (v : F) : Option F :=
          some (if (Num.ofRat 1 <. raw) = true ∨ (raw <. Num.ofRat (-1)) = true then Num.nan else v)
        j.normalizedStarEnergy[i]? = out (a.energy /. Num.abs m) ∧
        j.normalizedStarJz[i]? = out (a.jz /. J) ∧
        j.eps[i]? = out raw ∧
        j.epsR[i]? = out ((a.jr /. R) /. jc) := by
  obtain ⟨_, hf, n, hn, rfl⟩ := jcirc_inv h
  obtain ⟨_, h1, h2, h3, _⟩ := circNorm_inv hn
  refine ⟨n.eMin, n.jzMax, n.jrMax, isMinOf_amin h1, isMaxOf_amax h2, isMaxOf_amax h3, ?_⟩
  intro i a hi ha
  have hb := isBound_eq_true.2 ha
  have hk : ∀ v : F, (if keepEps (n.eps env a) = true then v else Num.nan)
      = if (Num.ofRat 1 <. n.eps env a) = true ∨ (n.eps env a <. Num.ofRat (-1)) = true
        then Num.nan else v := by
    intro v
    unfold keepEps
    cases (Num.ofRat 1 <. n.eps env a) <;> cases (n.eps env a <. Num.ofRat (-1)) <;> simp
  have hkeep : (isBound a.energy && keepEps (n.eps env a)) = keepEps (n.eps env a) := by simp [hb]
  -- the index among the bound stars
  have hidx : (b.stars.filter fun a => isBound a.energy)[i]? = some a := by
    obtain ⟨A, U, hs, hA, hU⟩ := trueFirst_split ((trueFirst_iff _).2 hf)
    rw [hs, List.filter_append, List.filter_eq_self.2 hA,
      List.filter_eq_nil_iff.2 (fun a ha => by rw [hU a ha]; simp), List.append_nil]
    rw [hs] at hi
    by_cases hlt : i < A.length
    · rwa [List.getElem?_append_left hlt] at hi
    · rw [List.getElem?_append_right (by omega)] at hi
      have := hU a (List.mem_of_getElem? hi)
      rw [hb] at this; cases this
  refine ⟨?_, ?_, ?_, ?_⟩
  · simp only [circResult, List.getElem?_map, hi, Option.map_some, hkeep, hk]
    rfl
  · simp only [circResult, List.getElem?_map, hidx, Option.map_some, hk]
    rfl
  · simp only [circResult, List.getElem?_map, hi, Option.map_some, hkeep, hk]
    rfl
  · simp only [circResult, List.getElem?_map, hi, Option.map_some, hkeep, hk]
    rfl

/-! ## C24 -/

/-- C24: an unbound star has NaN energy, circularity and projected circularity. -/
theorem C24_unbound_nan (env : CircEnv F) (b : BGalaxy F) (bin0 bin1 : F) (j : JCirc F)
    (h : jcirc env (Galaxy.ofBodies b) bin0 bin1 = .ok j) (i : Nat) (a : Body F)
    (hi : b.stars[i]? = some a) (ha : Unbound a.energy) :
    j.normalizedStarEnergy[i]? = some Num.nan ∧ j.eps[i]? = some Num.nan ∧
    j.epsR[i]? = some Num.nan := by
  obtain ⟨_, _, n, _, rfl⟩ := jcirc_inv h
  have hb := isBound_eq_false.2 ha
  simp [circResult, List.getElem?_map, hi, hb]

end GChop

namespace GChop

/-! ## C26 -/

/-- C26: every normalised energy is NaN or between -1 and 0. -/
theorem C26_energy_range {F : Type} [Num F] [NumDiv F] (env : CircEnv F) (b : BGalaxy F)
    (bin0 bin1 : F) (j : JCirc F) (h : jcirc env (Galaxy.ofBodies b) bin0 bin1 = .ok j) :
    ∀ e ∈ j.normalizedStarEnergy, Num.isNaN e = true ∨
      ((Num.ofRat (-1) <=. e) = true ∧ (e <=. Num.ofRat 0) = true) := by
  obtain ⟨_, _, n, hn, rfl⟩ := jcirc_inv h
  obtain ⟨_, h1, _⟩ := circNorm_inv hn
  have hfin : ∀ c : F, isBound c = true → Num.isFinite c = true ∧ (c <=. Num.ofRat 0) = true := by
    intro c hc
    unfold isBound at hc
    rw [Bool.and_eq_true, Bool.not_eq_true'] at hc
    refine ⟨NumDiv.finite_of_not_inf (NumOrd.not_nan_of_le hc.1).1 hc.2 ?_, hc.1⟩
    cases hp : (c ==. Num.pinf) with
    | false => rfl
    | true =>
      rw [NumOrd.eq_def, Bool.and_eq_true] at hp
      have := (lt_iff.1 (NumDiv.zero_lt_pinf (F := F))).2
      rw [NumOrd.le_trans hp.2 hc.1] at this
      cases this
  have hnn : ∀ e ∈ b.bound.map Body.energy, Num.isNaN e = false := by
    intro e he
    obtain ⟨a, ha, rfl⟩ := List.mem_map.1 he
    exact NumOrd.finite_not_nan (hfin _ (List.mem_filter.1 ha).2).1
  obtain ⟨hmem, hmin⟩ := amin_spec hnn h1
  obtain ⟨am, ham, ham'⟩ := List.mem_map.1 hmem
  have hm := hfin n.eMin (ham' ▸ (List.mem_filter.1 ham).2)
  intro e he
  simp only [circResult, List.mem_map] at he
  obtain ⟨a, ha, rfl⟩ := he
  split
  · rename_i hk
    rw [Bool.and_eq_true] at hk
    have hae := hfin _ hk.1
    have hle : (n.eMin <=. a.energy) = true := hmin _ (List.mem_map.2 ⟨a, by
      unfold BGalaxy.bound
      rw [List.mem_filter]
      exact ⟨by unfold BGalaxy.all; simp [ha], hk.1⟩, rfl⟩)
    have h0 : Num.isNaN (Num.ofRat 0 : F) = false := (NumOrd.not_nan_of_le hm.2).2
    unfold CircNorm.e
    cases hz : (n.eMin <. Num.ofRat 0) with
    | true =>
      right
      obtain ⟨hpos, hpf⟩ := NumDiv.abs_neg hm.1 hz
      have e1 := NumDiv.div_mono hm.1 hae.1 hpf hpos hle
      have e2 := NumDiv.div_abs_self hm.1 hz
      rw [NumOrd.eq_def, Bool.and_eq_true] at e2
      have h0f : Num.isFinite (Num.ofRat 0 : F) = true :=
        NumOrd.ofRat_finite (by norm_num) (by norm_num)
      have e3 := NumDiv.div_mono hae.1 h0f hpf hpos hae.2
      have e4 := NumDiv.zero_div (z := (Num.ofRat 0 : F)) hpf hpos (by
        rw [NumOrd.eq_def, le_refl' h0]; rfl)
      rw [NumOrd.eq_def, Bool.and_eq_true] at e4
      exact ⟨NumOrd.le_trans e2.2 e1, NumOrd.le_trans e3 e4.1⟩
    | false =>
      left
      have hz' : (Num.ofRat 0 <=. n.eMin) = true :=
        le_of_not_lt h0 (NumOrd.finite_not_nan hm.1) hz
      apply NumDiv.zero_div_zero
      · rw [NumOrd.eq_def, hae.2, NumOrd.le_trans hz' hle]; rfl
      · rw [NumOrd.eq_def, hm.2, hz']; rfl
  · exact Or.inl NumOrd.nan_isNaN

end GChop
