import Verif.Props.Invariance
import Verif.Props.StarsOnly

/-!
# C68: what the circularities depend on

Only the energy and the angular momentum of the stars and of the bound particles matter: not masses,
not softenings, not unbound dark matter and gas, not whether a particle is dark matter or gas.
-/

set_option linter.unusedSectionVars false

namespace GChop
open Pd

variable {F : Type} [Num F]

/-- the energy and the angular momentum of a particle -/
def Body.constants (a : Body F) : F × F × F × F := (a.energy, a.jx, a.jy, a.jz)

/-- the bound ones among the particles that are not stars -/
def BGalaxy.boundOthers (b : BGalaxy F) : List (Body F) :=
  (b.dm ++ b.gas).filter fun a => isBound a.energy

theorem map_of_constants {β : Type} {l₁ l₂ : List (Body F)}
    (h : l₁.map Body.constants = l₂.map Body.constants) (f : F × F × F × F → β) :
    (l₁.map fun a => f a.constants) = l₂.map fun a => f a.constants := by
  have := congrArg (List.map f) h
  simpa [List.map_map, Function.comp_def] using this

theorem filter_of_constants {l₁ l₂ : List (Body F)}
    (h : l₁.map Body.constants = l₂.map Body.constants) (p : F × F × F × F → Bool) :
    (l₁.filter fun a => p a.constants).map Body.constants
      = (l₂.filter fun a => p a.constants).map Body.constants := by
  have := congrArg (List.filter p) h
  simpa [List.filter_map, Function.comp_def] using this

theorem trueFirst_of_constants {l₁ l₂ : List (Body F)}
    (h : l₁.map Body.constants = l₂.map Body.constants) :
    trueFirst (fun a => isBound a.energy) l₁ = trueFirst (fun a => isBound a.energy) l₂ := by
  have : ∀ l : List (Body F), trueFirst (fun a => isBound a.energy) l
      = trueFirst (fun c : F × F × F × F => isBound c.1) (l.map Body.constants) := by
    intro l
    unfold trueFirst
    rw [List.dropWhile_map, List.all_map]
    rfl
  rw [this, this, h]

theorem circNorm_of_constants (env : CircEnv F) (b₁ b₂ : BGalaxy F) (bin0 bin1 : F)
    (h : b₁.bound.map Body.constants = b₂.bound.map Body.constants) :
    circNorm env b₁ bin0 bin1 = circNorm env b₂ bin0 bin1 := by
  unfold circNorm
  have e1 : b₁.bound.map Body.energy = b₂.bound.map Body.energy :=
    map_of_constants h fun c => c.1
  have e2 : (b₁.bound.map fun a => Num.abs a.jz) = b₂.bound.map fun a => Num.abs a.jz :=
    map_of_constants h fun c => Num.abs c.2.2.2
  have e3 : ∀ m : F, (b₁.bound.map fun a => a.energy /. Num.abs m)
      = b₂.bound.map fun a => a.energy /. Num.abs m :=
    fun m => map_of_constants h fun c => c.1 /. Num.abs m
  have e4 : ∀ m : F, (b₁.bound.map fun a => a.jz /. m) = b₂.bound.map fun a => a.jz /. m :=
    fun m => map_of_constants h fun c => c.2.2.2 /. m
  have e5 : (b₁.bound.map fun a => Num.abs a.jr) = b₂.bound.map fun a => Num.abs a.jr :=
    map_of_constants h fun c => Num.abs (Num.sqrt (Num.sq c.2.1 +. Num.sq c.2.2.1))
  simp only [e1, e2, e3, e4, e5]

theorem circResult_of_constants (env : CircEnv F) (n : CircNorm F) {l₁ l₂ : List (Body F)}
    (h : l₁.map Body.constants = l₂.map Body.constants) :
    circResult env n l₁ = circResult env n l₂ := by
  have hf := filter_of_constants h fun c => isBound c.1
  unfold circResult
  simp only [JCirc.mk.injEq, and_true]
  refine ⟨?_, ?_, ?_, ?_⟩
  · exact map_of_constants h fun c =>
      let jc := Np.interp1 env.locate (n.pts.map (·.1)) (n.pts.map (·.2)) (c.1 /. Num.abs n.eMin)
      if (isBound c.1 && keepEps ((c.2.2.2 /. n.jzMax) /. jc)) = true then c.1 /. Num.abs n.eMin
      else Num.nan
  · exact map_of_constants hf fun c =>
      let jc := Np.interp1 env.locate (n.pts.map (·.1)) (n.pts.map (·.2)) (c.1 /. Num.abs n.eMin)
      if keepEps ((c.2.2.2 /. n.jzMax) /. jc) = true then c.2.2.2 /. n.jzMax else Num.nan
  · exact map_of_constants h fun c =>
      let jc := Np.interp1 env.locate (n.pts.map (·.1)) (n.pts.map (·.2)) (c.1 /. Num.abs n.eMin)
      if (isBound c.1 && keepEps ((c.2.2.2 /. n.jzMax) /. jc)) = true then
        (c.2.2.2 /. n.jzMax) /. jc
      else Num.nan
  · exact map_of_constants h fun c =>
      let jc := Np.interp1 env.locate (n.pts.map (·.1)) (n.pts.map (·.2)) (c.1 /. Num.abs n.eMin)
      if (isBound c.1 && keepEps ((c.2.2.2 /. n.jzMax) /. jc)) = true then
        (Num.sqrt (Num.sq c.2.1 +. Num.sq c.2.2.1) /. n.jrMax) /. jc
      else Num.nan

/-- C68: two galaxies whose stars have the same energies and angular momenta, and whose bound
particles of the other types have the same energies and angular momenta in the same order, have the
same circularities, or the same error. -/
theorem C68_determined [NumOrd F] (env : CircEnv F) (b₁ b₂ : BGalaxy F) (bin0 bin1 : F)
    (hp : b₁.hasPot = b₂.hasPot)
    (hs : b₁.stars.map Body.constants = b₂.stars.map Body.constants)
    (ho : b₁.boundOthers.map Body.constants = b₂.boundOthers.map Body.constants) :
    jcirc env (Galaxy.ofBodies b₁) bin0 bin1 = jcirc env (Galaxy.ofBodies b₂) bin0 bin1 := by
  cases h1 : b₁.hasPot with
  | false => rw [jcirc_noPot env b₁ h1, jcirc_noPot env b₂ (hp ▸ h1)]
  | true =>
    have hb : b₁.bound.map Body.constants = b₂.bound.map Body.constants := by
      have : ∀ b : BGalaxy F, b.bound.map Body.constants
          = (b.stars.filter fun a => isBound a.energy).map Body.constants
            ++ b.boundOthers.map Body.constants := by
        intro b
        simp [BGalaxy.bound, BGalaxy.boundOthers, BGalaxy.all, List.filter_append]
      rw [this, this, ho]
      congr 1
      exact filter_of_constants hs fun c => isBound c.1
    rw [jcirc_ofBodies env b₁ h1, jcirc_ofBodies env b₂ (hp ▸ h1),
      circNorm_of_constants env b₁ b₂ bin0 bin1 hb, trueFirst_of_constants hs]
    congr 1
    funext n
    rw [circResult_of_constants env n hs]

/-- C68: masses and softenings do not matter. -/
theorem C68_masses [NumOrd F] (env : CircEnv F) (b : BGalaxy F) (mass : Body F → F) (s d g : F)
    (bin0 bin1 : F) :
    jcirc env (Galaxy.ofBodies { b.mapBodies (fun a => { a with m := mass a }) with
        softS := s, softDm := d, softG := g }) bin0 bin1
      = jcirc env (Galaxy.ofBodies b) bin0 bin1 := by
  refine C68_determined env _ b bin0 bin1 (by rfl) ?_ ?_
  · simp only [BGalaxy.mapBodies, List.map_map]
    rfl
  · simp only [BGalaxy.boundOthers, BGalaxy.mapBodies, ← List.map_append, List.filter_map,
      List.map_map]
    rfl

/-- C68: dark matter and gas particles that are not bound can be removed (or added). -/
theorem C68_unbound [NumOrd F] (env : CircEnv F) (b : BGalaxy F) (bin0 bin1 : F) :
    jcirc env (Galaxy.ofBodies { b with
        dm := b.dm.filter fun a => isBound a.energy
        gas := b.gas.filter fun a => isBound a.energy }) bin0 bin1
      = jcirc env (Galaxy.ofBodies b) bin0 bin1 := by
  refine C68_determined env _ b bin0 bin1 (by rfl) (by rfl) ?_
  simp [BGalaxy.boundOthers, List.filter_append]

/-- C68: it does not matter whether a particle is dark matter or gas. -/
theorem C68_types [NumOrd F] (env : CircEnv F) (b : BGalaxy F) (bin0 bin1 : F) :
    jcirc env (Galaxy.ofBodies { b with dm := b.dm ++ b.gas, gas := [] }) bin0 bin1
      = jcirc env (Galaxy.ofBodies b) bin0 bin1 := by
  refine C68_determined env _ b bin0 bin1 (by rfl) (by rfl) ?_
  simp [BGalaxy.boundOthers]

/-- C68: unbound stars at the end of the list change nothing for the other stars; they get NaN. -/
theorem C68_unbound_stars [NumOrd F] (env : CircEnv F) (b : BGalaxy F) (extra : List (Body F))
    (hx : ∀ a ∈ extra, isBound a.energy = false) (bin0 bin1 : F) (j : JCirc F)
    (hj : jcirc env (Galaxy.ofBodies b) bin0 bin1 = .ok j) :
    jcirc env (Galaxy.ofBodies { b with stars := b.stars ++ extra }) bin0 bin1 = .ok { j with
      normalizedStarEnergy := j.normalizedStarEnergy ++ List.replicate extra.length Num.nan
      eps := j.eps ++ List.replicate extra.length Num.nan
      epsR := j.epsR ++ List.replicate extra.length Num.nan } := by
  obtain ⟨hp, hf, n, hn, rfl⟩ := jcirc_inv hj
  have hfx : extra.filter (fun a => isBound a.energy) = [] := by
    rw [List.filter_eq_nil_iff]
    intro a ha
    simp [hx a ha]
  have hb : ({ b with stars := b.stars ++ extra } : BGalaxy F).bound = b.bound := by
    simp [BGalaxy.bound, BGalaxy.all, List.filter_append, hfx]
  have ht : trueFirst (fun a => isBound a.energy) (b.stars ++ extra) = true := by
    obtain ⟨A, U, hAU, hA, hU⟩ := trueFirst_split ((trueFirst_iff _).2 hf)
    rw [hAU]
    unfold trueFirst
    rw [List.append_assoc, List.dropWhile_append_of_pos hA, List.all_eq_true]
    intro a ha
    have hmem := (List.dropWhile_sublist _).subset ha
    rcases List.mem_append.1 hmem with h | h
    · simp [hU a h]
    · simp [hx a h]
  have hn' : circNorm env { b with stars := b.stars ++ extra } bin0 bin1 = .ok n := by
    rw [circNorm_of_constants env _ b bin0 bin1 (by rw [hb]), hn]
  rw [jcirc_ofBodies env _ (by exact hp), hn']
  have hrep : ∀ f : Body F → F, (∀ a ∈ extra, f a = Num.nan) →
      extra.map f = List.replicate extra.length Num.nan := by
    intro f h
    rw [← List.map_const']
    exact List.map_congr_left h
  show (if _ then _ else _) = _
  rw [if_pos ht]
  simp only [circResult, List.map_append, List.filter_append, hfx, List.append_nil]
  congr 2
  · congr 1
    exact hrep _ fun a ha => by simp [hx a ha]
  · congr 1
    exact hrep _ fun a ha => by simp [hx a ha]
  · congr 1
    exact hrep _ fun a ha => by simp [hx a ha]

theorem len_dm (b : BGalaxy F) : (Galaxy.ofBodies b).darkMatter.len = b.dm.length := by
  simp [Galaxy.ofBodies, ParticleSet.len, ParticleSet.ofBodies, BGalaxy.dmSet]

theorem len_gas (b : BGalaxy F) : (Galaxy.ofBodies b).gas.len = b.gas.length := by
  simp [Galaxy.ofBodies, ParticleSet.len, ParticleSet.ofBodies, BGalaxy.gSet]

/-- C68: hence a decomposition by circularity attributes ignores masses and softenings. -/
theorem C68_decompose_masses [NumOrd F] (env : CircEnv F) (cbins : F × F) (dec : Decomposer F)
    (ha : ∀ a ∈ dec.attributes, a ∈ circularityAttributes) (b : BGalaxy F) (mass : Body F → F)
    (s d g : F) :
    decompose env cbins dec (Galaxy.ofBodies { b.mapBodies (fun a => { a with m := mass a }) with
        softS := s, softDm := d, softG := g })
      = decompose env cbins dec (Galaxy.ofBodies b) := by
  apply decompose_congr env cbins dec _ _ ha (C68_masses env b mass s d g cbins.1 cbins.2)
  · rw [len_dm, len_dm]; simp [BGalaxy.mapBodies]
  · rw [len_gas, len_gas]; simp [BGalaxy.mapBodies]

/-- C68: and it gives every star the same label when the dark matter and the gas are replaced by any
other particles with the same bound orbits. -/
theorem C68_decompose_stars [NumOrd F] (env : CircEnv F) (cbins : F × F) (attrs : List String)
    (hne : attrs ≠ []) (hc : ∀ a ∈ attrs, a ∈ circularityAttributes)
    (hz : "normalized_star_Jz" ∉ attrs)
    (split : List (List F) → List (Cell F) → Py (List Int × Option (Mat F)))
    (hsplit : SplitPerRow split) (b₁ b₂ : BGalaxy F) (hp : b₁.hasPot = b₂.hasPot)
    (hs : b₁.stars.map Body.constants = b₂.stars.map Body.constants)
    (ho : b₁.boundOthers.map Body.constants = b₂.boundOthers.map Body.constants)
    (c₁ : Components F)
    (h₁ : decompose env cbins ⟨attrs, starsRowsMask, split⟩ (Galaxy.ofBodies b₁) = .ok c₁) :
    ∃ c₂, decompose env cbins ⟨attrs, starsRowsMask, split⟩ (Galaxy.ofBodies b₂) = .ok c₂ ∧
      c₁.labels.take b₁.stars.length = c₂.labels.take b₂.stars.length := by
  have hlen : b₁.stars.length = b₂.stars.length := by
    have := congrArg List.length hs
    simpa using this
  obtain ⟨j, hj⟩ : ∃ j, jcirc env (Galaxy.ofBodies b₁) cbins.1 cbins.2 = .ok j := by
    obtain ⟨j, _, _, hal, _⟩ := decompose_inv h₁ (Or.inl hz)
    obtain ⟨a, ha⟩ := List.exists_mem_of_ne_nil attrs hne
    exact ⟨j, (hal ⟨a, ha, hc a ha⟩).1⟩
  have hj₂ := (C68_determined env b₁ b₂ cbins.1 cbins.2 hp hs ho).symm.trans hj
  rw [decompose_unfold env cbins b₁ attrs hne hc hz j hj] at h₁
  cases hsp : split (starMatrix j attrs b₁.stars.length)
      (List.replicate (finiteStars j attrs b₁.stars.length).length (.int PType.stars.value)) with
  | error e => rw [hsp] at h₁; cases h₁
  | ok lp =>
    obtain ⟨labels, probs⟩ := lp
    rw [← decompose_unfold env cbins b₁ attrs hne hc hz j hj] at h₁
    obtain ⟨hl, hpr⟩ := hsplit _ _ _ _ hsp
    simp only [starMatrix, List.length_map] at hl hpr
    obtain ⟨d₁, e₁, -, l₁, i₁, n₁, -⟩ := decompose_stars env cbins b₁ attrs hne hc hz j hj split labels
      probs hsp hl hpr
    rw [h₁] at e₁
    injection e₁ with e₁
    subst e₁
    rw [hlen] at hsp hl hpr i₁ n₁
    obtain ⟨c₂, e₂, -, l₂, i₂, n₂, -⟩ := decompose_stars env cbins b₂ attrs hne hc hz j hj₂ split labels
      probs hsp hl hpr
    refine ⟨c₂, e₂, ?_⟩
    have hget := List.map_inj_left.1 (i₁.trans i₂.symm)
    rw [rows_none_count] at l₁ l₂ n₁ n₂
    apply List.ext_getElem?
    intro i
    rw [List.getElem?_take, List.getElem?_take, hlen]
    split
    · rename_i hi
      by_cases hm : i ∈ finiteStars j attrs b₂.stars.length
      · exact hget i hm
      · rw [n₁ i (by omega) hm, n₂ i (by omega) hm]
    · rfl

/-! ## Examples -/

/-- a star, a bound dark matter particle and an unbound gas particle -/
def exMixed : BGalaxy (Ext ℚ) :=
  { exLost with
    stars := [orbit (-1) 1, orbit (-1/2) 1]
    dm := [orbit (-1/2) 2, orbit (-1/1000) 4]
    gas := [orbit 3 7] }

/-- the unbound gas particle can go, the circularities stay -/
example : (jcirc exEnv (Galaxy.ofBodies exMixed) (defaultCbin (F := Ext ℚ)).1 defaultCbin.2).toOption.map
      (·.eps) = some [q 1, q 1] ∧
    (jcirc exEnv (Galaxy.ofBodies { exMixed with gas := [] })
      (defaultCbin (F := Ext ℚ)).1 defaultCbin.2).toOption.map (·.eps) = some [q 1, q 1] := by
  constructor <;> decide +kernel

/-- C68 (limits): a bound dark matter particle does matter, it is part of the table of circular
orbits. -/
theorem C68_bound_matters :
    (jcirc exEnv (Galaxy.ofBodies { exMixed with dm := [orbit (-1/2) (201/200), orbit (-1/1000) 4] })
      (defaultCbin (F := Ext ℚ)).1 defaultCbin.2).toOption.map (·.eps) = some [q 1, q (200/201)] ∧
    (jcirc exEnv (Galaxy.ofBodies { exMixed with dm := [orbit (-1/1000) 4] })
      (defaultCbin (F := Ext ℚ)).1 defaultCbin.2).toOption.map (·.eps) = some [q 1, q 1] := by
  constructor <;> decide +kernel

end GChop
