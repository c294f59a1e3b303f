import Verif.Repr
import Verif.Props.Data
import Verif.Props.Center
import Verif.Props.Align
import Verif.Props.Potential
import Verif.Props.Decompose

/-!
# C87: what the printed form of the objects says

The printed form of a galaxy determines the three particle numbers and whether there are potentials, and
nothing else; the steps of the analysis change it in the expected way.
-/

set_option linter.unusedSectionVars false

namespace GChop
open Pd

variable {F : Type} [Num F]

/-! ## Decimal numbers -/

/-- the number a string of digits stands for -/
def undecimal (l : List Char) : Nat := l.foldl (fun a c => 10 * a + (c.toNat - 48)) 0

theorem digitChar_toNat {d : Nat} (h : d < 10) : (digitChar d).toNat = 48 + d := by
  have : ∀ d : Fin 10, (digitChar d).toNat = 48 + d := by decide
  exact this ⟨d, h⟩

theorem undecimal_decimal (n : Nat) : undecimal (decimal n) = n := by
  induction n using Nat.strong_induction_on with
  | _ n ih =>
    rw [decimal]
    by_cases h : n < 10
    · rw [if_pos h]; simp [undecimal, digitChar_toNat h]
    · rw [if_neg h]
      have := ih (n / 10) (by omega)
      unfold undecimal at this ⊢
      rw [List.foldl_append, this]
      simp only [List.foldl_cons, List.foldl_nil]
      rw [digitChar_toNat (by omega)]
      omega

theorem decimal_digits (n : Nat) : ∀ c ∈ decimal n, c ≠ ',' := by
  induction n using Nat.strong_induction_on with
  | _ n ih =>
    intro c hc
    rw [decimal] at hc
    have hd : ∀ d, d < 10 → digitChar d ≠ ',' := by
      intro d hd h
      have h2 := digitChar_toNat hd
      rw [h] at h2
      have : (',').toNat = 44 := by decide
      omega
    by_cases h : n < 10
    · rw [if_pos h] at hc
      rw [List.mem_singleton.1 hc]; exact hd n h
    · rw [if_neg h] at hc
      rcases List.mem_append.1 hc with hc | hc
      · exact ih (n / 10) (by omega) c hc
      · rw [List.mem_singleton.1 hc]; exact hd _ (by omega)

theorem decimal_injective {a b : Nat} (h : decimal a = decimal b) : a = b := by
  rw [← undecimal_decimal a, h, undecimal_decimal]

/-- two texts without commas, each followed by a comma, are equal if the whole is -/
theorem comma_split {a b : List Char} (ha : ∀ c ∈ a, c ≠ ',') (hb : ∀ c ∈ b, c ≠ ',')
    {r s : List Char} (h : a ++ ',' :: r = b ++ ',' :: s) : a = b ∧ r = s := by
  induction a generalizing b with
  | nil =>
    cases b with
    | nil => simpa using h
    | cons y b => simp at h; exact absurd h.1.symm (hb y (by simp))
  | cons x a ih =>
    cases b with
    | nil => simp at h; exact absurd h.1 (ha x (by simp))
    | cons y b =>
      simp only [List.cons_append, List.cons.injEq] at h
      obtain ⟨h1, h2⟩ := ih (fun c hc => ha c (by simp [hc])) (fun c hc => hb c (by simp [hc])) h.2
      exact ⟨by rw [h.1, h1], h2⟩

theorem strBool_injective {a b : Bool} (h : (strBool a).toList = (strBool b).toList) : a = b := by
  cases a <;> cases b <;> first | rfl | (exact absurd h (by decide))

theorem strNat_toList (n : Nat) : (strNat n).toList = decimal n := String.toList_ofList

theorem comma_size : (", size=").toList = ',' :: (" size=").toList := by decide +kernel
theorem comma_softening : (", softening=").toList = ',' :: (" softening=").toList := by decide +kernel
theorem comma_potentials : (", potentials=").toList = ',' :: (" potentials=").toList := by
  decide +kernel
theorem comma_labels : (", labels=").toList = ',' :: (" labels=").toList := by decide +kernel

/-- a number printed before a comma -/
theorem number_split {a b : Nat} {r s : List Char}
    (h : decimal a ++ ',' :: r = decimal b ++ ',' :: s) : a = b ∧ r = s := by
  obtain ⟨h1, h2⟩ := comma_split (decimal_digits a) (decimal_digits b) h
  exact ⟨decimal_injective h1, h2⟩

/-! ## Galaxies -/

/-- C87: two galaxies are printed alike exactly if they have the same number of stars, of dark matter
particles and of gas particles and both or none have potentials. -/
theorem C87_galaxy_repr (g g' : Galaxy F) :
    g.repr = g'.repr ↔ g.stars.len = g'.stars.len ∧ g.darkMatter.len = g'.darkMatter.len ∧
      g.gas.len = g'.gas.len ∧ g.hasPotential = g'.hasPotential := by
  constructor
  · intro h
    have h := congrArg String.toList h
    simp only [Galaxy.repr, String.toList_append, strNat_toList, List.append_assoc,
      List.append_cancel_left_eq, show (", ").toList = [',', ' '] from rfl, List.cons_append,
      List.nil_append] at h
    obtain ⟨h1, h⟩ := number_split h
    simp only [List.cons.injEq, true_and, List.append_cancel_left_eq] at h
    obtain ⟨h2, h⟩ := number_split h
    simp only [List.cons.injEq, true_and, List.append_cancel_left_eq] at h
    obtain ⟨h3, h⟩ := number_split h
    simp only [List.cons.injEq, true_and, List.append_cancel_left_eq, List.append_cancel_right_eq] at h
    exact ⟨h1, h2, h3, strBool_injective h⟩
  · rintro ⟨h1, h2, h3, h4⟩
    simp only [Galaxy.repr, h1, h2, h3, h4]

/-- C87: the printed form is the one documented: `Galaxy(stars=.., dark_matter=.., gas=.., potential=..)`
with the three numbers in decimal notation. -/
theorem C87_galaxy_text (g : Galaxy F) :
    ∃ s d h : List Char, undecimal s = g.stars.len ∧ undecimal d = g.darkMatter.len ∧
      undecimal h = g.gas.len ∧
      g.repr = "Galaxy(stars=" ++ String.ofList s ++ ", dark_matter=" ++ String.ofList d ++ ", gas="
        ++ String.ofList h ++ ", potential=" ++ (if g.hasPotential then "True)" else "False)") := by
  refine ⟨decimal g.stars.len, decimal g.darkMatter.len, decimal g.gas.len, undecimal_decimal _,
    undecimal_decimal _, undecimal_decimal _, ?_⟩
  apply String.toList_injective
  cases hp : g.hasPotential <;>
  simp [Galaxy.repr, strNat, strBool, hp]

theorem len_ofBodies (t : PType) (s : BSet F) : (ParticleSet.ofBodies t s).len = s.bodies.length := by
  simp [ParticleSet.len, ParticleSet.ofBodies]

/-- C87: `center` and `star_align` do not change the printed form. -/
theorem C87_steps_repr (g g' : Galaxy F) (hg : g.Valid) (rCut : Option F) :
    (center g = .ok g' → g'.repr = g.repr) ∧ (starAlign g rCut = .ok g' → g'.repr = g.repr) := by
  constructor
  · intro h
    obtain ⟨cx, cy, cz, h1, h2, h3, h4, -, -⟩ := C09_center_rigid_translation g g' hg h
    rw [C87_galaxy_repr]
    obtain ⟨-, -, -, m1, -⟩ := h1
    obtain ⟨-, -, -, m2, -⟩ := h2
    obtain ⟨-, -, -, m3, -⟩ := h3
    exact ⟨by rw [ParticleSet.len, m1]; rfl, by rw [ParticleSet.len, m2]; rfl,
      by rw [ParticleSet.len, m3]; rfl, h4⟩
  · intro h
    obtain ⟨b, rfl⟩ := Galaxy.valid_iff.1 hg
    cases hc : badCut rCut with
    | true => rw [starAlign_bad _ _ hc] at h; cases h
    | false =>
      rw [starAlign_ofBodies b rCut hc] at h
      cases h
      rw [C87_galaxy_repr]
      simp [Galaxy.ofBodies, len_ofBodies, BGalaxy.sSet, BGalaxy.dmSet, BGalaxy.gSet, BGalaxy.mapBodies]

/-- C87: `potential` changes the flag from `False` to `True` and keeps the numbers, so the printed form
always changes. -/
theorem C87_potential_repr {S : Type} [Num S] (env : PotEnv F S) (g g' : Galaxy F) (hg : g.Valid)
    (backend : String) (h : potential env g backend = .ok g') :
    g'.repr = ({ g with hasPotential := true } : Galaxy F).repr ∧ g'.repr ≠ g.repr := by
  obtain ⟨b, rfl⟩ := Galaxy.valid_iff.1 hg
  cases hp : b.hasPot with
  | true => rw [potential_has _ _ _ hp] at h; cases h
  | false =>
    have hp' : (Galaxy.ofBodies b).hasPotential = false := hp
    have ho := C12_potential_outcome env (Galaxy.ofBodies b) hg hp' backend
    have hb : backendOk env backend := by
      by_cases h1 : backend = "numpy"
      · exact Or.inr h1
      · by_cases h2 : backend = "fortran"
        · cases hf : env.fortranBuilt with
          | true => exact Or.inl ⟨h2, hf⟩
          | false => rw [ho.2.2 h2 hf] at h; cases h
        · rw [ho.1 h2 h1] at h; cases h
    rw [potential_ofBodies env b backend hp hb] at h
    cases h
    constructor
    · rw [C87_galaxy_repr]
      simp [Galaxy.ofBodies, len_ofBodies, BGalaxy.sSet, BGalaxy.dmSet, BGalaxy.gSet, BGalaxy.withPot]
    · intro h
      rw [C87_galaxy_repr] at h
      have := h.2.2.2
      rw [hp'] at this
      cases this

/-! ## Particle sets -/

theorem name_comma (t : PType) : ∀ c ∈ t.name.toList, c ≠ ',' := by
  have h : ∀ t ∈ PType.members, ∀ c ∈ t.name.toList, c ≠ ',' := by decide +kernel
  exact h t (by cases t <;> decide)

theorem name_injective {t t' : PType} (h : t.name.toList = t'.name.toList) : t = t' := by
  have hh : ∀ t ∈ PType.members, ∀ t' ∈ PType.members, t.name.toList = t'.name.toList → t = t' := by
    decide +kernel
  exact hh t (by cases t <;> decide) t' (by cases t' <;> decide) h

/-- C87: the printed form of a particle set determines its type, its size, the printed softening and
whether it has potentials, and nothing else.  (`reprF`, the printing of a float, writes no comma.) -/
theorem C87_particle_set_repr (reprF : F → String) (hF : ∀ a, ∀ c ∈ (reprF a).toList, c ≠ ',')
    (p p' : ParticleSet F) :
    p.repr reprF = p'.repr reprF ↔ p.ptype = p'.ptype ∧ p.len = p'.len ∧
      reprF p.softening = reprF p'.softening ∧ p.hasPotential = p'.hasPotential := by
  constructor
  · intro h
    have h := congrArg String.toList h
    unfold ParticleSet.repr at h
    simp only [String.toList_append, strNat_toList, List.append_assoc,
      comma_size, comma_softening, comma_potentials, List.cons_append] at h
    have h := List.append_cancel_left h
    obtain ⟨h1, h⟩ := comma_split (name_comma _) (name_comma _) h
    obtain ⟨h2, h⟩ := number_split (List.append_cancel_left h)
    obtain ⟨h3, h⟩ := comma_split (hF _) (hF _) (List.append_cancel_left h)
    exact ⟨name_injective h1, h2, String.toList_injective h3,
      strBool_injective (List.append_cancel_right (List.append_cancel_left h))⟩
  · rintro ⟨h1, h2, h3, h4⟩
    unfold ParticleSet.repr
    rw [h1, h2, h3, h4]

/-! ## Components -/

theorem labelLe_total (a b : Option Int) : labelLe a b = true ∨ labelLe b a = true := by
  cases a <;> cases b <;> simp [labelLe]
  omega

theorem labelLe_trans (a b c : Option Int) (h : labelLe a b = true) (h' : labelLe b c = true) :
    labelLe a c = true := by
  cases a <;> cases b <;> cases c <;> simp_all [labelLe]
  omega

theorem labelLe_antisymm (a b : Option Int) (h : labelLe a b = true) (h' : labelLe b a = true) :
    a = b := by
  cases a <;> cases b <;> simp_all [labelLe]
  omega

theorem uniqueLabels_mem (l : List (Option Int)) (a : Option Int) : a ∈ uniqueLabels l ↔ a ∈ l := by
  rw [uniqueLabels, (List.perm_insertionSort _ _).mem_iff, List.mem_dedup]

theorem uniqueLabels_eq (l l' : List (Option Int)) :
    uniqueLabels l = uniqueLabels l' ↔ ∀ a, a ∈ l ↔ a ∈ l' := by
  constructor
  · intro h a
    rw [← uniqueLabels_mem l, h, uniqueLabels_mem]
  · intro h
    have : Std.Total (fun a b : Option Int => labelLe a b = true) := ⟨labelLe_total⟩
    have : IsTrans (Option Int) (fun a b : Option Int => labelLe a b = true) := ⟨labelLe_trans⟩
    have : Std.Antisymm (fun a b : Option Int => labelLe a b = true) := ⟨labelLe_antisymm⟩
    have hp : l.dedup.Perm l'.dedup := by
      rw [List.perm_ext_iff_of_nodup (List.nodup_dedup _) (List.nodup_dedup _)]
      intro a; rw [List.mem_dedup, List.mem_dedup]; exact h a
    refine List.Perm.eq_of_pairwise (fun a b _ _ h1 h2 => labelLe_antisymm a b h1 h2)
      (List.pairwise_insertionSort _ _)
      (List.pairwise_insertionSort _ _) ?_
    exact (List.perm_insertionSort _ _).trans (hp.trans (List.perm_insertionSort _ _).symm)

/-- C87: the printed form of components depends on their number, on which labels occur (not how often or
where) and on whether there are probabilities; it determines the first and the last, and the labels as far
as numpy prints them in full (`reprA` is the printing of an array of labels). -/
theorem C87_components_repr (reprA : List (Option Int) → String) (c c' : Components F) :
    (c.repr reprA = c'.repr reprA ↔ c.len = c'.len ∧
      reprA (uniqueLabels c.labels) = reprA (uniqueLabels c'.labels) ∧
      (c.probabilities.isSome = c'.probabilities.isSome)) ∧
    (uniqueLabels c.labels = uniqueLabels c'.labels ↔ ∀ a, a ∈ c.labels ↔ a ∈ c'.labels) := by
  refine ⟨⟨?_, ?_⟩, uniqueLabels_eq _ _⟩
  · intro h
    have h := congrArg String.toList h
    simp only [Components.repr, String.toList_append, strNat_toList, List.append_assoc,
      List.append_cancel_left_eq, comma_labels,
      List.cons_append] at h
    obtain ⟨h1, h⟩ := number_split h
    simp only [List.append_cancel_left_eq] at h
    have hb : c.probabilities.isSome = c'.probabilities.isSome := by
      have hr := congrArg List.reverse h
      cases h1 : c.probabilities.isSome <;> cases h2 : c'.probabilities.isSome <;>
        first
        | rfl
        | (exfalso; rw [h1, h2] at hr
           simp [strBool] at hr)
    rw [hb] at h
    simp only [List.append_cancel_right_eq] at h
    exact ⟨h1, String.toList_injective h, hb⟩
  · rintro ⟨h1, h2, h3⟩
    simp only [Components.repr, h1, h2, h3]

/-- C87: the number printed for the result of `decompose` of a stars-only decomposer is the number of
particles of the galaxy, and NaN is among the printed labels if the galaxy has dark matter or gas. -/
theorem C87_decompose_repr [NumOrd F] (env : CircEnv F) (cbins : F × F) (b : BGalaxy F)
    (attrs : List String)
    (split : List (List F) → List (Cell F) → Py (List Int × Option (Mat F)))
    (hsplit : SplitPerRow split) (c : Components F)
    (h : decompose env cbins ⟨attrs, starsRowsMask, split⟩ (Galaxy.ofBodies b) = .ok c)
    (hal : "normalized_star_Jz" ∉ attrs ∨ ∀ a ∈ b.stars, ¬ Unbound a.energy) :
    c.len = (Galaxy.ofBodies b).len ∧
      (0 < b.dm.length + b.gas.length → none ∈ uniqueLabels c.labels) := by
  obtain ⟨j, -, h1, -, -, h4⟩ := C32_decompose env cbins b attrs split hsplit c h hal
  constructor
  · rw [Components.len, h1, rows_none_length]
    simp [Galaxy.len, Galaxy.ofBodies, len_ofBodies, BGalaxy.sSet, BGalaxy.dmSet, BGalaxy.gSet,
      BGalaxy.all]
    omega
  · intro hpos
    rw [uniqueLabels_mem]
    have hlt : b.stars.length < (b.rows none).length := by
      rw [rows_none_length]; simp [BGalaxy.all]; omega
    have hr := List.getElem?_eq_getElem hlt
    have hty : ((b.rows none)[b.stars.length]).t ≠ .stars := by
      have hm : ∀ l₁ l₂ : List (Row F), ∀ h : l₁.length < (l₁ ++ l₂).length,
          ((l₁ ++ l₂)[l₁.length]'h) ∈ l₂ := by
        intro l₁ l₂ h
        rw [List.getElem_append_right (le_refl _)]
        exact List.getElem_mem _
      have hs : (b.sSet.rows .stars).length = b.stars.length := by simp [BSet.rows, BGalaxy.sSet]
      have := hm (b.sSet.rows .stars) (b.dmSet.rows .darkMatter ++ b.gSet.rows .gas)
        (by rw [← rows_none, hs]; exact hlt)
      simp only [hs, ← rows_none] at this
      rcases List.mem_append.1 this with this | this
      · simp only [BSet.rows, List.mem_map] at this
        obtain ⟨_, _, this⟩ := this
        rw [← this]; exact fun h => PType.noConfusion h
      · simp only [BSet.rows, List.mem_map] at this
        obtain ⟨_, _, this⟩ := this
        rw [← this]; exact fun h => PType.noConfusion h
    exact List.mem_of_getElem? (((h4 _ _ hr).2 fun hs => hty hs.1).1)

/-! ## Examples -/

example : (strNat 0, strNat 7, strNat 10, strNat 4096) = ("0", "7", "10", "4096") := by decide +kernel

example : (Galaxy.ofBodies exPotBG).repr = "Galaxy(stars=2, dark_matter=1, gas=0, potential=True)" := by
  decide +kernel
example : (center (Galaxy.ofBodies exPotBG)).toOption.map Galaxy.repr
    = some "Galaxy(stars=2, dark_matter=1, gas=0, potential=True)" := by decide +kernel
example : (starAlign (Galaxy.ofBodies exPotBG) none).toOption.map Galaxy.repr
    = some "Galaxy(stars=2, dark_matter=1, gas=0, potential=True)" := by decide +kernel
example : (ParticleSet.ofBodies .darkMatter exPotBG.dmSet).repr (fun _ => "0.0")
    = "ParticleSet(DARK_MATTER, size=1, softening=0.0, potentials=True)" := by decide +kernel
example : uniqueLabels [some 1, none, some 0, some 1, none] = [some 0, some 1, none] := by
  decide +kernel

end GChop
