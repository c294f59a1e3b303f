import Verif.Lemmas.PotExact
import Verif.Props.Center
import Verif.Props.Align

/-!
# C12, C18, C19, C21: `utils/_potential.py`
-/

set_option linter.unusedSectionVars false

namespace GChop
open Matrix Pd

/-! ## C12 -/

section guard
variable {F S : Type} [Num F] [Num S]

/-- C12: `center` and `is_centered` need a potential. -/
theorem C12_center_needs_potential (g : Galaxy F) (h : g.hasPotential = false) (rtol atol : F) :
    center g = .error .valueError ∧ isCentered g rtol atol = .error .valueError := by
  simp [center, isCentered, h]

/-- C12: `potential` refuses a galaxy that has one, whatever the backend. -/
theorem C12_potential_once (env : PotEnv F S) (g : Galaxy F) (backend : String)
    (h : g.hasPotential = true) : potential env g backend = .error .valueError :=
  potential_has env g backend h

/-- C12: outcome of `potential` on a galaxy without potential, by backend name. -/
theorem C12_potential_outcome (env : PotEnv F S) (g : Galaxy F) (hg : g.Valid)
    (h : g.hasPotential = false) (backend : String) :
    (backend ≠ "fortran" → backend ≠ "numpy" → potential env g backend = .error .keyError) ∧
    (backend = "numpy" ∨ (backend = "fortran" ∧ env.fortranBuilt = true) →
      ∃ g', potential env g backend = .ok g' ∧ g'.Valid ∧ g'.hasPotential = true) ∧
    (backend = "fortran" → env.fortranBuilt = false →
      potential env g backend = .error .attributeError) := by
  obtain ⟨b, rfl⟩ := Galaxy.valid_iff.1 hg
  refine ⟨fun h1 h2 => potential_keyError env b backend h h1 h2, fun hb => ?_, fun h1 h2 => ?_⟩
  · refine ⟨_, potential_ofBodies env b backend h hb.symm, Galaxy.valid_iff.2 ⟨_, rfl⟩, rfl⟩
  · subst h1; exact potential_noFortran env b h h2

/-- C12: a second call always fails, with whichever backends. -/
theorem C12_potential_twice (env env' : PotEnv F S) (g : Galaxy F) (hg : g.Valid)
    (backend backend' : String) (g' : Galaxy F) (h : potential env g backend = .ok g') :
    potential env' g' backend' = .error .valueError := by
  have hp : g.hasPotential = false := by
    cases hh : g.hasPotential with
    | false => rfl
    | true => rw [potential_has env g backend hh] at h; cases h
  have ho := C12_potential_outcome env g hg hp backend
  have hb : backend = "numpy" ∨ (backend = "fortran" ∧ env.fortranBuilt = true) := by
    by_cases h1 : backend = "numpy"
    · exact Or.inl h1
    · by_cases h2 : backend = "fortran"
      · cases hf : env.fortranBuilt with
        | true => exact Or.inr ⟨h2, rfl⟩
        | false => rw [ho.2.2 h2 hf] at h; cases h
      · rw [ho.1 h2 h1] at h; cases h
  obtain ⟨g'', h1, _, h3⟩ := ho.2.1 hb
  rw [h] at h1; cases h1
  exact potential_has env' g' backend' h3

end guard

section exact
variable {K : Type} [Field K] [LinearOrder K] [IsStrictOrderedRing K] [FloorRing K] [HasSqrt K]

/-- exact arithmetic in place of float32 and float64 -/
def exactEnv (G : K) (junk : Nat → Nat → Ext K) : PotEnv (Ext K) (Ext K) :=
  ⟨id, id, .fin G, true, junk⟩

theorem toB_all (g : KGalaxy K) : g.toB.all = g.all.map KBody.body := by
  simp [KGalaxy.toB, BGalaxy.all, KGalaxy.all]

theorem backendPot_fortran (G : K) (junk : Nat → Nat → Ext K) (l : List (KBody K))
    (softs : List (Ext K)) (i : Fin l.length) :
    backendPot (exactEnv G junk) "fortran" (l.map KBody.body) softs i
      = Num.neg ((∑ j : Fin l.length, if j = i then 0 else
          pairTerm (Num.sq (seriesMax softs)) l[i] l[j]) *. Ext.fin G) := by
  simp only [backendPot, exactEnv, id_eq, List.map_map, Function.comp_def, List.length_map,
    beq_self_eq_true, if_true]
  rw [fortranInner_body]

theorem backendPot_numpy (G : K) (junk : Nat → Nat → Ext K) (l : List (KBody K))
    (softs : List (Ext K)) (i : Fin l.length) :
    backendPot (exactEnv G junk) "numpy" (l.map KBody.body) softs i
      = Num.neg ((∑ j : Fin l.length, if j = i then junk i i
          else if (Num.sqrt (Ext.fin (dist2 l[i] l[j]) +. Num.sq (seriesMax softs)) ==. Ext.fin 0)
            = true then junk i j else pairTerm (Num.sq (seriesMax softs)) l[i] l[j])
          *. Ext.fin G) := by
  have h : ("numpy" == "fortran") = false := by decide
  simp only [backendPot, exactEnv, id_eq, List.map_map, Function.comp_def, List.length_map, h,
    Bool.false_eq_true, if_false]
  rw [numpyRow_body]

/-! ## C18 -/

/-- `e` is the largest softening among the types that have particles, and these are all finite -/
def MaxSoftening (g : KGalaxy K) (e : K) : Prop :=
  let used : List (Ext K) := (if g.stars = [] then [] else [g.softS]) ++
    (if g.dm = [] then [] else [g.softDm]) ++ (if g.gas = [] then [] else [g.softG])
  Ext.fin e ∈ used ∧ ∀ s ∈ used, ∃ k, s = Ext.fin k ∧ k ≤ e

theorem foldl_max (l : List K) (a : K) :
    (l.map Ext.fin).foldl (fun a b => if (a <. b) = true then b else a) (Ext.fin a)
      = Ext.fin (l.foldl max a) := by
  induction l generalizing a with
  | nil => rfl
  | cons b l ih =>
    simp only [List.map_cons, List.foldl_cons, Ext.num_lt, decide_eq_true_eq]
    by_cases h : a < b
    · rw [if_pos h, ih, max_eq_right h.le]
    · rw [if_neg h, ih, max_eq_left (not_lt.1 h)]

theorem foldl_max_le (l : List K) (a e : K) (ha : a ≤ e) (h : ∀ b ∈ l, b ≤ e) :
    l.foldl max a ≤ e := by
  induction l generalizing a with
  | nil => exact ha
  | cons b l ih =>
    exact ih _ (max_le ha (h b List.mem_cons_self)) fun c hc => h c (List.mem_cons_of_mem _ hc)

theorem le_foldl_max (l : List K) (a e : K) (h : e ≤ a ∨ e ∈ l) : e ≤ l.foldl max a := by
  induction l generalizing a with
  | nil => simpa using h
  | cons b l ih =>
    apply ih
    rcases h with h | h
    · exact Or.inl (h.trans (le_max_left _ _))
    · rcases List.mem_cons.1 h with rfl | h
      · exact Or.inl (le_max_right _ _)
      · exact Or.inr h

theorem seriesMax_fin {l : List (Ext K)} {e : K} (h1 : Ext.fin e ∈ l)
    (h2 : ∀ s ∈ l, ∃ k, s = Ext.fin k ∧ k ≤ e) : seriesMax l = Ext.fin e := by
  have hk : ∃ ks : List K, l = ks.map Ext.fin ∧ ∀ k ∈ ks, k ≤ e := by
    clear h1
    induction l with
    | nil => exact ⟨[], rfl, by simp⟩
    | cons s l ih =>
      obtain ⟨ks, e1, e2⟩ := ih fun s hs => h2 s (List.mem_cons_of_mem _ hs)
      obtain ⟨k, e3, e4⟩ := h2 s List.mem_cons_self
      refine ⟨k :: ks, by simp [e1, e3], ?_⟩
      intro c hc
      rcases List.mem_cons.1 hc with rfl | hc
      · exact e4
      · exact e2 c hc
  obtain ⟨ks, rfl, hle⟩ := hk
  have hf : (ks.map Ext.fin).filter (fun a => !Num.isNaN a) = ks.map (Ext.fin : K → Ext K) := by
    apply List.filter_eq_self.2
    intro a ha
    obtain ⟨k, _, rfl⟩ := List.mem_map.1 ha
    rfl
  have hmem : e ∈ ks := by
    obtain ⟨k, hk, e1⟩ := List.mem_map.1 h1
    cases e1; exact hk
  unfold seriesMax
  rw [hf]
  cases ks with
  | nil => cases hmem
  | cons a ks =>
    simp only [List.map_cons]
    rw [foldl_max]
    congr 1
    apply le_antisymm
    · exact foldl_max_le _ _ _ (hle a List.mem_cons_self)
        fun b hb => hle b (List.mem_cons_of_mem _ hb)
    · apply le_foldl_max
      rcases List.mem_cons.1 hmem with rfl | h
      · exact Or.inl le_rfl
      · exact Or.inr h

theorem MaxSoftening.seriesMax_eq {g : KGalaxy K} {e : K} (h : MaxSoftening g e) :
    seriesMax g.toB.softs = Ext.fin e := by
  have hm : ∀ s, s ∈ g.toB.softs ↔ s ∈ (if g.stars = [] then [] else [g.softS]) ++
      (if g.dm = [] then [] else [g.softDm]) ++ (if g.gas = [] then [] else [g.softG]) := by
    intro s
    have aux : ∀ (l : List (KBody K)) (t : Ext K),
        s ∈ (l.map KBody.body).map (fun _ => t) ↔ s ∈ (if l = [] then [] else [t]) := by
      intro l t
      cases l with
      | nil => simp
      | cons a l =>
        simp only [List.map_cons, List.mem_cons, List.mem_map, reduceCtorEq, if_false,
          List.not_mem_nil, or_false]
        constructor
        · rintro (h | ⟨_, _, h⟩)
          · exact h
          · exact h.symm
        · exact Or.inl
    simp only [BGalaxy.softs, KGalaxy.toB, List.mem_append, aux]
  exact seriesMax_fin ((hm _).2 h.1) fun s hs => h.2 s ((hm s).1 hs)

/-- the softened N-body sum for particle `i` -/
def nbody (G e : K) (l : List (KBody K)) (i : Fin l.length) : K :=
  -(G * ∑ j : Fin l.length, if j = i then 0 else
    l[j].m / HasSqrt.ksqrt ((l[i].r - l[j].r) ⬝ᵥ (l[i].r - l[j].r) + e * e))

theorem pairTerm_fin [LawfulSqrt K] {e : K} {a b : KBody K} (h : dist2 a b + e * e ≠ 0) :
    pairTerm (Num.sq (.fin e)) a b = .fin (b.m / HasSqrt.ksqrt (dist2 a b + e * e)) := by
  have h0 : 0 ≤ dist2 a b + e * e := add_nonneg (dist2_nonneg _ _) (mul_self_nonneg e)
  have hpos : 0 < dist2 a b + e * e := lt_of_le_of_ne h0 (Ne.symm h)
  simp only [pairTerm, Ext.num_sq, Ext.num_add]
  rw [Ext.num_sqrt _ h0, Ext.num_div _ _ (ksqrt_pos hpos).ne']

/-- no two different particles coincide without softening -/
def Separated (e : K) (l : List (KBody K)) : Prop :=
  ∀ i j : Fin l.length, i ≠ j → dist2 l[i] l[j] + e * e ≠ 0

/-- the galaxies differ only in that the particles of the second have the potentials `p` -/
def SameWithPotential (g g' : KGalaxy K) (p : Fin g.all.length → Ext K) : Prop :=
  g'.hasPot = true ∧ g'.stars.length = g.stars.length ∧ g'.dm.length = g.dm.length ∧
  g'.gas.length = g.gas.length ∧ g'.softS = g.softS ∧ g'.softDm = g.softDm ∧ g'.softG = g.softG ∧
  ∀ i : Fin g.all.length, g'.all[(i : Nat)]? = some { g.all[i] with pot := p i }

/-- the galaxy with the potentials `p` -/
def KGalaxy.withPot (g : KGalaxy K) (p : Nat → Ext K) : KGalaxy K :=
  { g with
    hasPot := true
    stars := g.stars.mapIdx fun i a => { a with pot := p i }
    dm := g.dm.mapIdx fun i a => { a with pot := p (g.stars.length + i) }
    gas := g.gas.mapIdx fun i a => { a with pot := p (g.stars.length + g.dm.length + i) } }

theorem toB_withPot (g : KGalaxy K) (p : Nat → Ext K) :
    g.toB.withPot p = (g.withPot p).toB := by
  have aux : ∀ (l : List (KBody K)) (q : Nat → Ext K),
      ((l.map KBody.body).mapIdx fun i a => { a with pot := q i })
        = (l.mapIdx fun i a => { a with pot := q i }).map KBody.body := by
    intro l q
    apply List.ext_getElem?
    intro i
    simp only [List.getElem?_mapIdx, List.getElem?_map]
    cases l[i]? <;> rfl
  simp [BGalaxy.withPot, KGalaxy.withPot, KGalaxy.toB, aux]

theorem sameWithPotential_withPot (g : KGalaxy K) (p : Nat → Ext K) :
    SameWithPotential g (g.withPot p) fun i => p i := by
  refine ⟨rfl, by simp [KGalaxy.withPot], by simp [KGalaxy.withPot], by simp [KGalaxy.withPot],
    rfl, rfl, rfl, ?_⟩
  intro i
  have : (g.withPot p).all = g.all.mapIdx fun i a => { a with pot := p i } := by
    simp only [KGalaxy.withPot, KGalaxy.all]
    rw [List.mapIdx_append, List.mapIdx_append]
    simp [Nat.add_comm]
  rw [this, List.getElem?_mapIdx]
  simp

/-- C18: with the fortran backend every particle gets `-G Σ m_j / sqrt(|r_i - r_j|² + ε²)` over all
other particles of all types, and nothing else changes. -/
theorem C18_potential_nbody [LawfulSqrt K] (G e : K) (junk : Nat → Nat → Ext K) (g : KGalaxy K)
    (hp : g.hasPot = false) (he : MaxSoftening g e) (hsep : Separated e g.all) :
    ∃ g' : KGalaxy K,
      potential (exactEnv G junk) (Galaxy.ofBodies g.toB) "fortran"
        = .ok (Galaxy.ofBodies g'.toB) ∧
      SameWithPotential g g' fun i => .fin (nbody G e g.all i) := by
  have h1 := potential_ofBodies (exactEnv G junk) g.toB "fortran" hp (Or.inl ⟨rfl, rfl⟩)
  rw [toB_withPot] at h1
  refine ⟨_, h1, ?_⟩
  have h2 := sameWithPotential_withPot g
    (backendPot (exactEnv G junk) "fortran" g.toB.all g.toB.softs)
  have h3 : (fun i : Fin g.all.length =>
      backendPot (exactEnv G junk) "fortran" g.toB.all g.toB.softs i)
      = fun i => .fin (nbody G e g.all i) := by
    funext i
    rw [toB_all, backendPot_fortran, he.seriesMax_eq]
    have : (∑ j : Fin g.all.length, if j = i then 0 else
        pairTerm (Num.sq (.fin e)) g.all[i] g.all[j])
        = ∑ j : Fin g.all.length, Ext.fin (if j = i then 0 else
          g.all[j].m / HasSqrt.ksqrt (dist2 g.all[i] g.all[j] + e * e)) := by
      apply Finset.sum_congr rfl
      intro j _
      by_cases hji : j = i
      · simp [hji]; rfl
      · simp only [hji, if_false]
        exact pairTerm_fin (hsep i j (Ne.symm hji))
    rw [this, fin_sum]
    simp only [Ext.num_mul, Ext.num_neg, nbody, dist2]
    rw [mul_comm G]
  rw [h3] at h2
  exact h2

/-! ## C19 -/

/-- C19 is false: with the numpy backend the potential of every particle contains what the
uninitialised buffer held on the diagonal. -/
theorem C19_numpy_reads_memory [LawfulSqrt K] (G e : K) (junk : Nat → Nat → K) (g : KGalaxy K)
    (hp : g.hasPot = false) (he : MaxSoftening g e) (hsep : Separated e g.all) :
    ∃ g' : KGalaxy K,
      potential (exactEnv G fun i j => .fin (junk i j)) (Galaxy.ofBodies g.toB) "numpy"
        = .ok (Galaxy.ofBodies g'.toB) ∧
      SameWithPotential g g' fun i => .fin (nbody G e g.all i - G * junk i i) := by
  have h1 := potential_ofBodies (exactEnv G fun i j => .fin (junk i j)) g.toB "numpy" hp
    (Or.inr rfl)
  rw [toB_withPot] at h1
  refine ⟨_, h1, ?_⟩
  have h2 := sameWithPotential_withPot g
    (backendPot (exactEnv G fun i j => .fin (junk i j)) "numpy" g.toB.all g.toB.softs)
  have h3 : (fun i : Fin g.all.length =>
      backendPot (exactEnv G fun i j => .fin (junk i j)) "numpy" g.toB.all g.toB.softs i)
      = fun i => .fin (nbody G e g.all i - G * junk i i) := by
    funext i
    rw [toB_all, backendPot_numpy, he.seriesMax_eq]
    have : (∑ j : Fin g.all.length, if j = i then Ext.fin (junk i i)
          else if (Num.sqrt (Ext.fin (dist2 g.all[i] g.all[j]) +. Num.sq (.fin e)) ==. Ext.fin 0)
            = true then Ext.fin (junk i j) else pairTerm (Num.sq (.fin e)) g.all[i] g.all[j])
        = ∑ j : Fin g.all.length, Ext.fin ((if j = i then 0 else
          g.all[j].m / HasSqrt.ksqrt (dist2 g.all[i] g.all[j] + e * e))
            + if j = i then junk i i else 0) := by
      apply Finset.sum_congr rfl
      intro j _
      by_cases hji : j = i
      · simp [hji]
      · have hs := hsep i j (Ne.symm hji)
        have h0 : 0 ≤ dist2 g.all[i] g.all[j] + e * e :=
          add_nonneg (dist2_nonneg _ _) (mul_self_nonneg e)
        have hpos := ksqrt_pos (lt_of_le_of_ne h0 (Ne.symm hs))
        have hsq : (Num.sqrt (Ext.fin (dist2 g.all[i] g.all[j]) +. Num.sq (.fin e))
            ==. Ext.fin (0 : K)) = false := by
          simp only [Ext.num_sq, Ext.num_add]
          rw [Ext.num_sqrt _ h0, Ext.num_eq]
          exact decide_eq_false hpos.ne'
        simp only [hji, if_false, hsq, Bool.false_eq_true, add_zero]
        exact pairTerm_fin hs
    rw [this, fin_sum, Finset.sum_add_distrib]
    simp only [Finset.sum_ite_eq', Finset.mem_univ, if_true, Ext.num_mul, Ext.num_neg, nbody, dist2]
    congr 1; ring
  rw [h3] at h2
  exact h2

theorem SameWithPotential.pot_unique {g g' : KGalaxy K} {p q : Fin g.all.length → Ext K}
    (hp : SameWithPotential g g' p) (hq : SameWithPotential g g' q) : p = q := by
  funext i
  have h1 := hp.2.2.2.2.2.2.2 i
  have h2 := hq.2.2.2.2.2.2.2 i
  rw [h1] at h2
  have := Option.some.inj h2
  injection this

theorem toB_injective {g g' : KGalaxy K} (h : g.toB = g'.toB) : g = g' := by
  have hb : ∀ a b : KBody K, a.body = b.body → a = b := by
    intro a b hab
    rcases a with ⟨m, r, v, p⟩
    rcases b with ⟨m', r', v', p'⟩
    simp only [KBody.body, Body.mk.injEq, Ext.fin.injEq] at hab
    obtain ⟨h1, h2, h3, h4, h5, h6, h7, h8⟩ := hab
    have hr : r = r' := by ext i; fin_cases i <;> assumption
    have hv : v = v' := by ext i; fin_cases i <;> assumption
    subst h1 hr hv h8; rfl
  have hl : ∀ l l' : List (KBody K), l.map KBody.body = l'.map KBody.body → l = l' :=
    fun l l' e => List.map_injective_iff.2 (fun a b => hb a b) e
  rcases g with ⟨a, b, c, d, e, f, i⟩
  rcases g' with ⟨a', b', c', d', e', f', i'⟩
  simp only [KGalaxy.toB, BGalaxy.mk.injEq] at h
  obtain ⟨h1, h2, h3, h4, h5, h6, h7⟩ := h
  rw [hl _ _ h1, hl _ _ h2, hl _ _ h3, h4, h5, h6, h7]

theorem ofBodies_all_pot {b b' : BGalaxy (Ext K)} (h : Galaxy.ofBodies b = Galaxy.ofBodies b')
    (hp : b.hasPot = true) : b.all.map (·.pot) = b'.all.map (·.pot) := by
  have hp' : b'.hasPot = true := by
    have := congrArg Galaxy.hasPotential h
    simpa [Galaxy.ofBodies, hp] using this.symm
  have h1 := congrArg (fun g => (g.stars.potential, g.darkMatter.potential, g.gas.potential)) h
  simp [Galaxy.ofBodies, ParticleSet.ofBodies, BGalaxy.sSet, BGalaxy.dmSet, BGalaxy.gSet, hp,
    hp'] at h1
  simp [BGalaxy.all, h1]

/-- C19 is false for every non-degenerate galaxy with at least one particle: two runs of the numpy
backend that find different memory return different galaxies, so it is not a function of the galaxy
and cannot always equal the fortran backend. -/
theorem C19_numpy_not_a_function [LawfulSqrt K] (G e : K) (hG : G ≠ 0) (g : KGalaxy K)
    (hp : g.hasPot = false) (he : MaxSoftening g e) (hsep : Separated e g.all) :
    potential (exactEnv G fun _ _ => .fin 0) (Galaxy.ofBodies g.toB) "numpy"
      ≠ potential (exactEnv G fun _ _ => .fin 1) (Galaxy.ofBodies g.toB) "numpy" := by
  obtain ⟨g1, h1, s1⟩ := C19_numpy_reads_memory G e (fun _ _ => 0) g hp he hsep
  obtain ⟨g2, h2, s2⟩ := C19_numpy_reads_memory G e (fun _ _ => 1) g hp he hsep
  rw [h1, h2]
  intro h
  injection h with h
  have hpots := ofBodies_all_pot h s1.1
  rw [toB_all, toB_all, List.map_map, List.map_map] at hpots
  have hne : g.all ≠ [] := by
    intro h0
    have : g.stars = [] ∧ g.dm = [] ∧ g.gas = [] := by
      simpa [KGalaxy.all] using h0
    have := he.1
    simp_all
  have hlen : 0 < g.all.length := List.length_pos_of_ne_nil hne
  have e1 := s1.2.2.2.2.2.2.2 ⟨0, hlen⟩
  have e2 := s2.2.2.2.2.2.2.2 ⟨0, hlen⟩
  have := congrArg (·[0]?) hpots
  simp only [List.getElem?_map, e1, e2, Option.map_some, Function.comp_apply] at this
  have := Option.some.inj this
  simp only [KBody.body, Ext.fin.injEq] at this
  have : G * 1 = 0 := by linear_combination this
  exact hG (by simpa using this)

/-- C19, second cause: two coincident particles without softening.  The fortran backend divides by
zero (`-inf`), the numpy backend skips the pair, even when the memory is zero. -/
theorem C19_backends_differ_on_coincident :
    ∃ g : KGalaxy ℚ, g.hasPot = false ∧
      potential (exactEnv (1 : ℚ) fun _ _ => q 0) (Galaxy.ofBodies g.toB) "numpy"
        ≠ potential (exactEnv (1 : ℚ) fun _ _ => q 0) (Galaxy.ofBodies g.toB) "fortran" := by
  refine ⟨⟨[⟨1, ![0, 0, 0], ![0, 0, 0], .nan⟩, ⟨1, ![0, 0, 0], ![0, 0, 0], .nan⟩], [], [], false,
    q 0, q 0, q 0⟩, rfl, ?_⟩
  intro h
  have h1 := congrArg (fun r : Py (Galaxy (Ext ℚ)) =>
    (match r with
      | .ok g => g.stars.potential
      | .error _ => none)) h
  revert h1
  decide +kernel

/-- C19, the part that holds: if the memory is zero on the diagonal and no two particles coincide
without softening, the backends agree (exact arithmetic).  Missing: any guarantee without these
assumptions, which the code does not give. -/
theorem C19_backends_agree_partial [LawfulSqrt K] (G e : K) (junk : Nat → Nat → K)
    (hj : ∀ i, junk i i = 0) (g : KGalaxy K)
    (hp : g.hasPot = false) (he : MaxSoftening g e) (hsep : Separated e g.all) :
    potential (exactEnv G fun i j => .fin (junk i j)) (Galaxy.ofBodies g.toB) "numpy"
      = potential (exactEnv G fun i j => .fin (junk i j)) (Galaxy.ofBodies g.toB) "fortran" := by
  have hsame : ∀ g1 g2 : KGalaxy K, ∀ p : Fin g.all.length → Ext K, SameWithPotential g g1 p →
      SameWithPotential g g2 p → g1 = g2 := by
    intro g1 g2 p h1 h2
    obtain ⟨a1, a2, a3, a4, a5, a6, a7, a8⟩ := h1
    obtain ⟨b1, b2, b3, b4, b5, b6, b7, b8⟩ := h2
    have hall : g1.all = g2.all := by
      apply List.ext_getElem?
      intro i
      by_cases hi : i < g.all.length
      · rw [a8 ⟨i, hi⟩, b8 ⟨i, hi⟩]
      · have l1 : g1.all.length = g.all.length := by simp [KGalaxy.all, a2, a3, a4]
        have l2 : g2.all.length = g.all.length := by simp [KGalaxy.all, b2, b3, b4]
        rw [List.getElem?_eq_none (by omega), List.getElem?_eq_none (by omega)]
    simp only [KGalaxy.all] at hall
    have hs := List.append_inj hall (by simp [a2, a3, b2, b3])
    have hs' := List.append_inj hs.1 (by rw [a2, b2])
    rcases g1 with ⟨_, _, _, _, _, _, _⟩
    rcases g2 with ⟨_, _, _, _, _, _, _⟩
    simp_all
  obtain ⟨g1, h1, s1⟩ := C19_numpy_reads_memory G e junk g hp he hsep
  obtain ⟨g2, h2, s2⟩ := C18_potential_nbody G e (fun i j => .fin (junk i j)) g hp he hsep
  rw [h1, h2]
  have : (fun i : Fin g.all.length => (Ext.fin (nbody G e g.all i - G * junk i i) : Ext K))
      = fun i => .fin (nbody G e g.all i) := by
    funext i; rw [hj]; simp
  rw [this] at s1
  rw [hsame g1 g2 _ s1 s2]

/-! ## C21 -/

theorem withPot_congr {F : Type} [Num F] (b : BGalaxy F) {p p' : Nat → F} (n : Nat)
    (hn : n = b.all.length) (h : ∀ i, i < n → p i = p' i) : b.withPot p = b.withPot p' := by
  subst hn
  have hlen : b.all.length = b.stars.length + b.dm.length + b.gas.length := by
    simp [BGalaxy.all, Nat.add_assoc]
  have aux : ∀ (l : List (Body F)) (k : Nat), k + l.length ≤ b.all.length →
      (l.mapIdx fun i a => { a with pot := p (k + i) })
        = l.mapIdx fun i a => { a with pot := p' (k + i) } := by
    intro l k hk
    apply List.ext_getElem?
    intro i
    simp only [List.getElem?_mapIdx]
    by_cases hi : i < l.length
    · rw [List.getElem?_eq_getElem hi]
      simp [h (k + i) (by omega)]
    · rw [List.getElem?_eq_none (by omega)]; rfl
  simp only [BGalaxy.withPot]
  have h0 := aux b.stars 0 (by omega)
  simp only [Nat.zero_add] at h0
  rw [h0, aux b.dm b.stars.length (by omega), aux b.gas (b.stars.length + b.dm.length) (by omega)]

/-- C21: a map of the particles that keeps masses and mutual distances changes no potential, with
either backend and whatever the memory holds; singular pairs included. -/
theorem C21_isometry (G : K) (junk : Nat → Nat → Ext K) (g : KGalaxy K) (hp : g.hasPot = false)
    (f : KBody K → KBody K) (hm : ∀ a, (f a).m = a.m)
    (hd : ∀ a b, ((f a).r - (f b).r) ⬝ᵥ ((f a).r - (f b).r) = (a.r - b.r) ⬝ᵥ (a.r - b.r))
    (backend : String) (hb : backend = "fortran" ∨ backend = "numpy") :
    ∃ p : Nat → Ext K,
      potential (exactEnv G junk) (Galaxy.ofBodies g.toB) backend
        = .ok (Galaxy.ofBodies (g.toB.withPot p)) ∧
      potential (exactEnv G junk) (Galaxy.ofBodies (g.map f).toB) backend
        = .ok (Galaxy.ofBodies ((g.map f).toB.withPot p)) := by
  have hok : backendOk (exactEnv G junk) backend := hb.imp_left fun h => ⟨h, rfl⟩
  refine ⟨_, potential_ofBodies _ g.toB backend hp hok, ?_⟩
  rw [potential_ofBodies _ (g.map f).toB backend hp hok]
  have hall : (g.map f).all = g.all.map f := by simp [KGalaxy.map, KGalaxy.all]
  have hsoft : (g.map f).toB.softs = g.toB.softs := by
    simp [BGalaxy.softs, KGalaxy.toB, KGalaxy.map, Function.comp_def]
  have hd' : ∀ a b, dist2 (f a) (f b) = dist2 a b := hd
  have hpt : ∀ s a b, pairTerm s (f a) (f b) = pairTerm s a b := by
    intro s a b; simp only [pairTerm, hm, hd']
  congr 2
  apply withPot_congr _ g.all.length (by rw [toB_all, hall]; simp)
  intro i hi
  rw [toB_all, toB_all, hsoft, hall]
  have key : ∀ (l l' : List (KBody K)) (_ : l' = l.map f) (i : Nat) (hi : i < l.length),
      backendPot (exactEnv G junk) backend (l'.map KBody.body) g.toB.softs i
        = backendPot (exactEnv G junk) backend (l.map KBody.body) g.toB.softs i := by
    intro l l' hl i hi
    have hlen : l'.length = l.length := by rw [hl]; simp
    have hget : ∀ j (h : j < l.length) (h' : j < l'.length), l'[j] = f l[j] := by
      intro j h h'; subst hl; simp
    rcases hb with rfl | rfl
    · have e1 := backendPot_fortran G junk l' g.toB.softs ⟨i, by omega⟩
      have e2 := backendPot_fortran G junk l g.toB.softs ⟨i, hi⟩
      simp only at e1 e2
      rw [e1, e2]
      congr 2
      rw [← Equiv.sum_comp (finCongr hlen.symm)]
      apply Finset.sum_congr rfl
      intro j _
      have : (finCongr hlen.symm j = ⟨i, by omega⟩) ↔ j = ⟨i, hi⟩ := by
        simp [Fin.ext_iff]
      simp only [this]
      congr 1
      simp only [Fin.getElem_fin, finCongr_apply, Fin.val_cast]
      rw [hget _ hi, hget _ j.2, hpt]
    · have e1 := backendPot_numpy G junk l' g.toB.softs ⟨i, by omega⟩
      have e2 := backendPot_numpy G junk l g.toB.softs ⟨i, hi⟩
      simp only at e1 e2
      rw [e1, e2]
      congr 2
      rw [← Equiv.sum_comp (finCongr hlen.symm)]
      apply Finset.sum_congr rfl
      intro j _
      have : (finCongr hlen.symm j = ⟨i, by omega⟩) ↔ j = ⟨i, hi⟩ := by
        simp [Fin.ext_iff]
      simp only [this]
      congr 1
      simp only [Fin.getElem_fin, finCongr_apply, Fin.val_cast]
      rw [hget _ hi, hget _ j.2, hpt, hd']
  exact key g.all _ rfl i hi

/-- C21: translations. -/
theorem C21_translation (G : K) (junk : Nat → Nat → Ext K) (g : KGalaxy K) (hp : g.hasPot = false)
    (t : Fin 3 → K) (backend : String) (hb : backend = "fortran" ∨ backend = "numpy") :
    ∃ p : Nat → Ext K,
      potential (exactEnv G junk) (Galaxy.ofBodies g.toB) backend
        = .ok (Galaxy.ofBodies (g.toB.withPot p)) ∧
      potential (exactEnv G junk) (Galaxy.ofBodies (g.map fun a => { a with r := a.r + t }).toB)
        backend
        = .ok (Galaxy.ofBodies ((g.map fun a => { a with r := a.r + t }).toB.withPot p)) :=
  C21_isometry G junk g hp (fun a => { a with r := a.r + t }) (fun _ => rfl)
    (fun a b => by simp only [add_sub_add_right_eq_sub]) backend hb

/-- C21: orthogonal matrices (rotations and mirrors), applied to positions and velocities. -/
theorem C21_orthogonal (G : K) (junk : Nat → Nat → Ext K) (g : KGalaxy K) (hp : g.hasPot = false)
    (A : Matrix (Fin 3) (Fin 3) K) (hA : A ∈ orthogonalGroup (Fin 3) K) (backend : String)
    (hb : backend = "fortran" ∨ backend = "numpy") :
    ∃ p : Nat → Ext K,
      potential (exactEnv G junk) (Galaxy.ofBodies g.toB) backend
        = .ok (Galaxy.ofBodies (g.toB.withPot p)) ∧
      potential (exactEnv G junk) (Galaxy.ofBodies (g.rotate A).toB) backend
        = .ok (Galaxy.ofBodies ((g.rotate A).toB.withPot p)) := by
  refine C21_isometry G junk g hp (KBody.rotate A) (fun _ => rfl) (fun a b => ?_) backend hb
  have h3 : Aᵀ * A = 1 := (mem_orthogonalGroup_iff' (Fin 3) K).1 hA
  have : (a.rotate A).r - (b.rotate A).r = A *ᵥ (a.r - b.r) := by
    simp [KBody.rotate, Matrix.mulVec_sub]
  rw [this, Matrix.dotProduct_mulVec, ← Matrix.mulVec_transpose, Matrix.mulVec_mulVec, h3,
    Matrix.one_mulVec]

theorem pos_mul_add {s : K} (hs : 0 < s) (a b : Ext K) :
    (Ext.fin s *. (a + b)) = (Ext.fin s *. a) + (Ext.fin s *. b) := by
  have hp : (Ext.fin s *. (Ext.pinf : Ext K)) = Ext.pinf := by
    show Ext.signInf s = _
    simp [Ext.signInf, hs]
  have hn : (Ext.fin s *. (Ext.ninf : Ext K)) = Ext.ninf := by
    show Ext.neg (Ext.signInf s) = _
    simp [Ext.signInf, hs, Ext.neg]
  have hnan : (Ext.fin s *. (Ext.nan : Ext K)) = Ext.nan := rfl
  cases a <;> cases b <;>
    first
    | (show Ext.fin _ = Ext.fin _; rw [mul_add])
    | (simp only [hp, hn, hnan, Ext.num_mul]; first | rfl | exact hp | exact hn)

theorem pos_mul_sum {ι : Type} {s : K} (hs : 0 < s) (t : Finset ι) (f : ι → Ext K) :
    (Ext.fin s *. ∑ i ∈ t, f i) = ∑ i ∈ t, (Ext.fin s *. f i) := by
  classical
  induction t using Finset.induction_on with
  | empty =>
    rw [Finset.sum_empty, Finset.sum_empty]
    show Ext.fin (s * 0) = Ext.fin 0
    rw [mul_zero]
  | insert a t ha ih => rw [Finset.sum_insert ha, Finset.sum_insert ha, pos_mul_add hs, ih]

theorem pos_mul_div {s : K} (hs : 0 < s) (m : K) (d : Ext K) :
    (Ext.fin (s * m) /. d) = (Ext.fin s *. (Ext.fin m /. d)) := by
  cases d with
  | nan => rfl
  | pinf => show Ext.fin 0 = Ext.fin (s * 0); rw [mul_zero]
  | ninf => show Ext.fin 0 = Ext.fin (s * 0); rw [mul_zero]
  | fin d =>
    by_cases hd : d = 0
    · subst hd
      rw [Ext.num_div_zero, Ext.num_div_zero]
      rcases lt_trichotomy m 0 with h | h | h
      · have : s * m < 0 := mul_neg_of_pos_of_neg hs h
        simp only [Ext.signInf, not_lt.2 this.le, this, h, not_lt.2 h.le, if_true, if_false]
        show _ = Ext.neg (Ext.signInf s)
        simp [Ext.signInf, hs, Ext.neg]
      · subst h; simp [Ext.signInf]; rfl
      · have : 0 < s * m := mul_pos hs h
        simp only [Ext.signInf, this, h, if_true]
        show _ = Ext.signInf s
        simp [Ext.signInf, hs]
    · rw [Ext.num_div _ _ hd, Ext.num_div _ _ hd, Ext.num_mul, mul_div_assoc]

theorem pos_mul_comm3 {s : K} (hs : 0 < s) (a : Ext K) (G : K) :
    Num.neg ((Ext.fin s *. a) *. Ext.fin G) = (Ext.fin s *. Num.neg (a *. Ext.fin G)) := by
  have h1 : ∀ x : Ext K, (Ext.fin s *. Num.neg x) = Num.neg (Ext.fin s *. x) := by
    intro x
    cases x with
    | nan => rfl
    | fin x => show Ext.fin _ = Ext.fin _; rw [mul_neg]
    | pinf => show Ext.neg (Ext.signInf s) = Ext.neg (Ext.signInf s); rfl
    | ninf =>
      show Ext.signInf s = Ext.neg (Ext.neg (Ext.signInf s))
      cases Ext.signInf s <;> simp [Ext.neg]
  rw [h1]
  congr 1
  have hp : (Ext.fin s *. (Ext.pinf : Ext K)) = Ext.pinf := by
    show Ext.signInf s = _
    simp [Ext.signInf, hs]
  have hn : (Ext.fin s *. (Ext.ninf : Ext K)) = Ext.ninf := by
    show Ext.neg (Ext.signInf s) = _
    simp [Ext.signInf, hs, Ext.neg]
  cases a with
  | nan => rfl
  | fin x => simp [mul_assoc]
  | pinf =>
    rw [hp]
    show Ext.signInf G = (Ext.fin s *. Ext.signInf G)
    unfold Ext.signInf
    split
    · exact hp.symm
    · split
      · exact hn.symm
      · rfl
  | ninf =>
    rw [hn]
    show Ext.neg (Ext.signInf G) = (Ext.fin s *. Ext.neg (Ext.signInf G))
    unfold Ext.signInf
    split
    · exact hn.symm
    · split
      · exact hp.symm
      · rfl

/-- C21: multiplying all masses by `s > 0` multiplies all potentials by `s`. -/
theorem C21_mass_scale (G : K) (junk : Nat → Nat → Ext K) (g : KGalaxy K) (hp : g.hasPot = false)
    (s : K) (hs : 0 < s) :
    ∃ p : Nat → Ext K,
      potential (exactEnv G junk) (Galaxy.ofBodies g.toB) "fortran"
        = .ok (Galaxy.ofBodies (g.toB.withPot p)) ∧
      potential (exactEnv G junk) (Galaxy.ofBodies (g.map fun a => { a with m := s * a.m }).toB)
        "fortran"
        = .ok (Galaxy.ofBodies ((g.map fun a => { a with m := s * a.m }).toB.withPot
            fun i => Ext.fin s *. p i)) := by
  set f : KBody K → KBody K := fun a => { a with m := s * a.m } with hf
  have hok : backendOk (exactEnv G junk) "fortran" := Or.inl ⟨rfl, rfl⟩
  refine ⟨_, potential_ofBodies _ g.toB "fortran" hp hok, ?_⟩
  rw [potential_ofBodies _ (g.map f).toB "fortran" hp hok]
  have hall : (g.map f).all = g.all.map f := by simp [KGalaxy.map, KGalaxy.all]
  have hsoft : (g.map f).toB.softs = g.toB.softs := by
    simp [BGalaxy.softs, KGalaxy.toB, KGalaxy.map, Function.comp_def]
  have hpt : ∀ t a b, pairTerm t (f a) (f b) = (Ext.fin s *. pairTerm t a b) := by
    intro t a b; exact pos_mul_div hs _ _
  congr 2
  apply withPot_congr _ g.all.length (by rw [toB_all, hall]; simp)
  intro i hi
  rw [toB_all, toB_all, hsoft, hall]
  have key : ∀ (l l' : List (KBody K)) (_ : l' = l.map f) (i : Nat) (hi : i < l.length),
      backendPot (exactEnv G junk) "fortran" (l'.map KBody.body) g.toB.softs i
        = (Ext.fin s *. backendPot (exactEnv G junk) "fortran" (l.map KBody.body) g.toB.softs i) := by
    intro l l' hl i hi
    have hlen : l'.length = l.length := by rw [hl]; simp
    have hget : ∀ j (h : j < l.length) (h' : j < l'.length), l'[j] = f l[j] := by
      intro j h h'; subst hl; simp
    have e1 := backendPot_fortran G junk l' g.toB.softs ⟨i, by omega⟩
    have e2 := backendPot_fortran G junk l g.toB.softs ⟨i, hi⟩
    simp only at e1 e2
    rw [e1, e2, ← pos_mul_comm3 hs, pos_mul_sum hs]
    congr 2
    rw [← Equiv.sum_comp (finCongr hlen.symm)]
    apply Finset.sum_congr rfl
    intro j _
    have : (finCongr hlen.symm j = ⟨i, by omega⟩) ↔ j = ⟨i, hi⟩ := by
      simp [Fin.ext_iff]
    simp only [this]
    by_cases hj : j = ⟨i, hi⟩
    · simp only [hj, if_true]
      show Ext.fin 0 = Ext.fin (s * 0)
      rw [mul_zero]
    · simp only [hj, if_false, Fin.getElem_fin, finCongr_apply, Fin.val_cast]
      rw [hget _ hi, hget _ j.2, hpt]
  exact key g.all _ rfl i hi

/-- C21: renumbering the particles inside each type renumbers the potentials: if particle `i` of
`g'` is particle `σ i` of `g`, its potential in `g'` is that of `σ i` in `g`. -/
theorem C21_permutation (G : K) (junk : Nat → Nat → Ext K) (g g' : KGalaxy K)
    (hp : g.hasPot = false) (hp' : g'.hasPot = false)
    (hs : g'.stars.length = g.stars.length) (hdm : g'.dm.length = g.dm.length)
    (hg : g'.gas.length = g.gas.length)
    (hsoft : g'.softS = g.softS ∧ g'.softDm = g.softDm ∧ g'.softG = g.softG)
    (σ : Equiv.Perm (Fin g.all.length))
    (hσ : ∀ i : Fin g.all.length, g'.all[(i : Nat)]? = some g.all[σ i]) :
    ∃ p p' : Nat → Ext K,
      potential (exactEnv G junk) (Galaxy.ofBodies g.toB) "fortran"
        = .ok (Galaxy.ofBodies (g.toB.withPot p)) ∧
      potential (exactEnv G junk) (Galaxy.ofBodies g'.toB) "fortran"
        = .ok (Galaxy.ofBodies (g'.toB.withPot p')) ∧
      ∀ i : Fin g.all.length, p' i = p (σ i) := by
  have hok : backendOk (exactEnv G junk) "fortran" := Or.inl ⟨rfl, rfl⟩
  refine ⟨_, _, potential_ofBodies _ g.toB "fortran" hp hok,
    potential_ofBodies _ g'.toB "fortran" hp' hok, ?_⟩
  intro i
  have hlen : g'.all.length = g.all.length := by simp [KGalaxy.all, hs, hdm, hg]
  have hsf : g'.toB.softs = g.toB.softs := by
    simp only [BGalaxy.softs, KGalaxy.toB, hsoft.1, hsoft.2.1, hsoft.2.2, List.map_const',
      List.length_map, hs, hdm, hg]
  rw [toB_all, toB_all, hsf]
  have e1 := backendPot_fortran G junk g'.all g.toB.softs ⟨i, by omega⟩
  have e2 := backendPot_fortran G junk g.all g.toB.softs (σ i)
  simp only at e1
  rw [e1, e2]
  congr 2
  have hget : ∀ j : Fin g.all.length, ∀ h : (j : Nat) < g'.all.length, g'.all[(j : Nat)] = g.all[σ j] := by
    intro j h
    have := hσ j
    rw [List.getElem?_eq_getElem h] at this
    exact Option.some.inj this
  rw [← Equiv.sum_comp (finCongr hlen.symm), ← Equiv.sum_comp σ (fun j =>
    if j = σ i then 0 else pairTerm (Num.sq (seriesMax g.toB.softs)) g.all[σ i] g.all[j])]
  apply Finset.sum_congr rfl
  intro j _
  have : (finCongr hlen.symm j = ⟨i, by omega⟩) ↔ j = i := by
    simp [Fin.ext_iff]
  simp only [this, σ.injective.eq_iff]
  congr 1
  simp only [Fin.getElem_fin, finCongr_apply, Fin.val_cast]
  rw [hget i, hget j]
  rfl

/-- not negative: NaN or at least zero -/
def Ext.NotNeg (a : Ext K) : Prop := a = .nan ∨ (Ext.fin 0 <=. a) = true

theorem notNeg_sum {ι : Type} (t : Finset ι) (f : ι → Ext K) (h : ∀ i ∈ t, (f i).NotNeg) :
    (∑ i ∈ t, f i).NotNeg := by
  classical
  have hadd : ∀ a b : Ext K, a.NotNeg → b.NotNeg → (a + b).NotNeg := by
    intro a b ha hb
    rcases ha with rfl | ha
    · exact Or.inl (by rw [← ext_add]; cases b <;> rfl)
    · rcases hb with rfl | hb
      · exact Or.inl (by rw [← ext_add]; cases a <;> rfl)
      · right
        cases a <;> cases b <;> first | exact ha | exact hb | skip
        · rw [← ext_add]
          simp only [Ext.num_le, decide_eq_true_eq, Ext.num_add] at *
          exact add_nonneg ha hb
  induction t using Finset.induction_on with
  | empty =>
    right
    rw [Finset.sum_empty, ← ext_zero]
    simp
  | insert a t ha ih =>
    rw [Finset.sum_insert ha]
    exact hadd _ _ (h a (Finset.mem_insert_self _ _))
      (ih fun i hi => h i (Finset.mem_insert_of_mem hi))

/-- C21: with non-negative masses no computed potential is positive. -/
theorem C21_not_positive [LawfulSqrt K] (G : K) (hG : 0 ≤ G) (junk : Nat → Nat → Ext K)
    (g : KGalaxy K) (hp : g.hasPot = false) (hm : ∀ a ∈ g.all, 0 ≤ a.m) :
    ∃ b : BGalaxy (Ext K),
      potential (exactEnv G junk) (Galaxy.ofBodies g.toB) "fortran" = .ok (Galaxy.ofBodies b) ∧
      b.all.length = g.all.length ∧ ∀ a ∈ b.all, (Ext.fin 0 <. a.pot) = false := by
  have hok : backendOk (exactEnv G junk) "fortran" := Or.inl ⟨rfl, rfl⟩
  refine ⟨_, potential_ofBodies _ g.toB "fortran" hp hok, ?_, ?_⟩
  · rw [withPot_all_length, toB_all]; simp
  intro a ha
  rw [withPot_all] at ha
  obtain ⟨i, hi, rfl⟩ := List.mem_mapIdx.1 ha
  rw [toB_all, List.length_map] at hi
  simp only
  rw [toB_all]
  have e1 := backendPot_fortran G junk g.all g.toB.softs ⟨i, hi⟩
  simp only at e1
  rw [e1]
  have hterm : ∀ (t : Ext K) (x y : KBody K), 0 ≤ y.m → (pairTerm t x y).NotNeg := by
    intro t x y hy
    unfold pairTerm
    have hsq : ∀ u : Ext K, (Num.sqrt u).NotNeg := by
      intro u
      cases u with
      | nan => exact Or.inl rfl
      | pinf => exact Or.inr rfl
      | ninf => exact Or.inl rfl
      | fin u =>
        by_cases hu : u < 0
        · left; show (if u < 0 then _ else _) = _; simp [hu]
        · right
          rw [Ext.num_sqrt _ (not_lt.1 hu), Ext.num_le, decide_eq_true_eq]
          exact LawfulSqrt.sqrt_nonneg u
    rcases hsq (Ext.fin (dist2 x y) +. t) with h | h
    · rw [h]; exact Or.inl rfl
    · cases hd : (Num.sqrt (Ext.fin (dist2 x y) +. t) : Ext K) with
      | nan => exact Or.inl rfl
      | pinf => right; show (Ext.fin 0 <=. Ext.fin 0) = true; simp
      | ninf => rw [hd] at h; cases h
      | fin d =>
        rw [hd, Ext.num_le, decide_eq_true_eq] at h
        by_cases hd0 : d = 0
        · rw [hd0, Ext.num_div_zero]
          unfold Ext.signInf
          split
          · exact Or.inr rfl
          · split
            · exact absurd hy (not_le.2 ‹_›)
            · exact Or.inl rfl
        · right
          rw [Ext.num_div _ _ hd0, Ext.num_le, decide_eq_true_eq]
          exact div_nonneg hy h
  have hsum := notNeg_sum Finset.univ (fun j : Fin g.all.length => if j = ⟨i, hi⟩ then 0 else
      pairTerm (Num.sq (seriesMax g.toB.softs)) g.all[i] g.all[j]) (by
    intro j _
    by_cases hj : j = ⟨i, hi⟩
    · simp only [hj, if_true]
      right; rw [← ext_zero]; simp
    · simp only [hj, if_false]
      exact hterm _ _ _ (hm _ (List.getElem_mem _)))
  simp only [Fin.getElem_fin] at hsum ⊢
  generalize (∑ j : Fin g.all.length, if j = ⟨i, hi⟩ then 0 else
    pairTerm (Num.sq (seriesMax g.toB.softs)) g.all[i] g.all[(j : Nat)]) = u at hsum ⊢
  rcases hsum with rfl | h
  · rfl
  · cases u with
    | nan => rfl
    | ninf => cases h
    | pinf =>
      show (Ext.fin 0 <. Ext.neg (Ext.signInf G)) = false
      unfold Ext.signInf
      split
      · rfl
      · split
        · exact absurd hG (not_le.2 ‹_›)
        · rfl
    | fin u =>
      simp only [Ext.num_le, decide_eq_true_eq] at h
      simp only [Ext.num_mul, Ext.num_neg, Ext.num_lt, decide_eq_false_iff_not, not_lt]
      have := mul_nonneg h hG
      linarith

end exact

/-! ### non-vacuity -/

/-- two stars and a gas particle, no potential -/
def exNoPot : KGalaxy ℚ :=
  { stars := [⟨1, ![0, 0, 0], ![0, 0, 0], .nan⟩, ⟨2, ![2, 0, 0], ![0, 0, 0], .nan⟩], dm := [],
    gas := [⟨3, ![0, 4, 0], ![0, 0, 0], .nan⟩], hasPot := false,
    softS := q 0, softDm := q 7, softG := q 0 }

-- the dark matter softening is not used: there is no dark matter
example : MaxSoftening exNoPot 0 := by
  simp [MaxSoftening, exNoPot]
example : Separated 0 exNoPot.all := by unfold Separated; decide +kernel
example : (match potential (exactEnv (1 : ℚ) fun _ _ => q 0) (Galaxy.ofBodies exNoPot.toB) "fortran"
    with
    | .ok g => ((g.stars.potential.getD []).head?, g.darkMatter.potential)
    | .error _ => (none, none)) = (some (q (-7/4)), some []) := by decide +kernel
-- what the numpy backend returns when the memory holds 100
example : (match potential (exactEnv (1 : ℚ) fun _ _ => q 100) (Galaxy.ofBodies exNoPot.toB) "numpy"
    with
    | .ok g => ((g.stars.potential.getD []).head?, g.darkMatter.potential)
    | .error _ => (none, none)) = (some (q (-407/4)), some []) := by decide +kernel

end GChop
