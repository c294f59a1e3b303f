import Verif.Props.Reversal
import Verif.Props.Relevance

/-!
# C70: the order of the particles

The circularity of a star does not depend on where the star, or any other particle, stands in the
arrays, and not on how the unstable sort orders equal elements, provided particles with the same
normalised `|Jz|` have the same normalised energy and the most bound particles have the same `|Jz|`.
With ties the order matters.
-/

set_option linter.unusedSectionVars false

namespace GChop
open Pd

variable {F : Type} [Num F]

/-- `pick` looks at pairs (energy, `|Jz|`) only -/
theorem pick_congr {α : Type} {e j : α → F} {s t : List α}
    (h : (s.map fun a => (e a, Num.abs (j a))) = t.map fun a => (e a, Num.abs (j a))) :
    pick e j s = pick e j t := by
  match s, t with
  | [], [] => rfl
  | [a], [c] => simpa [pick] using h
  | a :: a' :: _, c :: c' :: _ =>
    simp only [List.map_cons, List.cons.injEq, Prod.mk.injEq] at h
    obtain ⟨⟨h1, h2⟩, ⟨h3, h4⟩, _⟩ := h
    simp only [pick, h1, h2, h3, h4]
  | [], _ :: _ => simp at h
  | _ :: _, [] => simp at h
  | [_], _ :: _ :: _ => simp at h
  | _ :: _ :: _, [_] => simp at h

section
variable [NumNeg F]

theorem abs_antisymm {a b : F} (h1 : (Num.abs a <=. Num.abs b) = true)
    (h2 : (Num.abs b <=. Num.abs a) = true) : Num.abs a = Num.abs b := by
  have : (Num.abs a ==. Num.abs b) = true := by rw [NumOrd.eq_def, h1, h2]; rfl
  have := NumNeg.abs_congr this
  rwa [NumNeg.abs_abs, NumNeg.abs_abs] at this

/-- The profile does not depend on the order of the particles nor on the sort. -/
theorem profile_perm {α : Type} {env₁ env₂ : CircEnv F} (hs₁ : Np.ArgsortOK env₁.argsort)
    (hs₂ : Np.ArgsortOK env₂.argsort) {l₁ l₂ : List α} (hp : l₁.Perm l₂) (e j : α → F)
    (hj : ∀ a ∈ l₁, Num.isNaN (Num.abs (j a)) = false)
    (he : ∀ a ∈ l₁, Num.isNaN (e a) = false)
    (ht : ∀ a ∈ l₁, ∀ c ∈ l₁, Num.abs (j a) = Num.abs (j c) → e a = e c)
    (hm : ∀ a ∈ l₁, ∀ c ∈ l₁, (∀ d ∈ l₁, (e a <=. e d) = true) → (∀ d ∈ l₁, (e c <=. e d) = true) →
      Num.abs (j a) = Num.abs (j c))
    (aux : List F) (hl : l₁ ≠ []) (ha : aux ≠ []) :
    profile env₁ aux (l₁.map e) (l₁.map j) = profile env₂ aux (l₂.map e) (l₂.map j) := by
  have hl₂ : l₂ ≠ [] := by
    intro h; apply hl; rw [h] at hp; exact hp.eq_nil
  have hmem : ∀ a, a ∈ l₂ ↔ a ∈ l₁ := fun a => (hp.mem_iff (a := a)).symm
  obtain ⟨top, htop⟩ : ∃ top, aux.getLast? = some top := by
    cases h : aux.getLast? with
    | none => exact absurd (List.getLast?_eq_none_iff.1 h) ha
    | some t => exact ⟨t, rfl⟩
  have hbin : ∀ lo hi, binPoint env₁ (l₁.map e) (l₁.map j) lo hi
      = binPoint env₂ (l₂.map e) (l₂.map j) lo hi := by
    intro lo hi
    obtain ⟨t₁, p₁, o₁, q₁⟩ := binPoint_map hs₁ l₁ e j lo hi
    obtain ⟨t₂, p₂, o₂, q₂⟩ := binPoint_map hs₂ l₂ e j lo hi
    rw [q₁, q₂]
    apply pick_congr
    have pt : t₁.Perm t₂ := p₁.trans ((hp.filter _).trans p₂.symm)
    have m₁ : ∀ a ∈ t₁, a ∈ l₁ := fun a h => List.mem_of_mem_filter (p₁.mem_iff.1 h)
    have m₂ : ∀ a ∈ t₂, a ∈ l₁ := fun a h => m₁ a (pt.mem_iff.2 h)
    have pw : ∀ t : List α, (∀ a ∈ t, a ∈ l₁) →
        t.Pairwise (fun a c => (Num.abs (j c) <=. Num.abs (j a)) = true ∨
          Num.isNaN (Num.abs (j a)) = true) →
        (t.map fun a => (e a, Num.abs (j a))).Pairwise fun p q => (q.2 <=. p.2) = true := by
      intro t hmt ho
      rw [List.pairwise_map]
      refine ho.imp_of_mem ?_
      intro a c hx _ h
      rcases h with h | h
      · exact h
      · rw [hj a (hmt a hx)] at h; cases h
    refine (pt.map _).eq_of_pairwise ?_ (pw t₁ m₁ o₁) (pw t₂ m₂ o₂)
    intro p q hp' hq' h1 h2
    obtain ⟨a, hxa, rfl⟩ := List.mem_map.1 hp'
    obtain ⟨c, hxc, rfl⟩ := List.mem_map.1 hq'
    have hac := abs_antisymm h2 h1
    rw [Prod.mk.injEq]
    exact ⟨ht a (m₁ a hxa) c (m₂ c hxc) hac, hac⟩
  have hinner : innerPoints env₁ (l₁.map e) (l₁.map j) aux
      = innerPoints env₂ (l₂.map e) (l₂.map j) aux := by
    clear htop ha
    induction aux with
    | nil => rfl
    | cons lo rest ih =>
      cases rest with
      | nil => rfl
      | cons hi rest => simp only [innerPoints]; rw [hbin, ih]
  have hmin : ∀ (l : List α) (hml : ∀ a, a ∈ l ↔ a ∈ l₁) (i : Nat) (a : α),
      Np.argmin (l.map e) = .ok i → l[i]? = some a →
      a ∈ l₁ ∧ ∀ d ∈ l₁, (e a <=. e d) = true := by
    intro l hml i a hi hia
    have hin := (hml a).1 (List.mem_of_getElem? hia)
    refine ⟨hin, ?_⟩
    obtain ⟨i', x, h1, h2, h3⟩ := argmin_spec (l := l.map e) (by
      intro x hx
      obtain ⟨c, hc, rfl⟩ := List.mem_map.1 hx
      exact he c ((hml c).1 hc)) (by
      intro h; rw [List.map_eq_nil_iff] at h; subst h; simp at hia)
    rw [hi] at h1
    injection h1 with h1
    subst h1
    rw [List.getElem?_map, hia] at h2
    injection h2 with h2
    intro d hd
    obtain ⟨k, hk⟩ := List.getElem?_of_mem ((hml d).2 hd)
    have := (h3 k (e d) (by rw [List.getElem?_map, hk]; rfl)).1
    rwa [← h2] at this
  obtain ⟨a₁, i₁, hi₁, hg₁, h₁⟩ := profile_eq (env := env₁) l₁ e j aux top hl htop
  obtain ⟨a₂, i₂, hi₂, hg₂, h₂⟩ := profile_eq (env := env₂) l₂ e j aux top hl₂ htop
  obtain ⟨ma₁, mm₁⟩ := hmin l₁ (fun _ => Iff.rfl) i₁ a₁ hi₁ hg₁
  obtain ⟨ma₂, mm₂⟩ := hmin l₂ hmem i₂ a₂ hi₂ hg₂
  have hfirst := hm a₁ ma₁ a₂ ma₂ mm₁ mm₂
  rw [← hinner, ← hfirst] at h₂
  rcases h₁ with ⟨c₁, hc₁, hu₁, hx₁, r₁⟩ | ⟨hn₁, r₁⟩
  · rcases h₂ with ⟨c₂, hc₂, hu₂, hx₂, r₂⟩ | ⟨hn₂, _⟩
    · have hc₂' := (hmem c₂).1 hc₂
      have hxx₁ := hx₁ hj
      have hxx₂ := hx₂ fun c hc => hj c ((hmem c).1 hc)
      have hjj := abs_antisymm (hxx₂ c₁ ((hmem c₁).2 hc₁) hu₁) (hxx₁ c₂ hc₂' hu₂)
      rw [r₁, r₂, hjj, ht c₁ hc₁ c₂ hc₂' hjj]
    · rw [hn₂ c₁ ((hmem c₁).2 hc₁)] at hu₁; cases hu₁
  · rcases h₂ with ⟨c₂, hc₂, hu₂, _⟩ | ⟨_, r₂⟩
    · rw [hn₁ c₂ ((hmem c₂).1 hc₂)] at hu₂; cases hu₂
    · rw [r₁, r₂]

/-- The normalised energies and `Jz` of the bound particles, and ties between them: no NaN, equal
`|Jz|` only with equal energies, and one `|Jz|` at the bottom of the potential. -/
structure NoTies (l : List (Body F)) (eMin jzMax : F) : Prop where
  jz : ∀ a ∈ l, Num.isNaN (Num.abs (a.jz /. jzMax)) = false
  e : ∀ a ∈ l, Num.isNaN (a.energy /. Num.abs eMin) = false
  ties : ∀ a ∈ l, ∀ c ∈ l, Num.abs (a.jz /. jzMax) = Num.abs (c.jz /. jzMax) →
    (a.energy /. Num.abs eMin) = (c.energy /. Num.abs eMin)
  bottom : ∀ a ∈ l, ∀ c ∈ l,
    (∀ d ∈ l, ((a.energy /. Num.abs eMin) <=. (d.energy /. Num.abs eMin)) = true) →
    (∀ d ∈ l, ((c.energy /. Num.abs eMin) <=. (d.energy /. Num.abs eMin)) = true) →
    Num.abs (a.jz /. jzMax) = Num.abs (c.jz /. jzMax)

theorem amax_perm {α : Type} {l₁ l₂ : List α} (hp : l₁.Perm l₂) (f : α → F)
    (hn : ∀ a ∈ l₁, Num.isNaN (Num.abs (f a)) = false) {m₁ m₂ : F}
    (h₁ : Np.amax (l₁.map fun a => Num.abs (f a)) = .ok m₁)
    (h₂ : Np.amax (l₂.map fun a => Num.abs (f a)) = .ok m₂) : m₁ = m₂ := by
  obtain ⟨p1, q1⟩ := amax_spec (by
    intro x hx; obtain ⟨a, ha, rfl⟩ := List.mem_map.1 hx; exact hn a ha) h₁
  obtain ⟨p2, q2⟩ := amax_spec (by
    intro x hx; obtain ⟨a, ha, rfl⟩ := List.mem_map.1 hx; exact hn a (hp.mem_iff.2 ha)) h₂
  obtain ⟨a, ha, rfl⟩ := List.mem_map.1 p1
  obtain ⟨c, hc, rfl⟩ := List.mem_map.1 p2
  exact abs_antisymm (q2 _ (List.mem_map.2 ⟨a, hp.mem_iff.1 ha, rfl⟩))
    (q1 _ (List.mem_map.2 ⟨c, hp.mem_iff.2 hc, rfl⟩))

theorem amin_perm {α : Type} {l₁ l₂ : List α} (hp : l₁.Perm l₂) (f : α → F)
    (hn : ∀ a ∈ l₁, Num.isNaN (f a) = false) {m₁ m₂ : F}
    (h₁ : Np.amin (l₁.map f) = .ok m₁) (h₂ : Np.amin (l₂.map f) = .ok m₂) :
    Num.abs m₁ = Num.abs m₂ := by
  obtain ⟨p1, q1⟩ := amin_spec (by
    intro x hx; obtain ⟨a, ha, rfl⟩ := List.mem_map.1 hx; exact hn a ha) h₁
  obtain ⟨p2, q2⟩ := amin_spec (by
    intro x hx; obtain ⟨a, ha, rfl⟩ := List.mem_map.1 hx; exact hn a (hp.mem_iff.2 ha)) h₂
  obtain ⟨a, ha, rfl⟩ := List.mem_map.1 p1
  obtain ⟨c, hc, rfl⟩ := List.mem_map.1 p2
  apply NumNeg.abs_congr
  rw [NumOrd.eq_def, q1 _ (List.mem_map.2 ⟨c, hp.mem_iff.2 hc, rfl⟩),
    q2 _ (List.mem_map.2 ⟨a, hp.mem_iff.1 ha, rfl⟩)]
  rfl

theorem circNorm_perm {env₁ env₂ : CircEnv F} (hs₁ : Np.ArgsortOK env₁.argsort)
    (hs₂ : Np.ArgsortOK env₂.argsort) {b₁ b₂ : BGalaxy F} (hp : b₁.bound.Perm b₂.bound)
    {bin0 bin1 : F} {n₁ : CircNorm F} (hn₁ : circNorm env₁ b₁ bin0 bin1 = .ok n₁)
    (hz : ∀ a ∈ b₁.bound, Num.isNaN (Num.abs a.jz) = false ∧ Num.isNaN (Num.abs a.jr) = false)
    (ht : NoTies b₁.bound n₁.eMin n₁.jzMax) :
    ∃ n₂, circNorm env₂ b₂ bin0 bin1 = .ok n₂ ∧ Num.abs n₂.eMin = Num.abs n₁.eMin ∧
      n₂.jzMax = n₁.jzMax ∧ n₂.jrMax = n₁.jrMax ∧ n₂.pts = n₁.pts := by
  obtain ⟨hb, h1, h2, h3, aux, h4, h5, h6⟩ := circNorm_inv hn₁
  have hb₂ : b₂.bound ≠ [] := by
    intro h; apply hb; rw [h] at hp; exact hp.eq_nil
  obtain ⟨n₂, k0, k1, k2, k3, k6⟩ := circNorm_ok env₂ b₂ hb₂ h4 h5
  have e1 := amin_perm hp Body.energy (by
    intro a ha
    have := (mem_bound.1 ha).2
    cases hn : Num.isNaN a.energy with
    | false => rfl
    | true => exact absurd (Or.inr (Or.inr hn)) this) h1 k1
  have e2 := amax_perm hp Body.jz (fun a ha => (hz a ha).1) h2 k2
  have e3 := amax_perm hp Body.jr (fun a ha => (hz a ha).2) h3 k3
  refine ⟨n₂, k0, e1.symm, e2.symm, e3.symm, ?_⟩
  have he : n₂.e = n₁.e := by
    funext a; unfold CircNorm.e; rw [e1]
  have hj : n₂.jz = n₁.jz := by
    funext a; unfold CircNorm.jz; rw [e2]
  rw [he, hj] at k6
  have := profile_perm hs₁ hs₂ hp n₁.e n₁.jz ht.jz ht.e ht.ties ht.bottom aux hb h5
  rw [h6, k6] at this
  injection this with this
  exact this.symm

/-- C70: two galaxies with the same particles in any order, and possibly other types, have the same
circular-orbit table, and a star that is in both has the same energy and circularities, wherever it
stands; the two calls may sort equal elements in different ways. -/
theorem C70_order (env₁ env₂ : CircEnv F) (hs₁ : Np.ArgsortOK env₁.argsort)
    (hs₂ : Np.ArgsortOK env₂.argsort) (hloc : env₁.locate = env₂.locate) (b₁ b₂ : BGalaxy F)
    (hpot : b₁.hasPot = b₂.hasPot) (hp : b₁.all.Perm b₂.all) (bin0 bin1 : F) (j₁ : JCirc F)
    (hj₁ : jcirc env₁ (Galaxy.ofBodies b₁) bin0 bin1 = .ok j₁) (hf : BoundFirst b₂.stars)
    (hz : ∀ a ∈ b₁.bound, Num.isNaN (Num.abs a.jz) = false ∧ Num.isNaN (Num.abs a.jr) = false)
    (ht : ∀ eMin jzMax, IsMinOf b₁.bound Body.energy eMin →
      IsMaxOf b₁.bound (fun a => Num.abs a.jz) jzMax → NoTies b₁.bound eMin jzMax) :
    ∃ j₂, jcirc env₂ (Galaxy.ofBodies b₂) bin0 bin1 = .ok j₂ ∧ j₂.x = j₁.x ∧ j₂.y = j₁.y ∧
      ∀ (i k : Nat) (a : Body F), b₁.stars[i]? = some a → b₂.stars[k]? = some a →
        j₂.eps[k]? = j₁.eps[i]? ∧ j₂.epsR[k]? = j₁.epsR[i]? ∧
        j₂.normalizedStarEnergy[k]? = j₁.normalizedStarEnergy[i]? := by
  obtain ⟨hpt, _, n₁, hn₁, rfl⟩ := jcirc_inv hj₁
  obtain ⟨_, h1, h2, h3, _⟩ := circNorm_inv hn₁
  have hb : b₁.bound.Perm b₂.bound := hp.filter _
  obtain ⟨n₂, k0, k1, k2, k3, k4⟩ := circNorm_perm hs₁ hs₂ hb hn₁ hz
    (ht _ _ (isMinOf_amin h1) (isMaxOf_amax h2))
  refine ⟨circResult env₂ n₂ b₂.stars, ?_, by simp [circResult, k4], by simp [circResult, k4], ?_⟩
  · rw [jcirc_ofBodies env₂ b₂ (hpot ▸ hpt), k0]
    simp [(trueFirst_iff b₂.stars).2 hf]
    rfl
  · intro i k a hi hk
    have he : n₂.e a = n₁.e a := by unfold CircNorm.e; rw [k1]
    have hc : n₂.eps env₂ a = n₁.eps env₁ a := by
      unfold CircNorm.eps CircNorm.jc CircNorm.jz; rw [he, k2, k4, hloc]
    have hr : n₂.epsR env₂ a = n₁.epsR env₁ a := by
      unfold CircNorm.epsR CircNorm.jc; rw [he, k3, k4, hloc]
    simp [circResult, hi, hk, he, hc, hr]

/-- C70: and the same label from `JThreshold`. -/
theorem C70_labels (env₁ env₂ : CircEnv F) (hs₁ : Np.ArgsortOK env₁.argsort)
    (hs₂ : Np.ArgsortOK env₂.argsort) (hloc : env₁.locate = env₂.locate) (b₁ b₂ : BGalaxy F)
    (hpot : b₁.hasPot = b₂.hasPot) (hp : b₁.all.Perm b₂.all) (cbins : F × F)
    (junk₁ junk₂ : Nat → Int) (cut : F) (hcut : Num.isNaN cut = false) (c₁ : Components F)
    (hc₁ : decompose env₁ cbins (jThreshold junk₁ cut) (Galaxy.ofBodies b₁) = .ok c₁)
    (hf : BoundFirst b₂.stars)
    (hz : ∀ a ∈ b₁.bound, Num.isNaN (Num.abs a.jz) = false ∧ Num.isNaN (Num.abs a.jr) = false)
    (ht : ∀ eMin jzMax, IsMinOf b₁.bound Body.energy eMin →
      IsMaxOf b₁.bound (fun a => Num.abs a.jz) jzMax → NoTies b₁.bound eMin jzMax) :
    ∃ c₂, decompose env₂ cbins (jThreshold junk₂ cut) (Galaxy.ofBodies b₂) = .ok c₂ ∧
      ∀ (i k : Nat) (a : Body F), b₁.stars[i]? = some a → b₂.stars[k]? = some a →
        c₂.labels[k]? = c₁.labels[i]? := by
  cases hj₁ : jcirc env₁ (Galaxy.ofBodies b₁) cbins.1 cbins.2 with
  | error e => rw [C35_decompose_error env₁ cbins b₁ junk₁ cut e hj₁] at hc₁; cases hc₁
  | ok j₁ =>
    rw [C35_decompose env₁ cbins b₁ junk₁ cut hcut j₁ hj₁] at hc₁
    injection hc₁ with hc₁
    subst hc₁
    obtain ⟨j₂, hj₂, _, _, h⟩ := C70_order env₁ env₂ hs₁ hs₂ hloc b₁ b₂ hpot hp _ _ j₁ hj₁ hf hz ht
    refine ⟨_, C35_decompose env₂ cbins b₂ junk₂ cut hcut j₂ hj₂, ?_⟩
    intro i k a hi hk
    have he := (h i k a hi hk).1
    have hlen : ∀ (env : CircEnv F) (b : BGalaxy F) (j : JCirc F),
        jcirc env (Galaxy.ofBodies b) cbins.1 cbins.2 = .ok j → j.eps.length = b.stars.length := by
      intro env b j hj
      obtain ⟨_, _, n, _, rfl⟩ := jcirc_inv hj
      simp [circResult]
    have hi' := (List.getElem?_eq_some_iff.1 hi).1
    have hk' := (List.getElem?_eq_some_iff.1 hk).1
    simp only [epsLabels]
    rw [List.getElem?_append_left (by simpa [hlen env₂ b₂ j₂ hj₂] using hk'),
      List.getElem?_append_left (by simpa [hlen env₁ b₁ j₁ hj₁] using hi'),
      List.getElem?_map, List.getElem?_map, he]

end

/-! ## exact arithmetic -/

section
variable {K : Type} [Field K] [LinearOrder K] [IsStrictOrderedRing K] [FloorRing K] [HasSqrt K]

theorem bound_energy_fin {b : BGalaxy (Ext K)} {a : Body (Ext K)} (h : a ∈ b.bound) :
    ∃ x, a.energy = .fin x ∧ x ≤ 0 := by
  have h := (List.mem_filter.1 h).2
  revert h
  cases he : a.energy with
  | fin x =>
    intro h
    refine ⟨x, rfl, ?_⟩
    unfold isBound at h
    simp only [Ext.num_ofRat, Rat.cast_zero, Ext.num_le, Bool.and_eq_true, decide_eq_true_eq] at h
    exact h.1
  | pinf => intro h; simp [isBound, Num.le, Ext.le] at h
  | ninf => intro h; simp [isBound, Num.eq, Num.le, Ext.le, Ext.eq] at h
  | nan => intro h; simp [isBound, Num.le, Ext.le] at h

/-- Without ties in the exact numbers there are none after normalisation. -/
theorem noTies_exact (b : BGalaxy (Ext K))
    (hz : ∀ a ∈ b.bound, Num.isFinite a.jz = true)
    (hneg : ∃ a ∈ b.bound, (a.energy <. Num.ofRat 0) = true)
    (hrot : ∃ a ∈ b.bound, (a.jz ==. Num.ofRat 0) = false)
    (ht : ∀ a ∈ b.bound, ∀ c ∈ b.bound, Num.abs a.jz = Num.abs c.jz → a.energy = c.energy)
    (hm : ∀ a ∈ b.bound, ∀ c ∈ b.bound, (∀ d ∈ b.bound, (a.energy <=. d.energy) = true) →
      (∀ d ∈ b.bound, (c.energy <=. d.energy) = true) → Num.abs a.jz = Num.abs c.jz)
    (eMin jzMax : Ext K) (he : IsMinOf b.bound Body.energy eMin)
    (hj : IsMaxOf b.bound (fun a => Num.abs a.jz) jzMax) : NoTies b.bound eMin jzMax := by
  have hz' : ∀ a ∈ b.bound, ∃ x : K, a.jz = .fin x := fun a ha => Ext.isFinite_iff.1 (hz a ha)
  obtain ⟨⟨a0, ha0, rfl⟩, hmin⟩ := he (by
    intro a ha; obtain ⟨x, hx, _⟩ := bound_energy_fin ha; rw [hx]; rfl)
  obtain ⟨⟨a1, ha1, rfl⟩, hmax⟩ := hj (by
    intro a ha; obtain ⟨x, hx⟩ := hz' a ha; show Num.isNaN (Num.abs a.jz) = false; rw [hx]; rfl)
  obtain ⟨m, hm0, _⟩ := bound_energy_fin ha0
  obtain ⟨M, hM⟩ := hz' a1 ha1
  have hmneg : m < 0 := by
    obtain ⟨a, ha, h⟩ := hneg
    have h2 := hmin a ha
    obtain ⟨x, hx, _⟩ := bound_energy_fin ha
    rw [hx] at h h2
    rw [hm0] at h2
    simp only [Ext.num_ofRat, Rat.cast_zero, Ext.num_lt, Ext.num_le, decide_eq_true_eq] at h h2
    exact lt_of_le_of_lt h2 h
  have hMpos : 0 < |M| := by
    obtain ⟨a, ha, h⟩ := hrot
    have h2 : (Num.abs a.jz <=. Num.abs a1.jz) = true := hmax a ha
    obtain ⟨x, hx⟩ := hz' a ha
    rw [hx] at h h2
    rw [hM] at h2
    simp only [Ext.num_ofRat, Rat.cast_zero, Ext.num_eq, Ext.num_abs, Ext.num_le,
      decide_eq_true_eq, decide_eq_false_iff_not] at h h2
    exact lt_of_lt_of_le (abs_pos.2 h) h2
  have hmpos : 0 < |m| := abs_pos.2 hmneg.ne
  have hje : ∀ x : K, (.fin x /. Num.abs a1.jz : Ext K) = .fin (x / |M|) := by
    intro x; rw [hM, Ext.num_abs, Ext.num_div _ _ hMpos.ne']
  have hee : ∀ x : K, (.fin x /. Num.abs a0.energy : Ext K) = .fin (x / |m|) := by
    intro x; rw [hm0, Ext.num_abs, Ext.num_div _ _ hmpos.ne']
  have hle : ∀ a ∈ b.bound, ∀ d ∈ b.bound,
      ((a.energy /. Num.abs a0.energy) <=. (d.energy /. Num.abs a0.energy)) = (a.energy <=. d.energy) := by
    intro a ha d hd
    obtain ⟨x, hx, _⟩ := bound_energy_fin ha
    obtain ⟨y, hy, _⟩ := bound_energy_fin hd
    rw [hx, hy, hee, hee, Ext.num_le, Ext.num_le, decide_eq_decide]
    exact div_le_div_iff_of_pos_right hmpos
  have habs : ∀ a ∈ b.bound, ∀ c ∈ b.bound,
      (Num.abs (a.jz /. Num.abs a1.jz) = Num.abs (c.jz /. Num.abs a1.jz)
        ↔ Num.abs a.jz = Num.abs c.jz) := by
    intro a ha c hc
    obtain ⟨x, hx⟩ := hz' a ha
    obtain ⟨y, hy⟩ := hz' c hc
    rw [hx, hy, hje, hje, Ext.num_abs, Ext.num_abs, Ext.num_abs, Ext.num_abs, Ext.fin.injEq,
      Ext.fin.injEq, abs_div, abs_div, div_left_inj' (by rw [abs_abs]; exact hMpos.ne')]
  refine ⟨?_, ?_, ?_, ?_⟩
  · intro a ha
    obtain ⟨x, hx⟩ := hz' a ha
    rw [hx, hje]; rfl
  · intro a ha
    obtain ⟨x, hx, _⟩ := bound_energy_fin ha
    rw [hx, hee]; rfl
  · intro a ha c hc h
    rw [ht a ha c hc ((habs a ha c hc).1 h)]
  · intro a ha c hc h1 h2
    rw [habs a ha c hc]
    exact hm a ha c hc (fun d hd => by rw [← hle a ha d hd]; exact h1 d hd)
      (fun d hd => by rw [← hle c hc d hd]; exact h2 d hd)

/-- C70 in exact arithmetic: it is enough that bound particles with the same `|Jz|` have the same
energy and that the most bound ones have the same `|Jz|`. -/
theorem C70_exact (env₁ env₂ : CircEnv (Ext K)) (hs₁ : Np.ArgsortOK env₁.argsort)
    (hs₂ : Np.ArgsortOK env₂.argsort) (hloc : env₁.locate = env₂.locate) (b₁ b₂ : BGalaxy (Ext K))
    (hpot : b₁.hasPot = b₂.hasPot) (hp : b₁.all.Perm b₂.all) (bin0 bin1 : Ext K)
    (j₁ : JCirc (Ext K)) (hj₁ : jcirc env₁ (Galaxy.ofBodies b₁) bin0 bin1 = .ok j₁)
    (hf : BoundFirst b₂.stars)
    (hz : ∀ a ∈ b₁.bound, Num.isFinite a.jz = true ∧ Num.isFinite a.jr = true)
    (hneg : ∃ a ∈ b₁.bound, (a.energy <. Num.ofRat 0) = true)
    (hrot : ∃ a ∈ b₁.bound, (a.jz ==. Num.ofRat 0) = false)
    (ht : ∀ a ∈ b₁.bound, ∀ c ∈ b₁.bound, Num.abs a.jz = Num.abs c.jz → a.energy = c.energy)
    (hm : ∀ a ∈ b₁.bound, ∀ c ∈ b₁.bound, (∀ d ∈ b₁.bound, (a.energy <=. d.energy) = true) →
      (∀ d ∈ b₁.bound, (c.energy <=. d.energy) = true) → Num.abs a.jz = Num.abs c.jz) :
    ∃ j₂, jcirc env₂ (Galaxy.ofBodies b₂) bin0 bin1 = .ok j₂ ∧ j₂.x = j₁.x ∧ j₂.y = j₁.y ∧
      ∀ (i k : Nat) (a : Body (Ext K)), b₁.stars[i]? = some a → b₂.stars[k]? = some a →
        j₂.eps[k]? = j₁.eps[i]? ∧ j₂.epsR[k]? = j₁.epsR[i]? ∧
        j₂.normalizedStarEnergy[k]? = j₁.normalizedStarEnergy[i]? := by
  refine C70_order env₁ env₂ hs₁ hs₂ hloc b₁ b₂ hpot hp bin0 bin1 j₁ hj₁ hf ?_
    (noTies_exact b₁ (fun a ha => (hz a ha).1) hneg hrot ht hm)
  intro a ha
  obtain ⟨x, hx⟩ := Ext.isFinite_iff.1 (hz a ha).1
  obtain ⟨y, hy⟩ := Ext.isFinite_iff.1 (hz a ha).2
  rw [hx, hy]
  exact ⟨rfl, rfl⟩

end

/-! ## Examples -/

/-- two dark matter particles with the same `Jz` in the same energy bin -/
def exTied : BGalaxy (Ext ℚ) :=
  { exLost with
    stars := [orbit (-1) 1, orbit (-29/100) 2]
    dm := [orbit (-48/100) 2, orbit (-46/100) 2, orbit (-27/100) 3, orbit (-27/100) (301/100), orbit (-1/1000) 4] }

/-- C70 (the condition is needed): exchanging two dark matter particles with the same `Jz` in the
same energy bin changes the table and the circularity of a star. -/
theorem C70_ties_matter :
    (jcirc exEnv (Galaxy.ofBodies exTied) (defaultCbin (F := Ext ℚ)).1 defaultCbin.2).toOption.map
      (fun j => (j.x, j.eps))
      = some ([q (-1), q (-23/50), q (-27/100), q (-1/1000)], [q 1, q (3800/5517)]) ∧
    (jcirc exEnv (Galaxy.ofBodies { exTied with
        dm := [orbit (-46/100) 2, orbit (-48/100) 2, orbit (-27/100) 3, orbit (-27/100) (301/100), orbit (-1/1000) 4] })
      (defaultCbin (F := Ext ℚ)).1 defaultCbin.2).toOption.map
      (fun j => (j.x, j.eps))
      = some ([q (-1), q (-12/25), q (-27/100), q (-1/1000)], [q 1, q (4200/6119)]) := by
  constructor <;> decide +kernel

/-- non-vacuity: a galaxy without ties and a rearrangement of it that also moves a particle from the
dark matter to the gas -/
def exLoose : BGalaxy (Ext ℚ) :=
  { exLost with
    stars := [orbit (-1) 1, orbit (-7/10) (3/2)]
    dm := [orbit (-48/100) 2, orbit (-46/100) 3, orbit (-1/1000) 4] }

def exLoose' : BGalaxy (Ext ℚ) :=
  { exLost with
    stars := [orbit (-7/10) (3/2), orbit (-1) 1]
    dm := [orbit (-1/1000) 4, orbit (-48/100) 2]
    gas := [orbit (-46/100) 3] }

example : ∃ j₁ j₂, jcirc exEnv (Galaxy.ofBodies exLoose) (defaultCbin (F := Ext ℚ)).1
      defaultCbin.2 = .ok j₁ ∧ jcirc exEnv (Galaxy.ofBodies exLoose') (defaultCbin (F := Ext ℚ)).1
      defaultCbin.2 = .ok j₂ ∧ j₂.x = j₁.x ∧ j₂.eps[1]? = j₁.eps[0]? ∧ j₂.eps[0]? = j₁.eps[1]? := by
  obtain ⟨j₁, hj₁⟩ : ∃ j₁, jcirc exEnv (Galaxy.ofBodies exLoose) (defaultCbin (F := Ext ℚ)).1
      defaultCbin.2 = .ok j₁ := by
    have : (jcirc exEnv (Galaxy.ofBodies exLoose) (defaultCbin (F := Ext ℚ)).1
      defaultCbin.2).toOption.isSome = true := by decide +kernel
    cases h : jcirc exEnv (Galaxy.ofBodies exLoose) (defaultCbin (F := Ext ℚ)).1 defaultCbin.2 with
    | ok j => exact ⟨j, rfl⟩
    | error e => rw [h] at this; cases this
  obtain ⟨j₂, hj₂, hx, _, h⟩ := C70_exact exEnv exEnv exEnv_ok.argsort exEnv_ok.argsort rfl exLoose
    exLoose' rfl (by decide +kernel) _ _ j₁ hj₁ ((trueFirst_iff _).1 (by decide +kernel))
    (by decide +kernel) (by decide +kernel) (by decide +kernel) (by decide +kernel)
    (by decide +kernel)
  exact ⟨j₁, j₂, hj₁, hj₂, hx, (h 0 1 _ rfl rfl).1, (h 1 0 _ rfl rfl).1⟩

end GChop
