import Verif.Lemmas.Heap
import Verif.Ext

/-!
# C96: who shares which arrays, and what a write changes

Galaxies are frozen objects that hold references to numpy arrays.  `mkgalaxy`, `center`, `star_align`
and `potential` never change an array that exists, and what they return is what the model with values
says.  But the galaxy they return has some of the arrays of the galaxy they got: a write to its masses is
a write to both.  A write to a position does not change the energies and angular momenta, which were
computed when the galaxy was made.
-/

set_option linter.unusedSectionVars false

namespace GChop
open Pd InMem

variable {F : Type} [Num F]

/-- A call that was started in memory `h` and ended as `r` left all arrays as they were, and returned what
`y` says: the same error, or a galaxy that now has the value of `y`. -/
def Faithful (h : Mem F) (r : Py (HGalaxy F) × Mem F) (y : Py (Galaxy F)) : Prop :=
  (r.1.map fun g => g.read r.2) = y ∧ h.length ≤ r.2.length ∧
    ∀ a, a < h.length → r.2.at a = h.at a

theorem Runs.faithful {h : Mem F} {x : InMem F (HGalaxy F)} {y : Py (Galaxy F)}
    {R : Mem F → HGalaxy F → Galaxy F → Prop} (hx : Runs h x y R)
    (hR : ∀ h' g G, R h' g G → g.read h' = G) : Faithful h (x h) y := by
  obtain ⟨h1, h2⟩ := hx
  refine ⟨?_, h1.length_le, fun a ha => Mem.at_prefix h1 ha⟩
  rcases hr : x h with ⟨r, h'⟩
  rw [hr] at h2
  cases r with
  | error e => 
    cases y with
    | error e' => cases h2; rfl
    | ok b => exact h2.elim
  | ok a =>
    cases y with
    | error e' => exact h2.elim
    | ok b => exact congrArg Except.ok (hR _ _ _ h2)

theorem Runs.ok {h : Mem F} {x : InMem F (HGalaxy F)} {y : Py (Galaxy F)}
    {R : Mem F → HGalaxy F → Galaxy F → Prop} (hx : Runs h x y R) {g : HGalaxy F} {h' : Mem F}
    (hg : x h = (.ok g, h')) : ∃ G, y = .ok G ∧ R h' g G := by
  obtain ⟨-, h2⟩ := hx
  rw [hg] at h2
  cases y with
  | error e => exact h2.elim
  | ok b => exact ⟨b, rfl, h2⟩

/-! ## What the functions return, and that they change nothing -/

/-- C96: `mkgalaxy` changes no array and returns the galaxy of the numbers it was given. -/
theorem C96_mkgalaxy {h : Mem F} {s d g : HArgs F} (hs : s.Live h) (hd : d.Live h)
    (hg : g.Live h) :
    Faithful h (hmkgalaxy s d g h) (mkgalaxy (s.read h) (d.read h) (g.read h)) :=
  (mkgalaxy_runs hs hd hg).faithful fun _ _ _ k => k.val

/-- C96: `center` changes no array and returns the galaxy the value model says. -/
theorem C96_center {h : Mem F} {g : HGalaxy F} (hg : g.Live h) :
    Faithful h (hcenter g h) (center (g.read h)) :=
  (center_runs hg).faithful fun _ _ _ k => k.2.1

/-- C96: `star_align` changes no array and returns the galaxy the value model says. -/
theorem C96_star_align {h : Mem F} {g : HGalaxy F} (hg : g.Live h) (rCut : Option F) :
    Faithful h (hstarAlign g rCut h) (starAlign (g.read h) rCut) :=
  (starAlign_runs hg rCut).faithful fun _ _ _ k => k.2.1

/-- C96: `potential` changes no array and returns the galaxy the value model says. -/
theorem C96_potential {S : Type} [Num S] {h : Mem F} {g : HGalaxy F} (hg : g.Live h)
    (penv : PotEnv F S) (backend : String) :
    Faithful h (hpotential penv g backend h) (potential penv (g.read h) backend) :=
  (potential_runs hg penv backend).faithful fun _ _ _ k => k.2.1

/-! ## Which arrays the new galaxy shares -/

/-- what `mkgalaxy` stores for an argument: a quantity itself, a copy of an array without unit -/
def StoredFor (h : Mem F) (i : HGiven F) (a : Nat) : Prop :=
  (∀ q, i = .quantity q → a = q) ∧ ((∀ q, i ≠ .quantity q) → h.length ≤ a)

theorem HGiven.Gives.stored {h : Mem F} {i : HGiven F} {a : Nat} (k : i.Gives h.length a) :
    StoredFor h i a := by
  cases i with
  | quantity q =>
    refine ⟨fun q' hq => ?_, fun hq => absurd rfl (hq q)⟩
    cases hq
    exact k
  | array b => exact ⟨fun q (hq : _ = _) => (nomatch hq), fun _ => k⟩
  | temp l => exact ⟨fun q (hq : _ = _) => (nomatch hq), fun _ => k⟩

/-- C96: a galaxy made by `mkgalaxy` holds the quantities it was given and copies of the arrays; its
energies and angular momenta are new arrays. -/
theorem C96_mkgalaxy_shares {h h' : Mem F} {s d g : HArgs F} (hs : s.Live h) (hd : d.Live h)
    (hg : g.Live h) {G : HGalaxy F} (hG : hmkgalaxy s d g h = (.ok G, h')) :
    ∀ e ∈ [(s, G.stars), (d, G.darkMatter), (g, G.gas)],
      StoredFor h e.1.m e.2.m ∧ StoredFor h e.1.x e.2.x ∧ StoredFor h e.1.y e.2.y ∧
      StoredFor h e.1.z e.2.z ∧ StoredFor h e.1.vx e.2.vx ∧ StoredFor h e.1.vy e.2.vy ∧
      StoredFor h e.1.vz e.2.vz ∧
      (∀ i, e.1.potential = some i → ∃ a, e.2.potential = some a ∧ StoredFor h i a) ∧
      (e.1.potential = none → e.2.potential = none) ∧
      ∀ a ∈ [e.2.kineticEnergy, e.2.Jx, e.2.Jy, e.2.Jz] ++ e.2.totalEnergy.toList,
        h.length ≤ a := by
  obtain ⟨Q, -, k⟩ := (mkgalaxy_runs hs hd hg).ok hG
  have key : ∀ (i : HArgs F) (p : HSet F), p.From h.length i →
      StoredFor h i.m p.m ∧ StoredFor h i.x p.x ∧ StoredFor h i.y p.y ∧
      StoredFor h i.z p.z ∧ StoredFor h i.vx p.vx ∧ StoredFor h i.vy p.vy ∧
      StoredFor h i.vz p.vz ∧
      (∀ j, i.potential = some j → ∃ a, p.potential = some a ∧ StoredFor h j a) ∧
      (i.potential = none → p.potential = none) ∧
      ∀ a ∈ [p.kineticEnergy, p.Jx, p.Jy, p.Jz] ++ p.totalEnergy.toList, h.length ≤ a := by
    intro i p f
    refine ⟨f.m.stored, f.x.stored, f.y.stored, f.z.stored, f.vx.stored, f.vy.stored, f.vz.stored,
      ?_, ?_, ?_⟩
    · intro j hj
      have := f.potential
      rw [hj] at this
      cases hp : p.potential with
      | none => rw [hp] at this; exact this.elim
      | some a => rw [hp] at this; exact ⟨a, rfl, HGiven.Gives.stored this⟩
    · intro hj
      have := f.potential
      rw [hj] at this
      cases hp : p.potential with
      | none => rfl
      | some a => rw [hp] at this; exact this.elim
    · intro a ha
      simp only [List.mem_append, List.mem_cons, List.not_mem_nil, or_false,
        Option.mem_toList] at ha
      rcases ha with (rfl | rfl | rfl | rfl) | ha
      · exact f.kineticEnergy
      · exact f.Jx
      · exact f.Jy
      · exact f.Jz
      · exact f.totalEnergy a ha
  intro e he
  simp only [List.mem_cons, List.not_mem_nil, or_false] at he
  rcases he with rfl | rfl | rfl
  · exact key _ _ k.stars
  · exact key _ _ k.darkMatter
  · exact key _ _ k.gas

/-- C96: the galaxy `center` returns has the masses, velocities and potentials of its argument (the same
arrays), and new positions, energies and angular momenta. -/
theorem C96_center_shares {h h' : Mem F} {g r : HGalaxy F} (hg : g.Live h)
    (hr : hcenter g h = (.ok r, h')) :
    g.stars.MovedFrom h.length r.stars ∧ g.darkMatter.MovedFrom h.length r.darkMatter ∧
      g.gas.MovedFrom h.length r.gas := by
  obtain ⟨-, -, -, -, h1, h2, h3, -⟩ := (center_runs hg).ok hr
  exact ⟨h1, h2, h3⟩

/-- C96: the galaxy `star_align` returns has the masses and potentials of its argument, and the rest
new. -/
theorem C96_star_align_shares {h h' : Mem F} {g r : HGalaxy F} (hg : g.Live h) {rCut : Option F}
    (hr : hstarAlign g rCut h = (.ok r, h')) :
    g.stars.TurnedFrom h.length r.stars ∧ g.darkMatter.TurnedFrom h.length r.darkMatter ∧
      g.gas.TurnedFrom h.length r.gas := by
  obtain ⟨-, -, -, -, h1, h2, h3, -⟩ := (starAlign_runs hg rCut).ok hr
  exact ⟨h1, h2, h3⟩

/-- C96: the galaxy `potential` returns has the masses, positions and velocities of its argument, and
the rest new. -/
theorem C96_potential_shares {S : Type} [Num S] {h h' : Mem F} {g r : HGalaxy F} (hg : g.Live h)
    {penv : PotEnv F S} {backend : String} (hr : hpotential penv g backend h = (.ok r, h')) :
    g.stars.ChargedFrom h.length r.stars ∧ g.darkMatter.ChargedFrom h.length r.darkMatter ∧
      g.gas.ChargedFrom h.length r.gas := by
  obtain ⟨-, -, -, -, h1, h2, h3, -⟩ := (potential_runs hg penv backend).ok hr
  exact ⟨h1, h2, h3⟩

/-- the quantities among the arguments of a particle set -/
def HArgs.quantities (a : HArgs F) : List Nat :=
  ([a.m, a.x, a.y, a.z, a.vx, a.vy, a.vz] ++ a.potential.toList).filterMap HGiven.addr

theorem entries_quantities {n : Nat} {i : HArgs F} {p : HSet F} (h : p.From n i) :
    (HSet.entries i p).filterMap (fun e => e.1.addr) = i.quantities := by
  have hp := h.potential
  unfold HSet.entries HArgs.quantities
  revert hp
  cases hi : i.potential <;> cases hq : p.potential <;> cases p.totalEnergy <;>
    simp [GivesOpt, HGiven.addr, List.filterMap_cons]

/-- C96: no two attributes of a galaxy share an array, if no quantity is given twice; and `center`,
`star_align` and `potential` keep it so. -/
theorem C96_distinct {h h' : Mem F} {r : HGalaxy F} :
    (∀ s d g : HArgs F, s.Live h → d.Live h → g.Live h →
      (s.quantities ++ d.quantities ++ g.quantities).Nodup →
      hmkgalaxy s d g h = (.ok r, h') → r.cols.Nodup) ∧
    (∀ g : HGalaxy F, g.Live h → g.cols.Nodup →
      hcenter g h = (.ok r, h') ∨ (∃ c, hstarAlign g c h = (.ok r, h')) ∨
        (∃ (S : Type) (_ : Num S) (penv : PotEnv F S) (b : String),
          hpotential penv g b h = (.ok r, h')) → r.cols.Nodup) := by
  refine ⟨?_, ?_⟩
  · intro s d g hs hd hg hn hr
    obtain ⟨Q, -, k⟩ := (mkgalaxy_runs hs hd hg).ok hr
    rw [← HGalaxy.entries_cols s d g]
    have e : (HSet.entries s r.stars ++ HSet.entries d r.darkMatter ++
        HSet.entries g r.gas).filterMap (fun e => e.1.addr) =
        s.quantities ++ d.quantities ++ g.quantities := by
      rw [List.filterMap_append, List.filterMap_append, entries_quantities k.stars,
        entries_quantities k.darkMatter, entries_quantities k.gas]
    refine k.stores.nodup le_rfl ?_ (by rw [e]; exact hn)
    have live : ∀ (a : HArgs F), a.Live h → ∀ b ∈ a.quantities, b < h.length := by
      intro a ha b hb
      unfold HArgs.quantities at hb
      obtain ⟨i, hi, hib⟩ := List.mem_filterMap.1 hb
      have : i.Live h := by
        simp only [List.mem_append, List.mem_cons, List.not_mem_nil, or_false,
          Option.mem_toList] at hi
        rcases hi with (rfl | rfl | rfl | rfl | rfl | rfl | rfl) | hi
        · exact ha.m
        · exact ha.x
        · exact ha.y
        · exact ha.z
        · exact ha.vx
        · exact ha.vy
        · exact ha.vz
        · exact ha.potential i hi
      cases i with
      | quantity q => cases hib; exact this
      | array q => cases hib
      | temp l => cases hib
    intro x hx b hb
    have : b ∈ s.quantities ++ d.quantities ++ g.quantities := by
      rw [← e]; exact List.mem_filterMap.2 ⟨x, hx, hb⟩
    simp only [List.mem_append] at this
    rcases this with (hb | hb) | hb
    · exact live s hs b hb
    · exact live d hd b hb
    · exact live g hg b hb
  · intro g hg hn hr
    rcases hr with hr | ⟨c, hr⟩ | ⟨S, _, penv, b, hr⟩
    · obtain ⟨-, -, -, -, -, -, -, k⟩ := (center_runs hg).ok hr
      exact k hn
    · obtain ⟨-, -, -, -, -, -, -, k⟩ := (starAlign_runs hg c).ok hr
      exact k hn
    · obtain ⟨-, -, -, -, -, -, -, k⟩ := (potential_runs hg penv b).ok hr
      exact k hn

/-! ## Writes -/

theorem writeItem_at (h : Mem F) {a i : Nat} (ha : a < h.length) (hi : i < (h.at a).length) (v : F)
    (b : Nat) : (writeItem a i v h).2.at b = if b = a then (h.at a).set i v else h.at b := by
  unfold writeItem
  rw [if_pos hi]
  simp only [Mem.at, List.getD_eq_getElem?_getD, List.getElem?_set]
  by_cases hb : b = a
  · subst hb; simp [ha]
  · simp [hb, Ne.symm hb]

theorem writeItem_other (h : Mem F) {a i : Nat} (v : F) {b : Nat} (hb : b ≠ a) :
    (writeItem a i v h).2.at b = h.at b := by
  unfold writeItem
  split
  · simp [Mem.at, List.getD_eq_getElem?_getD, Ne.symm hb]
  · rfl

theorem writeItem_length (h : Mem F) (a i : Nat) (v : F) :
    (writeItem a i v h).2.length = h.length := by
  unfold writeItem
  split <;> simp

/-- C96: a write to an array that a galaxy does not hold does not change the galaxy. -/
theorem C96_write_elsewhere (h : Mem F) {g : HGalaxy F} {a : Nat} (ha : a ∉ g.cols) (i : Nat)
    (v : F) : g.read (writeItem a i v h).2 = g.read h :=
  HGalaxy.read_congr fun _ hb => writeItem_other h v fun e => ha (e ▸ hb)

/-- C96: after `c = center(g)`, a write to a position, an energy or an angular momentum of `c` does not
change `g`, and the other way round; but a write to a mass of `c` is a write to the mass of `g`. -/
theorem C96_center_write {h h' : Mem F} {g r : HGalaxy F} (hg : g.Live h)
    (hr : hcenter g h = (.ok r, h')) (i : Nat) (v : F) :
    (∀ a ∈ [r.stars.x, r.stars.y, r.stars.z, r.stars.kineticEnergy, r.stars.Jx, r.stars.Jy,
        r.stars.Jz], g.read (writeItem a i v h').2 = g.read h) ∧
    (i < (g.read h).stars.m.length →
      (g.read (writeItem r.stars.m i v h').2).stars.m = (g.read h).stars.m.set i v ∧
      (r.read (writeItem r.stars.m i v h').2).stars.m = (r.read h').stars.m.set i v) := by
  have hpre : h <+: h' := by have := (center_runs hg).1; rwa [hr] at this
  obtain ⟨k1, -, -⟩ := C96_center_shares hg hr
  have hgr : g.read h' = g.read h := HGalaxy.read_prefix hpre hg
  refine ⟨fun a ha => ?_, fun hi => ?_⟩
  · have hnew : h.length ≤ a := k1.new a (by
      simp only [List.mem_append, List.mem_cons, List.not_mem_nil, or_false] at ha ⊢
      exact .inl ha)
    rw [C96_write_elsewhere h' (fun hm => absurd (hg a hm) (by omega)), hgr]
  · have hm : g.stars.m < h.length := hg.sets.1 _ (by simp [HSet.cols])
    have hm' : g.stars.m < h'.length := lt_of_lt_of_le hm hpre.length_le
    have e : h'.at g.stars.m = h.at g.stars.m := Mem.at_prefix hpre hm
    have hi' : i < (h'.at g.stars.m).length := by rw [e]; exact hi
    rw [k1.m]
    constructor
    · show (writeItem g.stars.m i v h').2.at g.stars.m = _
      rw [writeItem_at h' hm' hi', if_pos rfl, e]
      rfl
    · show (writeItem g.stars.m i v h').2.at r.stars.m = (h'.at r.stars.m).set i v
      rw [k1.m, writeItem_at h' hm' hi', if_pos rfl]

/-- C96: after `c = star_align(g)`, a write to a position, a velocity, an energy or an angular momentum
of `c` does not change `g`; a write to a mass of `c` is a write to the mass of `g`. -/
theorem C96_star_align_write {h h' : Mem F} {g r : HGalaxy F} (hg : g.Live h) {c : Option F}
    (hr : hstarAlign g c h = (.ok r, h')) (i : Nat) (v : F) :
    (∀ a ∈ [r.stars.x, r.stars.y, r.stars.z, r.stars.vx, r.stars.vy, r.stars.vz,
        r.stars.kineticEnergy, r.stars.Jx, r.stars.Jy, r.stars.Jz],
      g.read (writeItem a i v h').2 = g.read h) ∧
    (i < (g.read h).stars.m.length →
      (g.read (writeItem r.stars.m i v h').2).stars.m = (g.read h).stars.m.set i v) := by
  have hpre : h <+: h' := by have := (starAlign_runs hg c).1; rwa [hr] at this
  obtain ⟨k1, -, -⟩ := C96_star_align_shares hg hr
  have hgr : g.read h' = g.read h := HGalaxy.read_prefix hpre hg
  refine ⟨fun a ha => ?_, fun hi => ?_⟩
  · have hnew : h.length ≤ a := k1.new a (by
      simp only [List.mem_append, List.mem_cons, List.not_mem_nil, or_false] at ha ⊢
      exact .inl ha)
    rw [C96_write_elsewhere h' (fun hm => absurd (hg a hm) (by omega)), hgr]
  · have hm : g.stars.m < h.length := hg.sets.1 _ (by simp [HSet.cols])
    have e : h'.at g.stars.m = h.at g.stars.m := Mem.at_prefix hpre hm
    rw [k1.m]
    show (writeItem g.stars.m i v h').2.at g.stars.m = _
    rw [writeItem_at h' (lt_of_lt_of_le hm hpre.length_le) (by rw [e]; exact hi), if_pos rfl, e]
    rfl

/-- C96: after `c = potential(g)`, a write to a position of `c` is a write to the position of `g`; a
write to an energy, an angular momentum or the potential of `c` does not change `g`. -/
theorem C96_potential_write {S : Type} [Num S] {h h' : Mem F} {g r : HGalaxy F} (hg : g.Live h)
    {penv : PotEnv F S} {b : String} (hr : hpotential penv g b h = (.ok r, h')) (i : Nat) (v : F) :
    (∀ a ∈ [r.stars.kineticEnergy, r.stars.Jx, r.stars.Jy, r.stars.Jz] ++
        r.stars.potential.toList, g.read (writeItem a i v h').2 = g.read h) ∧
    (i < (g.read h).stars.x.length →
      (g.read (writeItem r.stars.x i v h').2).stars.x = (g.read h).stars.x.set i v) := by
  have hpre : h <+: h' := by have := (potential_runs hg penv b).1; rwa [hr] at this
  obtain ⟨k1, -, -⟩ := C96_potential_shares hg hr
  have hgr : g.read h' = g.read h := HGalaxy.read_prefix hpre hg
  refine ⟨fun a ha => ?_, fun hi => ?_⟩
  · have hnew : h.length ≤ a := k1.new a (by
      simp only [List.mem_append, List.mem_cons, List.not_mem_nil, or_false] at ha ⊢
      tauto)
    rw [C96_write_elsewhere h' (fun hm => absurd (hg a hm) (by omega)), hgr]
  · have hm : g.stars.x < h.length := hg.sets.1 _ (by simp [HSet.cols])
    have e : h'.at g.stars.x = h.at g.stars.x := Mem.at_prefix hpre hm
    rw [k1.x]
    show (writeItem g.stars.x i v h').2.at g.stars.x = _
    rw [writeItem_at h' (lt_of_lt_of_le hm hpre.length_le) (by rw [e]; exact hi), if_pos rfl, e]
    rfl

/-- C96: a write to a position of a star changes this position and nothing else: not the angular
momenta, which are then those of the old position. -/
theorem C96_stale {h : Mem F} {g : HGalaxy F} (hg : g.Live h) (hn : g.cols.Nodup) {i : Nat}
    (hi : i < (g.read h).stars.x.length) (v : F) :
    g.read (writeItem g.stars.x i v h).2 =
      { g.read h with
        stars := { (g.read h).stars with x := (g.read h).stars.x.set i v } } := by
  have hx : g.stars.x < h.length := hg.sets.1 _ (by simp [HSet.cols])
  have hat := writeItem_at h hx hi v
  obtain ⟨s, d, e, p⟩ := g
  have hn' : s.cols.Nodup ∧ (∀ a ∈ s.cols, a ∉ d.cols ∧ a ∉ e.cols) := by
    simp only [HGalaxy.cols, List.append_assoc, List.nodup_append, List.mem_append] at hn
    exact ⟨hn.1, fun a ha => ⟨fun hb => hn.2.2 a ha a (.inl hb) rfl,
      fun hb => hn.2.2 a ha a (.inr hb) rfl⟩⟩
  have hxs : s.x ∈ s.cols := by simp [HSet.cols]
  have ed : d.read (writeItem s.x i v h).2 = d.read h :=
    HSet.read_congr fun a ha => writeItem_other h v fun hb => (hn'.2 _ hxs).1 (hb ▸ ha)
  have ee : e.read (writeItem s.x i v h).2 = e.read h :=
    HSet.read_congr fun a ha => writeItem_other h v fun hb => (hn'.2 _ hxs).2 (hb ▸ ha)
  have es : s.read (writeItem s.x i v h).2 =
      { s.read h with x := (s.read h).x.set i v } := by
    have hs := hn'.1
    simp only [HSet.cols, List.cons_append, List.nil_append, List.nodup_cons, List.mem_cons,
      List.mem_append, Option.mem_toList, not_or, List.not_mem_nil] at hs
    have hne : ∀ b, b ≠ s.x → (writeItem s.x i v h).2.at b = h.at b :=
      fun b hb => writeItem_other h v hb
    have e1 : s.potential.map (Mem.at (writeItem s.x i v h).2) = s.potential.map (Mem.at h) := by
      cases hq : s.potential with
      | none => rfl
      | some a =>
        refine congrArg some (hne a fun hb => ?_)
        simp [hq, hb] at hs
    have e2 : s.totalEnergy.map (Mem.at (writeItem s.x i v h).2) =
        s.totalEnergy.map (Mem.at h) := by
      cases hq : s.totalEnergy with
      | none => rfl
      | some a =>
        refine congrArg some (hne a fun hb => ?_)
        simp [hq, hb] at hs
    have ex : (writeItem s.x i v h).2.at s.x = (h.at s.x).set i v := by
      rw [hat, if_pos rfl]
    unfold HSet.read
    obtain ⟨⟨n0, -⟩, ⟨n1, n2, n3, n4, n5, ⟨⟨-, n6, -⟩, -⟩, n7, n8, n9, -⟩, -⟩ := hs
    rw [e1, e2, ex, hne s.m n0, hne s.y (Ne.symm n1), hne s.z (Ne.symm n2),
      hne s.vx (Ne.symm n3), hne s.vy (Ne.symm n4), hne s.vz (Ne.symm n5),
      hne s.kineticEnergy (Ne.symm n6), hne s.Jx (Ne.symm n7), hne s.Jy (Ne.symm n8),
      hne s.Jz (Ne.symm n9)]
  show Galaxy.mk _ _ _ _ = Galaxy.mk _ _ _ _
  rw [es, ed, ee]
  rfl

/-! ## Sessions -/

/-- the caller can only name arrays that exist -/
def HOp.Names (s : Session F) : HOp F → Prop
  | .mkgalaxy a d g => a.Live s.mem ∧ d.Live s.mem ∧ g.Live s.mem
  | _ => True

/-- in every step of the session -/
def Session.Names : Session F → List (HOp F) → Prop
  | _, [] => True
  | s, op :: ops => op.Names s ∧ Session.Names (s.step op) ops

/-- the arrays of the galaxies of the session exist -/
def Session.Live (s : Session F) : Prop := ∀ g ∈ s.galaxies, g.Live s.mem

/-- the operation is not a write to the array `a` -/
def HOp.Spares (a : Nat) (op : HOp F) : Prop := ∀ i v, op ≠ .write a i v

theorem Runs.live {h : Mem F} {x : InMem F (HGalaxy F)} {y : Py (Galaxy F)}
    {R : Mem F → HGalaxy F → Galaxy F → Prop} (hx : Runs h x y R)
    (hR : ∀ h' g G, R h' g G → g.Live h') {s : Session F} (hm : s.mem = h) (hs : s.Live) :
    (s.join (x h)).Live ∧ h <+: (s.join (x h)).mem ∧
      s.galaxies <+: (s.join (x h)).galaxies := by
  obtain ⟨h1, h2⟩ := hx
  rcases hr : x h with ⟨r, h'⟩
  rw [hr] at h1 h2
  have old : ∀ g ∈ s.galaxies, g.Live h' := fun g hg a ha =>
    lt_of_lt_of_le (hm ▸ hs g hg a ha) h1.length_le
  cases r with
  | error e => exact ⟨old, h1, List.prefix_rfl⟩
  | ok g =>
    refine ⟨?_, h1, List.prefix_append _ _⟩
    cases y with
    | error e => exact h2.elim
    | ok G =>
      intro b hb
      rcases List.mem_append.1 hb with hb | hb
      · exact old b hb
      · rw [List.mem_singleton.1 hb]
        exact hR _ _ _ h2

/-- what one step does -/
theorem Session.step_spec {s : Session F} (hs : s.Live) {op : HOp F} (ho : op.Names s) :
    (s.step op).Live ∧ s.galaxies <+: (s.step op).galaxies ∧
      s.mem.length ≤ (s.step op).mem.length ∧
      ∀ a, a < s.mem.length → op.Spares a → (s.step op).mem.at a = s.mem.at a := by
  have fin : ∀ s' : Session F, s'.Live ∧ s.mem <+: s'.mem ∧ s.galaxies <+: s'.galaxies →
      s'.Live ∧ s.galaxies <+: s'.galaxies ∧ s.mem.length ≤ s'.mem.length ∧
        ∀ a, a < s.mem.length → op.Spares a → s'.mem.at a = s.mem.at a :=
    fun s' ⟨h1, h2, h3⟩ => ⟨h1, h3, h2.length_le, fun a ha _ => Mem.at_prefix h2 ha⟩
  have same : s.Live ∧ s.mem <+: s.mem ∧ s.galaxies <+: s.galaxies :=
    ⟨hs, List.prefix_rfl, List.prefix_rfl⟩
  cases op with
  | array l =>
    refine fin _ ⟨fun g hg a ha => ?_, List.prefix_append _ _, List.prefix_rfl⟩
    exact lt_of_lt_of_le (hs g hg a ha) (by simp [Session.step])
  | mkgalaxy a d g =>
    exact fin _ ((mkgalaxy_runs ho.1 ho.2.1 ho.2.2).live (fun _ _ _ k => k.live) rfl hs)
  | center k =>
    cases hk : s.galaxies[k]? with
    | none =>
      rw [show s.step (.center k) = s by simp only [Session.step, hk]]
      exact fin _ same
    | some g =>
      rw [show s.step (.center k) = s.join (hcenter g s.mem) by simp only [Session.step, hk]]
      exact fin _ ((center_runs (hs g (List.mem_of_getElem? hk))).live
        (fun _ _ _ k => k.1) rfl hs)
  | starAlign k c =>
    cases hk : s.galaxies[k]? with
    | none =>
      rw [show s.step (.starAlign k c) = s by simp only [Session.step, hk]]
      exact fin _ same
    | some g =>
      rw [show s.step (.starAlign k c) = s.join (hstarAlign g c s.mem) by simp only [Session.step, hk]]
      exact fin _ ((starAlign_runs (hs g (List.mem_of_getElem? hk)) c).live
        (fun _ _ _ k => k.1) rfl hs)
  | potential S inst penv k b =>
    cases hk : s.galaxies[k]? with
    | none =>
      rw [show s.step (.potential S inst penv k b) = s by simp only [Session.step, hk]]
      exact fin _ same
    | some g =>
      rw [show s.step (.potential S inst penv k b) = s.join (hpotential penv g b s.mem) by simp only [Session.step, hk]]
      exact fin _ ((potential_runs (hs g (List.mem_of_getElem? hk)) penv b).live
        (fun _ _ _ k => k.1) rfl hs)
  | write a i v =>
    refine ⟨fun g hg b hb => ?_, List.prefix_rfl, ?_, fun b _ hsp => ?_⟩
    · exact lt_of_lt_of_le (hs g hg b hb) (writeItem_length s.mem a i v).ge
    · exact (writeItem_length s.mem a i v).ge
    · exact writeItem_other s.mem v fun e => hsp i v (by rw [e])

/-- C96: in a session, however long, a galaxy keeps its value unless some step writes to one of the
arrays it holds; and only `a[i] = v` writes. -/
theorem C96_session {s : Session F} (hs : s.Live) {ops : List (HOp F)} (ho : s.Names ops) {k : Nat}
    {g : HGalaxy F} (hg : s.galaxies[k]? = some g)
    (hw : ∀ op ∈ ops, ∀ a ∈ g.cols, ∀ i v, op ≠ .write a i v) :
    (s.run ops).galaxies[k]? = some g ∧ g.read (s.run ops).mem = g.read s.mem := by
  induction ops generalizing s with
  | nil => exact ⟨hg, rfl⟩
  | cons op ops ih =>
    obtain ⟨h1, h2, -, h4⟩ := Session.step_spec hs ho.1
    have hg' : (s.step op).galaxies[k]? = some g := by
      obtain ⟨t, ht⟩ := h2
      rw [← ht, List.getElem?_append_left (List.getElem?_eq_some_iff.1 hg).1, hg]
    obtain ⟨k1, k2⟩ := ih h1 ho.2 hg' fun o hm => hw o (List.mem_cons_of_mem _ hm)
    refine ⟨k1, k2.trans (HGalaxy.read_congr fun a ha => h4 a ?_ ?_)⟩
    · exact hs g (List.mem_of_getElem? hg) a ha
    · exact fun i v => hw op List.mem_cons_self a ha i v

section examples

/-- two stars whose `x` is a quantity of the caller (address 0) and whose masses are an array of the
caller (address 1) -/
def exHArgs : HArgs (Ext ℚ) where
  m := .array 1
  x := .quantity 0
  y := .temp [.fin 0, .fin 0]
  z := .temp [.fin 0, .fin 4]
  vx := .temp [.fin 0, .fin 0]
  vy := .temp [.fin 0, .fin 2]
  vz := .temp [.fin 0, .fin 0]
  potential := some (.temp [.fin (-5), .fin (-1)])
  softening := .fin 0

/-- one particle of another type -/
def exHOne : HArgs (Ext ℚ) where
  m := .temp [.fin 1]
  x := .temp [.fin 1]
  y := .temp [.fin 1]
  z := .temp [.fin 1]
  vx := .temp [.fin 1]
  vy := .temp [.fin 1]
  vz := .temp [.fin 1]
  potential := some (.temp [.fin (-1)])
  softening := .fin 0

/-- the caller's memory -/
def exMem : Mem (Ext ℚ) := [[.fin 1, .fin 3], [.fin 1, .fin 1]]

/-- a session: make a galaxy, center it, align the result -/
def exSession : Session (Ext ℚ) :=
  Session.run ⟨exMem, []⟩ [.mkgalaxy exHArgs exHOne exHOne, .center 0, .starAlign 1 none]

example : exHArgs.Live exMem ∧ exHOne.Live exMem := by
  constructor <;> constructor <;> simp [exHArgs, exHOne, exMem, HGiven.Live]

/-- all three calls succeed and the hypotheses of the theorems hold for each galaxy -/
example : exSession.galaxies.length = 3 ∧
    (∀ g ∈ exSession.galaxies, g.cols.Nodup ∧ ∀ a ∈ g.cols, a < exSession.mem.length) ∧
    (∀ g ∈ exSession.galaxies, (g.read exSession.mem).stars.x.length = 2) := by
  decide +kernel

/-- the mass array of the caller was copied, the quantity was not; center and star_align kept the masses -/
example : (exSession.galaxies.map fun g => g.stars.x) ≠ [] ∧
    (exSession.galaxies[0]?.map fun g => g.stars.x) = some 0 ∧
    (exSession.galaxies[0]?.map fun g => g.stars.m) ≠ some 1 ∧
    (exSession.galaxies[1]?.map fun g => g.stars.m) =
      (exSession.galaxies[0]?.map fun g => g.stars.m) ∧
    (exSession.galaxies[2]?.map fun g => g.stars.m) =
      (exSession.galaxies[0]?.map fun g => g.stars.m) ∧
    (exSession.galaxies[1]?.map fun g => g.stars.x) ≠ some 0 := by
  decide +kernel

/-- a write to a mass of the aligned galaxy changes the mass of the first galaxy -/
example : (exSession.galaxies[0]?.map fun g => (g.read
      (writeItem ((exSession.galaxies[2]?.map fun g => g.stars.m).getD 0) 1 (.fin 9)
        exSession.mem).2).stars.m) = some [.fin 1, .fin 9] := by
  decide +kernel

/-- when the caller writes to the quantity it gave, the galaxy has the new position and the old angular
momentum: `Jz = 3 * 2` where `x * vy = 10 * 2` -/
example : (exSession.galaxies[0]?.map fun g =>
      let p := (g.read (writeItem 0 1 (.fin 10) exSession.mem).2).stars
      (p.x, p.vy, p.Jz)) =
    some ([.fin 1, .fin 10], [.fin 0, .fin 2], [.fin 0, .fin 6]) := by
  decide +kernel

/-- a write beyond the end raises and changes nothing -/
example : writeItem 0 2 (.fin 10) exMem = (.error .indexError, exMem) := by decide +kernel

end examples

end GChop
