import Verif.Circ
import Verif.Lemmas.Center
import Verif.Lemmas.Np

/-!
# `jcirc` on lists of particles
-/

set_option linter.unusedSectionVars false

namespace GChop
open Pd

variable {F : Type} [Num F]

/-! ### bounds of index arrays -/

theorem exists_whereIdx_ge (m : List Bool) (h : m.count true ≠ 0) :
    ∃ i ∈ Np.whereIdx m, m.count true ≤ i + 1 := by
  induction m with
  | nil => exact absurd rfl h
  | cons b m ih =>
    rw [Np.whereIdx_cons]
    by_cases hm : m.count true = 0
    · cases b with
      | false => simp [hm] at h
      | true => exact ⟨0, by simp, by simp [hm]⟩
    · obtain ⟨i, hi, hc⟩ := ih hm
      refine ⟨i + 1, List.mem_append_right _ (List.mem_map.2 ⟨i, hi, rfl⟩), ?_⟩
      have := List.count_cons (a := true) (b := b) (l := m)
      split at this <;> omega

/-- the true entries of a mask all come first -/
def trueFirst {α : Type} (p : α → Bool) (l : List α) : Bool := (l.dropWhile p).all (fun a => !p a)

theorem whereIdx_lt_count {α : Type} (p : α → Bool) (l : List α) :
    (Np.whereIdx (l.map p)).all (· < (l.filter p).length) = trueFirst p l := by
  induction l with
  | nil => rfl
  | cons a l ih =>
    rw [List.map_cons, Np.whereIdx_cons]
    cases h : p a with
    | true =>
      have : trueFirst p (a :: l) = trueFirst p l := by simp [trueFirst, h]
      rw [this, ← ih]
      simp [h, List.all_map, Function.comp_def]
    | false =>
      have hd : trueFirst p (a :: l) = l.all (fun a => !p a) := by simp [trueFirst, h]
      rw [hd]
      simp only [Bool.false_eq_true, if_false, List.nil_append, List.filter_cons, h]
      by_cases hc : (l.map p).count true = 0
      · have hl : l.all (fun a => !p a) = true := by
          rw [Np.count_map_true, List.length_eq_zero_iff, List.filter_eq_nil_iff] at hc
          rw [List.all_eq_true]
          intro x hx
          simpa using hc x hx
        have hw : Np.whereIdx (l.map p) = [] := by
          rw [← List.length_eq_zero_iff, Np.whereIdx_length, hc]
        rw [hl, hw]; rfl
      · obtain ⟨i, hi, hle⟩ := exists_whereIdx_ge _ hc
        have h1 : ((Np.whereIdx (l.map p)).map (· + 1)).all (· < (l.filter p).length) = false := by
          rw [List.all_eq_false]
          refine ⟨i + 1, List.mem_map.2 ⟨i, hi, rfl⟩, ?_⟩
          rw [Np.count_map_true] at hle
          simp; omega
        have h2 : l.all (fun a => !p a) = false := by
          rw [Np.count_map_true] at hc
          rw [List.all_eq_false]
          by_contra hn
          apply hc
          rw [List.length_eq_zero_iff, List.filter_eq_nil_iff]
          intro x hx hpx
          exact hn ⟨x, hx, by simp [hpx]⟩
        rw [h1, h2]

theorem trueFirst_split {α : Type} {p : α → Bool} {l : List α} (h : trueFirst p l = true) :
    ∃ A U, l = A ++ U ∧ (∀ a ∈ A, p a = true) ∧ (∀ a ∈ U, p a = false) := by
  refine ⟨l.takeWhile p, l.dropWhile p, (List.takeWhile_append_dropWhile).symm, ?_, ?_⟩
  · intro a ha; exact (List.all_eq_true.1 (List.all_takeWhile (l := l) (p := p))) a ha
  · intro a ha
    have := (List.all_eq_true.1 h) a ha
    simpa using this

/-! ### the end of `jcirc` -/

/-- a raw circularity that is kept -/
def keepEps (e : F) : Bool := !(Num.ofRat 1 <. e) && !(e <. Num.ofRat (-1))

theorem finishCirc_ok [NumOrd F] {α : Type} (l : List α) (p : α → Bool) (fe fz fc fr : α → F)
    (x y : List F) :
    finishCirc l.length (Np.whereIdx (l.map p)) ((l.filter p).map fe) ((l.filter p).map fz)
      ((l.filter p).map fc) ((l.filter p).map fr) x y
    = if trueFirst p l then
        .ok { normalizedStarEnergy := l.map fun a => if p a && keepEps (fc a) then fe a else Num.nan
              normalizedStarJz := (l.filter p).map fun a => if keepEps (fc a) then fz a else Num.nan
              eps := l.map fun a => if p a && keepEps (fc a) then fc a else Num.nan
              epsR := l.map fun a => if p a && keepEps (fc a) then fr a else Num.nan
              x := x, y := y }
      else .error .indexError := by
  have hnan1 : ((Num.ofRat 1 : F) <. Num.nan) = false := lt_nan_right NumOrd.nan_isNaN
  have hnan2 : ((Num.nan : F) <. Num.ofRat (-1)) = false := lt_nan_left NumOrd.nan_isNaN
  have hrep : List.replicate l.length (Num.nan : F) = l.map fun _ => Num.nan := by
    simp [List.map_const']
  unfold finishCirc
  simp only [hrep, Np.scatter_whereIdx, Py.ok_bind]
  by_cases ht : trueFirst p l = true
  · obtain ⟨A, U, rfl, hA, hU⟩ := trueFirst_split ht
    have hf : (A ++ U).filter p = A := by
      rw [List.filter_append, List.filter_eq_self.2 hA,
        List.filter_eq_nil_iff.2 (fun a ha => by simp [hU a ha]), List.append_nil]
    rw [if_pos ht, hf]
    have hw : Np.whereIdx ((A ++ U).map p) = Np.whereIdx (A.map p) := by
      have : (A ++ U).map p = A.map p ++ List.replicate U.length false := by
        rw [List.map_append]
        congr 1
        rw [List.eq_replicate_iff]
        refine ⟨by simp, ?_⟩
        intro b hb
        obtain ⟨a, ha, rfl⟩ := List.mem_map.1 hb
        exact hU a ha
      rw [this, Np.whereIdx_append_false]
    have hw2 : ∀ q : α → Bool, (∀ a ∈ U, q a = false) →
        Np.whereIdx ((A ++ U).map q) = Np.whereIdx (A.map q) := by
      intro q hq
      have : (A ++ U).map q = A.map q ++ List.replicate U.length false := by
        rw [List.map_append]
        congr 1
        rw [List.eq_replicate_iff]
        refine ⟨by simp, ?_⟩
        intro b hb
        obtain ⟨a, ha, rfl⟩ := List.mem_map.1 hb
        exact hq a ha
      rw [this, Np.whereIdx_append_false]
    have hrepA : List.replicate (A.map fz).length (Num.nan : F) = A.map fun _ => Num.nan := by
      simp [List.map_const']
    have hfA : A.filter p = A := List.filter_eq_self.2 hA
    have hsc := Np.scatter_whereIdx A p fz (fun _ => (Num.nan : F))
    rw [hfA] at hsc
    rw [hw, hrepA, hsc]
    simp only [Py.ok_bind]
    -- first mask
    have hm1 : (List.map (fun e => (Num.ofRat 1 : F) <. e)
        ((A ++ U).map fun a => if p a = true then fc a else Num.nan))
        = (A ++ U).map (fun a => (Num.ofRat 1 : F) <. (if p a = true then fc a else Num.nan)) := by
      rw [List.map_map]; rfl
    rw [hm1]
    simp only [Np.fillAt_whereIdx, Py.ok_bind]
    rw [hw2 (fun a => (Num.ofRat 1 : F) <. (if p a = true then fc a else Num.nan))
      (fun a ha => by simp [hU a ha, hnan1])]
    simp only [Np.fillAt_whereIdx, Py.ok_bind]
    have hm2 : (List.map (fun e : F => e <. Num.ofRat (-1))
        ((A ++ U).map fun a => if ((Num.ofRat 1 : F) <. (if p a = true then fc a else Num.nan)) = true
          then Num.nan else if p a = true then fc a else Num.nan))
        = (A ++ U).map (fun a => (if ((Num.ofRat 1 : F) <. (if p a = true then fc a else Num.nan))
            = true then (Num.nan : F) else if p a = true then fc a else Num.nan) <. Num.ofRat (-1)) := by
      rw [List.map_map]; rfl
    rw [hm2]
    simp only [Np.fillAt_whereIdx, Py.ok_bind]
    rw [hw2 (fun a => (if ((Num.ofRat 1 : F) <. (if p a = true then fc a else Num.nan))
            = true then (Num.nan : F) else if p a = true then fc a else Num.nan) <. Num.ofRat (-1))
      (fun a ha => by simp [hU a ha, hnan1, hnan2])]
    simp only [Np.fillAt_whereIdx, Py.ok_bind, Py.pure_eq]
    have key : ∀ (f : α → F) (a : α),
        (if ((if ((Num.ofRat 1 : F) <. (if p a = true then fc a else Num.nan)) = true
            then (Num.nan : F) else if p a = true then fc a else Num.nan) <. Num.ofRat (-1)) = true
          then (Num.nan : F)
          else if ((Num.ofRat 1 : F) <. (if p a = true then fc a else Num.nan)) = true then Num.nan
          else if p a = true then f a else Num.nan)
        = if (p a && keepEps (fc a)) = true then f a else Num.nan := by
      intro f a
      cases hp : p a with
      | false => simp [hnan1, hnan2]
      | true =>
        cases h1 : ((Num.ofRat 1 : F) <. fc a) with
        | true => simp [h1, hnan2, keepEps]
        | false => cases h2 : (fc a <. Num.ofRat (-1)) <;> simp [h1, h2, keepEps]
    simp only [key]
    congr 2
    apply List.map_congr_left
    intro a ha
    simp [hA a ha]
  · have ht' : trueFirst p l = false := by simpa using ht
    rw [if_neg ht]
    have : Np.scatter (List.replicate ((l.filter p).map fz).length (Num.nan : F))
        (Np.whereIdx (l.map p)) ((l.filter p).map fz) = .error .indexError := by
      unfold Np.scatter
      have := whereIdx_lt_count p l
      rw [ht'] at this
      simp only [List.length_replicate, List.length_map, this]
      rfl
    rw [this]; rfl

/-! ### the profile -/

theorem innerPoints_length (env : CircEnv F) (E Jz aux : List F) :
    (innerPoints env E Jz aux).length = aux.length - 1 := by
  match aux with
  | [] => rfl
  | [_] => rfl
  | lo :: hi :: aux =>
    simp only [innerPoints, List.length_cons]
    have := innerPoints_length env E Jz (hi :: aux)
    simp at this
    omega

/-- the profile of a non-empty set always has its first point `x = -1` -/
theorem profile_ok [NumOrd F] (env : CircEnv F) (aux E Jz : List F) (hE : E ≠ [])
    (hJ : Jz.length = E.length) (ha : aux ≠ []) :
    ∃ i0 pts, Np.argmin E = .ok i0 ∧
      profile env aux E Jz = .ok ((Num.ofRat (-1), Num.abs (Jz.getD i0 Num.nan)) :: pts) := by
  have hz : ((Num.ofRat (-1) : F) ==. Num.ofRat 0) = false := by
    have := lt_iff.1 (NumOrd.neg_one_lt_zero (F := F))
    rw [NumOrd.eq_def, this.2]; simp
  obtain ⟨i0, hi0⟩ : ∃ i0, Np.argmin E = .ok i0 := by
    cases E with
    | nil => exact absurd rfl hE
    | cons a l => exact ⟨_, rfl⟩
  obtain ⟨top, htop⟩ : ∃ top, aux.getLast? = some top := by
    cases h : aux.getLast? with
    | none => exact absurd (List.getLast?_eq_none_iff.1 h) ha
    | some t => exact ⟨t, rfl⟩
  refine ⟨i0, ?_⟩
  unfold profile
  simp only [hi0, htop, Py.ok_bind]
  by_cases hm : (Np.whereIdx (E.map fun e => top <. e)).length = 0
  · simp only [hm, ne_eq, not_true_eq_false, if_false, Py.pure_eq]
    generalize innerPoints env E Jz aux = inner
    set first : F × F := (Num.ofRat (-1), Num.abs (Jz.getD i0 Num.nan)) with hfirst
    set pts : List (F × F) := first :: inner ++ [(Num.ofRat 0, Num.ofRat 0)] with hpts
    have hd : ∀ i, i ≠ 0 → i < pts.length → ∃ r, dropTail pts i = first :: r := by
      intro i h0 hi
      unfold dropTail
      rw [if_neg h0]
      have : pts.length - i = (pts.length - i - 1) + 1 := by omega
      rw [this, hpts, List.cons_append, List.take_succ_cons]
      exact ⟨_, rfl⟩
    have hlen : 2 ≤ pts.length := by simp [hpts]
    have hle : (pts.filter fun p => p.2 ==. Num.ofRat 0).length ≤ pts.length :=
      List.length_filter_le _ _
    have : ∃ r, (if (pts.filter fun p => p.2 ==. Num.ofRat 0).length - 1 = 0 then dropTail pts 1
        else dropTail pts ((pts.filter fun p => p.2 ==. Num.ofRat 0).length - 1)) = first :: r := by
      split
      · exact hd 1 (by omega) (by omega)
      · exact hd _ (by assumption) (by omega)
    obtain ⟨r, hr⟩ := this
    rw [hr, List.filter_cons]
    simp only [hfirst, hz, Bool.not_false, if_true]
    exact ⟨_, trivial, rfl⟩
  · simp only [hm, ne_eq, not_false_eq_true, if_true]
    obtain ⟨k, hk⟩ : ∃ k, Np.argmax ((Np.take Jz (Np.whereIdx (E.map fun e => top <. e))).map
        Num.abs) = .ok k := by
      have : (Np.take Jz (Np.whereIdx (E.map fun e => top <. e))) ≠ [] := by
        intro hnil
        apply hm
        have hlen : (Np.take Jz (Np.whereIdx (E.map fun e => top <. e))).length
            = (Np.whereIdx (E.map fun e => top <. e)).length := by
          unfold Np.take
          rw [List.length_filterMap_eq_countP, List.countP_eq_length]
          intro i hi
          have := Np.whereIdx_lt hi
          rw [List.length_map, ← hJ] at this
          simp [this]
        rw [← hlen, hnil]; rfl
      cases hc : Np.take Jz (Np.whereIdx (E.map fun e => top <. e)) with
      | nil => exact absurd hc this
      | cons a l => exact ⟨_, rfl⟩
    rw [hk]
    simp only [Py.ok_bind, Py.pure_eq, List.cons_append, List.filter_cons, hz, Bool.not_false,
      if_true]
    exact ⟨_, trivial, rfl⟩

theorem profile_empty (env : CircEnv F) (E Jz : List F) (hE : E ≠ []) :
    profile env [] E Jz = .error .indexError := by
  cases E with
  | nil => exact absurd rfl hE
  | cons a l => rfl

/-! ### refinement -/

/-- in-plane specific angular momentum -/
def Body.jr (a : Body F) : F := Num.sqrt (Num.sq a.jx +. Num.sq a.jy)

/-- the bound particles of all types -/
def BGalaxy.bound (b : BGalaxy F) : List (Body F) := b.all.filter fun a => isBound a.energy

/-- The normalisations and the profile of one galaxy. -/
structure CircNorm (F : Type) where
  eMin : F
  jzMax : F
  jrMax : F
  pts : List (F × F)

namespace CircNorm
variable (n : CircNorm F) (env : CircEnv F)
/-- normalised energy -/
def e (a : Body F) : F := a.energy /. Num.abs n.eMin
/-- normalised Jz -/
def jz (a : Body F) : F := a.jz /. n.jzMax
/-- interpolated circular angular momentum -/
def jc (a : Body F) : F := Np.interp1 env.locate (n.pts.map (·.1)) (n.pts.map (·.2)) (n.e a)
/-- raw circularity -/
def eps (a : Body F) : F := n.jz a /. n.jc env a
/-- raw projected circularity -/
def epsR (a : Body F) : F := (a.jr /. n.jrMax) /. n.jc env a
end CircNorm

/-- normalisations of a galaxy, `_circ.py:121-179` on rows -/
def circNorm (env : CircEnv F) (b : BGalaxy F) (bin0 bin1 : F) : Py (CircNorm F) := do
  let eMin ← Np.amin (b.bound.map Body.energy)
  let jzMax ← Np.amax (b.bound.map fun a => Num.abs a.jz)
  let aux ← energyBins bin0 bin1
  let pts ← profile env aux (b.bound.map fun a => a.energy /. Num.abs eMin)
    (b.bound.map fun a => a.jz /. jzMax)
  let jrMax ← Np.amax (b.bound.map fun a => Num.abs a.jr)
  return ⟨eMin, jzMax, jrMax, pts⟩

/-- the result of `jcirc` on rows -/
def circResult (env : CircEnv F) (n : CircNorm F) (stars : List (Body F)) : JCirc F :=
  let ok (a : Body F) : Bool := isBound a.energy && keepEps (n.eps env a)
  { normalizedStarEnergy := stars.map fun a => if ok a then n.e a else Num.nan
    normalizedStarJz := (stars.filter fun a => isBound a.energy).map fun a =>
      if keepEps (n.eps env a) then n.jz a else Num.nan
    eps := stars.map fun a => if ok a then n.eps env a else Num.nan
    epsR := stars.map fun a => if ok a then n.epsR env a else Num.nan
    x := n.pts.map (·.1)
    y := n.pts.map (·.2) }

theorem frameCirc_ok (b : BGalaxy F) :
    (Galaxy.ofBodies b).toDataframe none (some ["ptypev", "total_energy", "Jx", "Jy", "Jz"])
      = .ok (tableOf (b.rows none) ["ptypev", "total_energy", "Jx", "Jy", "Jz"]) := by
  rw [Galaxy.toDataframe_ok b none _ someSelected_none (by decide) (by
    rintro ⟨_, h⟩
    have := h "Jx" (by simp)
    cases hb : b.hasPot <;> simp [hb, scalarAttr] at this)]
  rw [distinct_of_nodup (by decide)]

theorem rows_energy (b : BGalaxy F) (hp : b.hasPot = true) :
    (b.rows none).map (fun r => (r.cell "total_energy").toNum) = b.all.map Body.energy := by
  rw [← rows_none_map_body]
  apply List.map_congr_left
  intro r hr
  simp [rows_none_hasPot b r hr, hp]

theorem inPlane_map (l : List (Body F)) : inPlane (l.map Body.jx) (l.map Body.jy) = l.map Body.jr := by
  unfold inPlane
  rw [List.zipWith_map, List.zipWith_self]
  rfl

theorem amin_ne {l : List F} {a : F} (h : Np.amin l = .ok a) : l ≠ [] := by
  rintro rfl; cases h

theorem profile_ne_nil [NumOrd F] {env : CircEnv F} {aux E Jz : List F} {pts : List (F × F)}
    (hE : E ≠ []) (hJ : Jz.length = E.length) (h : profile env aux E Jz = .ok pts) : pts ≠ [] := by
  by_cases ha : aux = []
  · subst ha; rw [profile_empty env E Jz hE] at h; cases h
  · obtain ⟨i0, r, _, h2⟩ := profile_ok env aux E Jz hE hJ ha
    rw [h2] at h
    cases h
    simp

theorem jcirc_ofBodies [NumOrd F] (env : CircEnv F) (b : BGalaxy F) (hp : b.hasPot = true)
    (bin0 bin1 : F) :
    jcirc env (Galaxy.ofBodies b) bin0 bin1 = (circNorm env b bin0 bin1).bind fun n =>
      if trueFirst (fun a => isBound a.energy) b.stars then .ok (circResult env n b.stars)
      else .error .indexError := by
  have hb : ∀ f : Body F → F, Np.take (b.all.map f)
      (Np.whereIdx ((b.all.map Body.energy).map isBound)) = b.bound.map f := by
    intro f
    rw [List.map_map]
    exact Np.take_whereIdx b.all (isBound ∘ Body.energy) f
  have hs : ∀ f : Body F → F, Np.take (b.stars.map f)
      (Np.whereIdx ((b.stars.map Body.energy).map isBound))
      = (b.stars.filter fun a => isBound a.energy).map f := by
    intro f
    rw [List.map_map]
    exact Np.take_whereIdx b.stars (isBound ∘ Body.energy) f
  have htype : (tableOf (b.rows none) ["ptypev", "total_energy", "Jx", "Jy", "Jz"]).col "ptypev"
      = .ok ((b.rows none).map fun r => (Cell.int r.t.value : Cell F)) := by
    rw [tableOf_col _ _ "ptypev" (by simp)]
    simp
  have hof : ∀ f : Body F → F, ofType ((b.rows none).map fun r => (Cell.int r.t.value : Cell F))
      (b.all.map f) .stars = b.stars.map f := by
    intro f
    rw [← rows_none_map_body b f, ofType_rows, filter_rows]
  have hcol : ∀ (f : Body F → F) (c : String), (∀ r : Row F, r.cell c = .num (f r.body)) →
      (b.rows none).map (fun r => (r.cell c).toNum) = b.all.map f := by
    intro f c h
    rw [← rows_none_map_body]
    simp [h]
  unfold jcirc
  simp only [frameCirc_ok, Py.ok_bind]
  rw [tableOf_numCol _ _ "Jx" (by simp), tableOf_numCol _ _ "Jy" (by simp),
    tableOf_numCol _ _ "Jz" (by simp), tableOf_numCol _ _ "total_energy" (by simp),
    hcol Body.jx "Jx" (by simp), hcol Body.jy "Jy" (by simp), hcol Body.jz "Jz" (by simp),
    rows_energy b hp, htype]
  simp only [Py.ok_bind, inPlane_map, hof, hb, hs]
  unfold circNorm
  simp only [List.map_map]
  cases h1 : Np.amin (b.bound.map Body.energy) with
  | error e => rfl
  | ok eMin =>
    have hne : b.bound ≠ [] := by
      have := amin_ne h1
      intro h; rw [h] at this; exact this rfl
    simp only [Py.ok_bind, Function.comp_def]
    cases h2 : Np.amax (b.bound.map fun a => Num.abs a.jz) with
    | error e => rfl
    | ok jzMax =>
      simp only [Py.ok_bind]
      cases h3 : energyBins bin0 bin1 with
      | error e => rfl
      | ok aux =>
        simp only [Py.ok_bind]
        cases h4 : profile env aux (b.bound.map fun a => a.energy /. Num.abs eMin)
            (b.bound.map fun a => a.jz /. jzMax) with
        | error e => rfl
        | ok pts =>
          simp only [Py.ok_bind]
          cases h5 : Np.amax (b.bound.map fun a => Num.abs a.jr) with
          | error e => rfl
          | ok jrMax =>
            have hpts : pts ≠ [] := profile_ne_nil (by simpa using hne) (by simp) h4
            have hint : Np.interp env.locate
                ((b.stars.filter fun a => isBound a.energy).map fun a => a.energy /. Num.abs eMin)
                (pts.map (·.1)) (pts.map (·.2))
                = .ok (((b.stars.filter fun a => isBound a.energy)).map fun a =>
                  (CircNorm.mk eMin jzMax jrMax pts).jc env a) := by
              unfold Np.interp
              have : ¬ ((pts.map (·.1)).length = 0 ∨ (pts.map (·.1)).length ≠ (pts.map (·.2)).length) := by
                simp [hpts]
              rw [if_neg this, List.map_map]
              rfl
            simp only [Py.ok_bind, hint, List.zipWith_map, List.zipWith_self, Py.pure_eq,
              List.length_map]
            have := finishCirc_ok b.stars (fun a => isBound a.energy)
              (CircNorm.mk eMin jzMax jrMax pts).e (CircNorm.mk eMin jzMax jrMax pts).jz
              ((CircNorm.mk eMin jzMax jrMax pts).eps env) ((CircNorm.mk eMin jzMax jrMax pts).epsR env)
              (pts.map (·.1)) (pts.map (·.2))
            exact this

/-- without potential there is no energy -/
theorem jcirc_noPot [NumOrd F] (env : CircEnv F) (b : BGalaxy F) (hp : b.hasPot = false)
    (bin0 bin1 : F) : jcirc env (Galaxy.ofBodies b) bin0 bin1 = .error .valueError := by
  have hnan : isBound (Num.nan : F) = false := by
    unfold isBound
    rw [le_nan_left NumOrd.nan_isNaN]; rfl
  unfold jcirc
  simp only [frameCirc_ok, Py.ok_bind]
  rw [tableOf_numCol _ _ "Jx" (by simp), tableOf_numCol _ _ "Jy" (by simp),
    tableOf_numCol _ _ "Jz" (by simp), tableOf_numCol _ _ "total_energy" (by simp)]
  simp only [Py.ok_bind]
  have : Np.take ((b.rows none).map fun r => (r.cell "total_energy").toNum)
      (Np.whereIdx (((b.rows none).map fun r => (r.cell "total_energy").toNum).map isBound)) = [] := by
    rw [List.map_map, Np.take_whereIdx]
    rw [List.map_eq_nil_iff, List.filter_eq_nil_iff]
    intro r hr
    simp [rows_none_hasPot b r hr, hp, hnan]
  rw [this]
  rfl

end GChop
