import Verif.Props.CircExact
import Verif.Props.Double
import Verif.Props.DoubleTwice

/-!
# C114: which energy bins contribute to the profile, in double precision

C30 says it for exact arithmetic.  The profile is built and trimmed in
galaxychop/utils/_circ.py:133-179.
-/

namespace GChop
open Flt

/-! ## Quiet bins -/

theorem isZero_iff {a : Float64} : (a ==. Num.ofRat 0) = true ↔ IsZero a := by
  refine ⟨fun h => ?_, fun h => eq_zero_of_toExt h⟩
  obtain ⟨s, m, rfl, hm⟩ := eq_zero_iff.1 h
  show Ext.fin (sval s m) = _
  rw [sval_of_zero hm]

theorem abs_value64 {a : Float64} (h : Num.isFinite a = true) :
    toExt (Num.abs a) = .fin |value a| := by
  cases a with
  | fin s m => exact congrArg Ext.fin (by
      show sval false m = |sval s m|
      have := m.nonneg
      unfold sval
      cases s <;> simp [abs_of_nonneg this])
  | inf s => cases s <;> cases h
  | nan => cases h

theorem abs_zero_iff64 {a : Float64} (h : Num.isFinite a = true) :
    (Num.abs a ==. Num.ofRat 0) = decide (value a = 0) := by
  rw [Bool.eq_iff_iff, isZero_iff, decide_eq_true_eq, IsZero, abs_value64 h, Ext.fin.injEq,
    abs_eq_zero]

theorem abs_le64 {a c : Float64} (ha : Num.isFinite a = true) (hc : Num.isFinite c = true) :
    (Num.abs c <=. Num.abs a) = decide (|value c| ≤ |value a|) := by
  show Ext.le (toExt _) (toExt _) = _
  rw [abs_value64 ha, abs_value64 hc]
  exact Ext.num_le (K := ℚ) _ _

theorem abs_pos64 {a : Float64} (h : Num.isFinite a = true) (h0 : value a ≠ 0) :
    (Num.ofRat 0 <. Num.abs a) = true := by
  show Ext.lt (toExt (Num.ofRat 0 : Float64)) (toExt _) = true
  rw [abs_value64 h, show toExt (Num.ofRat 0 : Float64) = .fin 0 from toExt_zero]
  exact (Ext.num_lt (K := ℚ) _ _).trans (decide_eq_true (abs_pos.2 h0))

/-- the point chosen in a bin has `y = 0` exactly when the bin is quiet -/
theorem pick_quiet64 {α : Type} (e j : α → Float64) {t : List α}
    (hz : ∀ a ∈ t, Num.isFinite (j a) = true)
    (hs : t.Pairwise (fun a c => (Num.abs (j c) <=. Num.abs (j a)) = true ∨
        Num.isNaN (Num.abs (j a)) = true)) :
    ((pick e j t).2 ==. Num.ofRat 0) = quiet j t := by
  have h0 : ∀ a ∈ t, (Num.abs (j a) ==. Num.ofRat 0) = decide (value (j a) = 0) := fun a ha =>
    abs_zero_iff64 (hz a ha)
  have hord : t.Pairwise fun a c => |value (j c)| ≤ |value (j a)| := by
    refine hs.imp_of_mem fun {a c} ha hc h => ?_
    rcases h with h | h
    · rw [abs_le64 (hz a ha) (hz c hc), decide_eq_true_eq] at h
      exact h
    · have := NumOrd.finite_not_nan (isFinite_of (abs_value64 (hz a ha)))
      rw [h] at this
      cases this
  match t, hz, h0, hord with
  | [], _, _, _ => simp [pick, quiet, zero_eq_zero]
  | [a], _, h0, _ =>
    have := h0 a (by simp)
    simp only [pick, quiet, List.filter_cons, List.filter_nil, this]
    by_cases h : value (j a) = 0 <;> simp [h]
  | a :: c :: r, hz, h0, hord =>
    obtain ⟨h1, h2⟩ := List.pairwise_cons.1 hord
    have ha := h0 a (by simp)
    have hc := h0 c (by simp)
    have hca := h1 c (by simp)
    have hr : value (j c) = 0 → (r.filter fun a => !(Num.abs (j a) ==. Num.ofRat 0)) = [] := by
      intro hc0
      rw [List.filter_eq_nil_iff]
      intro d hd
      have := (List.pairwise_cons.1 h2).1 d hd
      rw [hc0, abs_zero] at this
      rw [h0 d (by simp [hd])]
      simp [abs_nonpos_iff.1 this]
    simp only [pick, quiet, List.filter_cons, ha, hc]
    by_cases hc0 : value (j c) = 0
    · rw [hr hc0]
      by_cases ha0 : value (j a) = 0
      · simp only [hc0, ha0, decide_true, Bool.not_true, Bool.false_eq_true, if_false,
          List.length_nil, beq_self_eq_true, Bool.true_or]
        split_ifs
        · rw [hc]; simp [hc0]
        · rw [ha]; simp [ha0]
      · have hq : IsZero (Num.abs (j c) /. Num.abs (j a)) := by
          rw [← isZero_iff]
          exact NumDiv.zero_div (isFinite_of (abs_value64 (hz a (by simp))))
            (abs_pos64 (hz a (by simp)) ha0) (by rw [hc]; simp [hc0])
        have hdiv : (Num.ofRat (1/100) <=. ((Num.ofRat 1 : Float64) -.
            (Num.abs (j c) /. Num.abs (j a)))) = true := by
          show (Num.ofRat (1/100) <=. ((Num.ofRat 1 : Float64) +.
            Num.neg (Num.abs (j c) /. Num.abs (j a)))) = true
          rw [NumIEEE.le_add_zero _ _ (isZero_iff.2 hq.neg)]
          exact NumOrd.ofRat_le (by norm_num) (by norm_num) (by norm_num)
        rw [if_pos hdiv]
        simp only [hc]
        simp [hc0, ha0]
    · have ha0 : value (j a) ≠ 0 := by
        intro h
        rw [h, abs_zero] at hca
        exact hc0 (abs_nonpos_iff.1 hca)
      have : ((if Num.ofRat (1/100) <=. ((Num.ofRat 1 : Float64) -.
          (Num.abs (j c) /. Num.abs (j a))) then (e c, Num.abs (j c))
          else (e a, Num.abs (j a))).2 ==. Num.ofRat 0) = false := by
        split_ifs
        · rw [hc]; simp [hc0]
        · rw [ha]; simp [ha0]
      rw [this]
      simp [ha0, hc0]

/-! ## Normalised values -/

/-- a bound energy is finite and not positive -/
theorem bound_finite64 {c : Float64} (hc : isBound c = true) :
    Num.isFinite c = true ∧ (c <=. Num.ofRat 0) = true := by
  unfold isBound at hc
  rw [Bool.and_eq_true, Bool.not_eq_true'] at hc
  refine ⟨NumDiv.finite_of_not_inf (NumOrd.not_nan_of_le hc.1).1 hc.2 ?_, hc.1⟩
  cases hp : (c ==. Num.pinf) with
  | false => rfl
  | true =>
    rw [NumOrd.eq_def, Bool.and_eq_true] at hp
    have := (lt_iff.1 (NumDiv.zero_lt_pinf (F := Float64))).2
    rw [NumOrd.le_trans hp.2 hc.1] at this
    cases this

/-- the first particle with the lowest normalised energy is the first with the value -1 -/
theorem first_lowest64 {l : List (Body Float64)} {m : Float64} (hm : Num.isFinite m = true)
    (hm0 : (m <. Num.ofRat 0) = true) (hb : ∀ a ∈ l, Num.isFinite a.energy = true ∧
      (m <=. a.energy) = true) (hex : ∃ a ∈ l, a.energy = m)
    {i0 : Nat} {a0 : Body Float64}
    (hi : Np.argmin (l.map fun a => a.energy /. Num.abs m) = .ok i0) (hget : l[i0]? = some a0) :
    l.find? (fun a => (a.energy /. Num.abs m) ==. Num.ofRat (-1)) = some a0 := by
  obtain ⟨p1, p2⟩ := NumDiv.abs_neg hm hm0
  have hself := NumDiv.div_abs_self hm hm0
  rw [NumOrd.eq_def, Bool.and_eq_true] at hself
  have hge : ∀ a ∈ l, ((Num.ofRat (-1) : Float64) <=. (a.energy /. Num.abs m)) = true := fun a ha =>
    NumOrd.le_trans hself.2 (NumDiv.div_mono hm (hb a ha).1 p2 p1 (hb a ha).2)
  obtain ⟨hlt, hget'⟩ := List.getElem?_eq_some_iff.1 hget
  rw [List.find?_eq_some_iff_getElem]
  obtain ⟨i, x, h1, h2, h3⟩ := argmin_spec (l := l.map fun a => a.energy /. Num.abs m) (by
    intro x hx
    obtain ⟨a, ha, rfl⟩ := List.mem_map.1 hx
    exact (NumOrd.not_nan_of_le (hge a ha)).2) (by
    intro h
    rw [h] at hi; cases hi)
  rw [hi] at h1
  cases h1
  rw [List.getElem?_map, hget] at h2
  cases h2
  have hle : ((a0.energy /. Num.abs m) <=. Num.ofRat (-1)) = true := by
    obtain ⟨a1, ha1, h4⟩ := hex
    obtain ⟨i1, hi1⟩ := List.mem_iff_getElem?.1 ha1
    have := (h3 i1 (a1.energy /. Num.abs m) (by rw [List.getElem?_map, hi1]; rfl)).1
    rw [h4] at this
    exact NumOrd.le_trans this hself.1
  refine ⟨by rw [NumOrd.eq_def, hle, hge a0 (List.mem_of_getElem? hget)]; rfl, i0, hlt, hget',
    fun k hk => ?_⟩
  have hkl : k < l.length := by omega
  have := (h3 k (l[k].energy /. Num.abs m) (by simp [hkl])).2 hk
  rw [Bool.not_eq_true', NumOrd.eq_def, Bool.and_eq_false_iff]
  left
  cases hc : ((l[k].energy /. Num.abs m) <=. Num.ofRat (-1)) with
  | false => rfl
  | true =>
    have h5 := (lt_iff.1 this).2
    rw [NumOrd.le_trans hc (hge a0 (List.mem_of_getElem? hget))] at h5
    cases h5

/-! ## C114 -/

/-- C114: which bins contribute, in double precision.  The call succeeded; the edges increase, start
at -1 and are negative; the `Jz` of the bound particles are finite and not all zero; some energy is
negative.  `m` is the lowest energy and `J` the largest `|Jz|` of a bound particle, `E` and `Z` are
the normalised energy and `Jz` as computed, and `a0` is the first particle with `E = -1`.  A bin is
quiet if none of its bound particles has `Z ≠ 0`, or just one of several has.  The bin between the
edges `lo` and `hi` (number `k`) has a point in the profile exactly when it contains a bound particle
and either a bound particle lies above the last edge, or `k` plus the number of quiet bins, plus one
if `Z` of `a0` is zero (in all at least one), is below the number of edges. -/
theorem C114_contributing_bins (env : CircEnv Float64) (henv : env.OK) (b : BGalaxy Float64)
    (bin0 bin1 : Float64) (j : JCirc Float64)
    (h : jcirc env (Galaxy.ofBodies b) bin0 bin1 = .ok j)
    (aux : List Float64) (hbins : energyBins bin0 bin1 = .ok aux)
    (hinc : aux.Pairwise fun u v => (u <. v) = true) (hhead : aux.head? = some (Num.ofRat (-1)))
    (hneg : ∀ u ∈ aux, (u <. Num.ofRat 0) = true)
    (hfin : ∀ a ∈ b.all, ¬ Unbound a.energy → Num.isFinite a.jz = true)
    (hZ : ∃ a ∈ b.all, ¬ Unbound a.energy ∧ (a.jz ==. Num.ofRat 0) = false)
    (hE : ∃ a ∈ b.all, ¬ Unbound a.energy ∧ (a.energy <. Num.ofRat 0) = true) :
    ∃ m J a0, IsMinOf b.bound Body.energy m ∧ IsMaxOf b.bound (fun a => Num.abs a.jz) J ∧
      let E := fun a : Body Float64 => a.energy /. Num.abs m
      let Z := fun a : Body Float64 => a.jz /. J
      b.bound.find? (fun a => E a ==. Num.ofRat (-1)) = some a0 ∧
      ∀ (k : Nat) (lo hi top : Float64), aux.getLast? = some top → aux[k]? = some lo →
        aux[k + 1]? = some hi →
        ((∃ u ∈ j.x, (lo <. u) = true ∧ (u <=. hi) = true) ↔
          (∃ a ∈ b.bound, (lo <. E a) = true ∧ (E a <=. hi) = true) ∧
          ((∃ a ∈ b.bound, (top <. E a) = true) ∨
            k + max 1 (quietSlots E Z b.bound aux a0) < aux.length)) := by
  have hbound : ∀ a, a ∈ b.bound ↔ a ∈ b.all ∧ ¬ Unbound a.energy := by
    intro a
    unfold BGalaxy.bound
    rw [List.mem_filter, isBound_eq_true]
  obtain ⟨_, _, n, hn, rfl⟩ := jcirc_inv h
  obtain ⟨hbne, h1, h2, _, aux', hbins', haux, hprof⟩ := circNorm_inv hn
  rw [hbins] at hbins'
  cases hbins'
  have hbf : ∀ a ∈ b.bound, Num.isFinite a.energy = true ∧ (a.energy <=. Num.ofRat 0) = true :=
    fun a ha => bound_finite64 (isBound_eq_true.2 ((hbound a).1 ha).2)
  obtain ⟨⟨am, ham, hem⟩, hmin⟩ := isMinOf_amin h1 fun a ha => NumOrd.finite_not_nan (hbf a ha).1
  have hjf : ∀ a ∈ b.bound, Num.isFinite a.jz = true := fun a ha =>
    hfin a ((hbound a).1 ha).1 ((hbound a).1 ha).2
  obtain ⟨⟨aJ, haJ, hJe⟩, hmax⟩ := isMaxOf_amax h2 fun a ha =>
    NumOrd.finite_not_nan (isFinite_of (abs_value64 (hjf a ha)))
  have hm : Num.isFinite n.eMin = true := hem ▸ (hbf am ham).1
  have hm0 : (n.eMin <. Num.ofRat 0) = true := by
    obtain ⟨a, ha, hu, hl⟩ := hE
    exact lt_of_le_of_lt' (hmin a ((hbound a).2 ⟨ha, hu⟩)) hl
  have hJ : Num.isFinite n.jzMax = true := hJe ▸ isFinite_of (abs_value64 (hjf aJ haJ))
  have hJv : toExt n.jzMax = .fin |value aJ.jz| := by rw [← hJe]; exact abs_value64 (hjf aJ haJ)
  have hJ0 : (Num.ofRat 0 <. n.jzMax) = true := by
    obtain ⟨a, ha, hu, hl⟩ := hZ
    have hab := (hbound a).2 ⟨ha, hu⟩
    have := hmax a hab
    refine lt_of_lt_of_le' (abs_pos64 (hjf a hab) fun h0 => ?_) this
    have h3 : IsZero a.jz := by
      unfold IsZero
      rw [toExt_value (hjf a hab), h0]
    rw [isZero_iff.2 h3] at hl
    cases hl
  have hw : |value aJ.jz| ≠ 0 := by
    intro h0
    rw [h0] at hJv
    have := isZero_iff.2 (show IsZero n.jzMax from hJv)
    rw [NumOrd.eq_def, Bool.and_eq_true] at this
    have h3 := (lt_iff.1 hJ0).2
    rw [this.1] at h3
    cases h3
  have hzf : ∀ a ∈ b.bound, Num.isFinite (n.jz a) = true := by
    intro a ha
    have h3 := toExt_div (toExt_value (hjf a ha)) hJv hw
    have hle : |value a.jz| ≤ |value aJ.jz| := by
      have := hmax a ha
      rw [← hJe, abs_le64 (hjf aJ haJ) (hjf a ha), decide_eq_true_eq] at this
      exact this
    have h4 : |value a.jz / (|value aJ.jz|)| ≤ 2 ^ (1010 : ℤ) := by
      rw [abs_div, abs_abs]
      exact (div_le_one_of_le₀ hle (abs_nonneg _)).trans (one_le_zpow₀ (by norm_num) (by norm_num))
    rw [clip64 h4] at h3
    exact isFinite_of h3
  have hsub : ∀ lo hi, ∀ a ∈ inBin n.e lo hi b.bound, a ∈ b.bound :=
    fun _ _ a ha => (List.mem_filter.1 ha).1
  have hneg1 : Num.isNaN (Num.ofRat (-1) : Float64) = false :=
    NumOrd.finite_not_nan (NumOrd.ofRat_finite (by norm_num) (by norm_num))
  obtain ⟨a0, i0, hi0, hget, hall⟩ := profile_bins henv.argsort b.bound n.e n.jz aux
    ⟨hinc, _, hhead, le_refl' hneg1⟩ hneg (by
      intro lo hi
      obtain ⟨t, ht1, ht2, ht3⟩ := binPoint_map henv.argsort b.bound n.e n.jz lo hi
      rw [ht3, pick_quiet64 n.e n.jz (fun a ha => hzf a (hsub lo hi a (ht1.subset ha))) ht2,
        quiet_perm ht1]) n.pts hbne hprof
  refine ⟨n.eMin, n.jzMax, a0, isMinOf_amin h1, isMaxOf_amax h2,
    first_lowest64 hm hm0 (fun a ha => ⟨(hbf a ha).1, hmin a ha⟩) ⟨am, ham, hem⟩ hi0 hget, ?_⟩
  intro k lo hi top ht hlo hhi
  have hx : (∃ u ∈ (circResult env n b.stars).x, (lo <. u) = true ∧ (u <=. hi) = true) ↔
      ∃ p ∈ n.pts, (lo <. p.1) = true ∧ (p.1 <=. hi) = true := by
    simp [circResult]
  exact hx.trans (hall k lo hi top ht hlo hhi)

/-! ## Galaxies with few bound particles -/

/-- a number lies in at most one bin -/
theorem one_bin64 {u : Float64} : ∀ {aux : List Float64},
    aux.Pairwise (fun u v => (u <. v) = true) →
    ((aux.zip aux.tail).filter fun q => (u <=. q.2) && (q.1 <. u)).length ≤ 1
  | [], _ => by simp
  | [_], _ => by simp
  | lo :: hi :: r, h => by
    have ih := one_bin64 (u := u) (List.pairwise_cons.1 h).2
    simp only [List.tail_cons, List.zip_cons_cons, List.filter_cons]
    split_ifs with hc
    · rw [Bool.and_eq_true] at hc
      have : (((hi :: r).zip r).filter fun q => (u <=. q.2) && (q.1 <. u)) = [] := by
        rw [List.filter_eq_nil_iff]
        intro q hq
        have hq1 := (List.of_mem_zip (a := q.1) (b := q.2) hq).1
        rw [Bool.and_eq_true]
        rintro ⟨_, h2⟩
        have h3 : (hi <=. q.1) = true := by
          rcases List.mem_cons.1 hq1 with h4 | h4
          · rw [h4]
            exact le_refl' (NumOrd.not_nan_of_le hc.1).2
          · exact le_of_lt' ((List.pairwise_cons.1 (List.pairwise_cons.1 h).2).1 _ h4)
        have h5 := (lt_iff.1 h2).2
        rw [NumOrd.le_trans hc.1 h3] at h5
        cases h5
      rw [this]
      simp
    · exact ih

/-- there are at most as many populated bins as particles -/
theorem populated_le {α : Type} (e : α → Float64) {aux : List Float64}
    (h : aux.Pairwise fun u v => (u <. v) = true) : ∀ l : List α,
    ((aux.zip aux.tail).filter fun q => !(inBin e q.1 q.2 l).isEmpty).length ≤ l.length
  | [] => by simp [inBin]
  | a :: l => by
    have ih := populated_le e h l
    have h1 := one_bin64 (u := e a) h
    have key : ∀ qs : List (Float64 × Float64),
        (qs.filter fun q => !(inBin e q.1 q.2 (a :: l)).isEmpty).length ≤
          (qs.filter fun q => !(inBin e q.1 q.2 l).isEmpty).length +
          (qs.filter fun q => (e a <=. q.2) && (q.1 <. e a)).length := by
      intro qs
      induction qs with
      | nil => simp
      | cons q qs ihq =>
        have hcons : inBin e q.1 q.2 (a :: l) =
            if (e a <=. q.2) && (q.1 <. e a) then a :: inBin e q.1 q.2 l else inBin e q.1 q.2 l := by
          simp [inBin, List.filter_cons]
        simp only [List.filter_cons, hcons]
        split_ifs <;> simp_all <;> omega
    have := key (aux.zip aux.tail)
    rw [List.length_cons]
    omega

theorem quiet_nil {α F : Type} [Num F] (j : α → F) : quiet j [] = true := by simp [quiet]

/-- bins without particles are quiet -/
theorem quietSlots_ge {α : Type} (e j : α → Float64) {aux : List Float64}
    (h : aux.Pairwise fun u v => (u <. v) = true) (l : List α) (a0 : α) :
    aux.length ≤ 1 + l.length + quietSlots e j l aux a0 := by
  have h1 := populated_le e h l
  have key : ∀ qs : List (Float64 × Float64), qs.length ≤
      (qs.filter fun q => !(inBin e q.1 q.2 l).isEmpty).length +
      (qs.filter fun q => quiet j (inBin e q.1 q.2 l)).length := by
    intro qs
    induction qs with
    | nil => simp
    | cons q qs ihq =>
      simp only [List.filter_cons, List.length_cons]
      cases hc : inBin e q.1 q.2 l with
      | nil => simp only [quiet_nil]; simp; omega
      | cons x xs => split_ifs <;> simp_all <;> omega
  have h2 := key (aux.zip aux.tail)
  have h3 : (aux.zip aux.tail).length = aux.length - 1 := by simp
  unfold quietSlots
  omega

/-- C114: if no bound particle lies above the last edge, the profile has no point in a bin whose number
is larger than the number of bound particles, populated or not. -/
theorem C114_few_particles (env : CircEnv Float64) (henv : env.OK) (b : BGalaxy Float64)
    (bin0 bin1 : Float64) (j : JCirc Float64)
    (h : jcirc env (Galaxy.ofBodies b) bin0 bin1 = .ok j)
    (aux : List Float64) (hbins : energyBins bin0 bin1 = .ok aux)
    (hinc : aux.Pairwise fun u v => (u <. v) = true) (hhead : aux.head? = some (Num.ofRat (-1)))
    (hneg : ∀ u ∈ aux, (u <. Num.ofRat 0) = true)
    (hfin : ∀ a ∈ b.all, ¬ Unbound a.energy → Num.isFinite a.jz = true)
    (hZ : ∃ a ∈ b.all, ¬ Unbound a.energy ∧ (a.jz ==. Num.ofRat 0) = false)
    (hE : ∃ a ∈ b.all, ¬ Unbound a.energy ∧ (a.energy <. Num.ofRat 0) = true) :
    ∃ m, IsMinOf b.bound Body.energy m ∧
      ∀ (k : Nat) (lo hi top : Float64), aux.getLast? = some top → aux[k]? = some lo →
        aux[k + 1]? = some hi →
        (∀ a ∈ b.bound, (top <. (a.energy /. Num.abs m)) = false) → b.bound.length < k →
        ∀ u ∈ j.x, ¬ ((lo <. u) = true ∧ (u <=. hi) = true) := by
  obtain ⟨m, J, a0, hm, _, _, hall⟩ := C114_contributing_bins env henv b bin0 bin1 j h aux hbins hinc
    hhead hneg hfin hZ hE
  refine ⟨m, hm, fun k lo hi top ht hlo hhi hnone hk u hu hin => ?_⟩
  obtain ⟨_, h2⟩ := (hall k lo hi top ht hlo hhi).1 ⟨u, hu, hin⟩
  rcases h2 with ⟨a, ha, hta⟩ | h2
  · rw [hnone a ha] at hta; cases hta
  · have h3 := quietSlots_ge (fun a : Body Float64 => a.energy /. Num.abs m)
      (fun a : Body Float64 => a.jz /. J) hinc b.bound a0
    omega

/-- C114, what remains of C30: if some bound particle lies above the last edge, every populated bin
has a point. -/
theorem C114_populated_bins (env : CircEnv Float64) (henv : env.OK) (b : BGalaxy Float64)
    (bin0 bin1 : Float64) (j : JCirc Float64)
    (h : jcirc env (Galaxy.ofBodies b) bin0 bin1 = .ok j)
    (aux : List Float64) (hbins : energyBins bin0 bin1 = .ok aux)
    (hinc : aux.Pairwise fun u v => (u <. v) = true) (hhead : aux.head? = some (Num.ofRat (-1)))
    (hneg : ∀ u ∈ aux, (u <. Num.ofRat 0) = true)
    (hfin : ∀ a ∈ b.all, ¬ Unbound a.energy → Num.isFinite a.jz = true)
    (hZ : ∃ a ∈ b.all, ¬ Unbound a.energy ∧ (a.jz ==. Num.ofRat 0) = false)
    (hE : ∃ a ∈ b.all, ¬ Unbound a.energy ∧ (a.energy <. Num.ofRat 0) = true) :
    ∃ m, IsMinOf b.bound Body.energy m ∧
      ∀ (k : Nat) (lo hi top : Float64), aux.getLast? = some top → aux[k]? = some lo →
        aux[k + 1]? = some hi →
        (∃ a ∈ b.bound, (top <. (a.energy /. Num.abs m)) = true) →
        (∃ a ∈ b.bound, (lo <. (a.energy /. Num.abs m)) = true ∧
          ((a.energy /. Num.abs m) <=. hi) = true) →
        ∃ u ∈ j.x, (lo <. u) = true ∧ (u <=. hi) = true := by
  obtain ⟨m, J, a0, hm, _, _, hall⟩ := C114_contributing_bins env henv b bin0 bin1 j h aux hbins hinc
    hhead hneg hfin hZ hE
  exact ⟨m, hm, fun k lo hi top ht hlo hhi htop hpop =>
    (hall k lo hi top ht hlo hhi).2 ⟨hpop, Or.inl htop⟩⟩

/-! ## The default bins, and an example -/

/-- the edges of the default bins in double precision -/
def defaultEdges64 : List Float64 := (energyBins (defaultCbin (F := Float64)).1 defaultCbin.2).toOption.getD []

/-- C114: the assumptions on the edges hold for the default bins; there are 38 edges. -/
theorem C114_default_edges :
    energyBins (defaultCbin (F := Float64)).1 defaultCbin.2 = .ok defaultEdges64 ∧
    (defaultEdges64.Pairwise fun u v => (u <. v) = true) ∧
    defaultEdges64.head? = some (Num.ofRat (-1)) ∧
    (∀ u ∈ defaultEdges64, (u <. Num.ofRat 0) = true) ∧ defaultEdges64.length = 38 := by
  obtain ⟨aux, h1, h2, h3⟩ := C65_default_bins
  have h4 : defaultEdges64 = aux := by unfold defaultEdges64; rw [h1]; rfl
  rw [h4]
  refine ⟨h1, h2, h3, ?_, ?_⟩
  · rw [← h4]; decide +kernel
  · rw [← h4]; decide +kernel

/-- a particle at `(1, 0, 0)` with tangential velocity `jz` and energy `e` -/
def orbit64 (e jz : ℚ) : Body Float64 :=
  ⟨Num.ofRat 1, Num.ofRat 1, Num.ofRat 0, Num.ofRat 0, Num.ofRat 0, Num.ofRat jz, Num.ofRat 0,
    Num.ofRat (e - jz * jz / 2)⟩

/-- three stars at the energies -1, -0.5 and -0.25 -/
def exLost64 : BGalaxy Float64 where
  stars := [orbit64 (-1) 1, orbit64 (-1/2) 2, orbit64 (-1/4) 4]
  dm := []
  gas := []
  hasPot := true
  softS := Num.ofRat 0
  softDm := Num.ofRat 0
  softG := Num.ofRat 0

/-- C114 (C30 is false in double precision, default bins): the bins at -0.5 and -0.25 are populated
and the profile only has the point at -1.  The circularities 2 and 4 of their stars are above 1, and
all values of these stars are replaced by NaN: they get no label.  With a dark matter particle of
energy -1/1024 added, all three stars have circularity 1 and a label. -/
theorem C114_counterexample : (sortEnv (F := Float64)).OK ∧
    (jcirc sortEnv (Galaxy.ofBodies exLost64) (defaultCbin (F := Float64)).1
      defaultCbin.2).toOption.map (fun j => (j.x, j.y, j.eps, j.normalizedStarEnergy))
      = some ([Num.ofRat (-1)], [Num.ofRat (1/4)], [Num.ofRat 1, Num.nan, Num.nan],
        [Num.ofRat (-1), Num.nan, Num.nan]) ∧
    (jcirc sortEnv (Galaxy.ofBodies { exLost64 with dm := [orbit64 (-1/1024) 4] })
      (defaultCbin (F := Float64)).1 defaultCbin.2).toOption.map (fun j => (j.x, j.y, j.eps))
      = some ([Num.ofRat (-1), Num.ofRat (-1/2), Num.ofRat (-1/4), Num.ofRat (-1/1024)],
        [Num.ofRat (1/4), Num.ofRat (1/2), Num.ofRat 1, Num.ofRat 1],
        [Num.ofRat 1, Num.ofRat 1, Num.ofRat 1]) := by
  refine ⟨sortEnv_ok, ?_, ?_⟩ <;> decide +kernel

/-- the assumptions of `C114_few_particles` hold for this galaxy -/
example : (∃ j, jcirc sortEnv (Galaxy.ofBodies exLost64) (defaultCbin (F := Float64)).1
      defaultCbin.2 = .ok j) ∧
    (∀ a ∈ exLost64.all, Num.isFinite a.jz = true) ∧
    (∃ a ∈ exLost64.all, isBound a.energy = true ∧ (a.jz ==. Num.ofRat 0) = false ∧
      (a.energy <. Num.ofRat 0) = true) ∧ exLost64.bound.length = 3 ∧
    (defaultEdges64.getLast?.map fun top => exLost64.bound.map fun a => top <. (a.energy /. Num.ofRat 1))
      = some [false, false, false] := by
  refine ⟨?_, by decide +kernel, by decide +kernel, by decide +kernel, by decide +kernel⟩
  have h := C114_counterexample.2.1
  cases hj : jcirc (sortEnv (F := Float64)) (Galaxy.ofBodies exLost64) (defaultCbin (F := Float64)).1
      defaultCbin.2 with
  | error e => rw [hj] at h; cases h
  | ok j => exact ⟨j, rfl⟩

end GChop
