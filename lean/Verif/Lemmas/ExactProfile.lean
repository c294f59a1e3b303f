import Verif.Lemmas.ProfileTransfer
import Verif.Lemmas.PolygonClose

/-! # When doubles build the profile from the particles that exact arithmetic takes -/

namespace GChop

open Flt

variable {α : Type}

/-- no edge lies between the two energies -/
def SameBin (E : α → ℝ) (edges : List ℝ) (a c : α) : Prop := ∀ u ∈ edges, E a ≤ u ↔ E c ≤ u

/-- The choices that the profile makes are clear by a margin `δ`, for particles with normalised energies
`E` and normalised angular momenta `J`. -/
structure Clear (l : List α) (E J : α → ℝ) (edges : List ℝ) (δ : ℝ) : Prop where
  /-- no particle is next to the escape energy -/
  neg : ∀ a ∈ l, E a < -δ
  /-- the deepest particle is alone -/
  deepest : ∀ a ∈ l, ∀ c ∈ l, E a = -1 → c ≠ a → -1 + 2 * δ < E c
  /-- no particle is next to an edge -/
  away : ∀ a ∈ l, ∀ u ∈ edges, u ≠ -1 → δ < |E a - u|
  /-- no angular momentum is next to zero -/
  zero : ∀ a ∈ l, J a = 0 ∨ δ < |J a|
  /-- the sizes of the angular momenta in a bin differ -/
  order : ∀ a ∈ l, ∀ c ∈ l, SameBin E edges a c → a ≠ c → 2 * δ < |(|J a| - |J c|)|
  /-- the second largest one in a bin is not next to 99% of the largest -/
  second : ∀ a ∈ l, ∀ c ∈ l, SameBin E edges a c → a ≠ c →
    (∀ d ∈ l, SameBin E edges d a → |J d| ≤ |J a| ∧ (d ≠ a → |J d| ≤ |J c|)) →
    2 * δ < |(|J c| - 99 / 100 * |J a|)|

theorem real_le {a b : Float64} (fa : Num.isFinite a = true) (fb : Num.isFinite b = true) :
    (a <=. b) = true ↔ (value a : ℝ) ≤ value b := by
  rw [le_value (toExt_value fa) (toExt_value fb)]
  exact Rat.cast_le.symm

theorem real_lt {a b : Float64} (fa : Num.isFinite a = true) (fb : Num.isFinite b = true) :
    (a <. b) = true ↔ (value a : ℝ) < value b := by
  rw [lt_value (toExt_value fa) (toExt_value fb)]
  exact Rat.cast_lt.symm

theorem real_eq {a b : Float64} (fa : Num.isFinite a = true) (fb : Num.isFinite b = true) :
    (a ==. b) = true ↔ (value a : ℝ) = value b := by
  rw [NumOrd.eq_def, Bool.and_eq_true, real_le fa fb, real_le fb fa, le_antisymm_iff]

/-- a comparison that is clear by a margin -/
theorem clear_cmp {v w u t η ε : ℝ} (h1 : |v - w| ≤ η) (h2 : |u - t| ≤ ε) (h3 : η + ε < |w - t|) :
    (v ≤ u ↔ w ≤ t) ∧ (u < v ↔ t < w) ∧ v ≠ u := by
  rw [abs_le] at h1 h2
  rcases le_total w t with h | h
  · rw [abs_of_nonpos (by linarith)] at h3
    exact ⟨⟨fun _ => h, fun _ => by linarith⟩, ⟨fun _ => by linarith, fun _ => by linarith⟩,
      by intro hc; linarith⟩
  · rw [abs_of_nonneg (by linarith)] at h3
    exact ⟨⟨fun _ => by linarith, fun _ => by linarith⟩, ⟨fun _ => by linarith, fun _ => by linarith⟩,
      by intro hc; linarith⟩

theorem hundredth : (value (Num.ofRat (1 / 100) : Float64) : ℝ) ≤ 1 / 100 + 1 / 2 ^ 58 ∧
    1 / 100 - 1 / 2 ^ 58 ≤ (value (Num.ofRat (1 / 100) : Float64) : ℝ) := by
  have h : value (Num.ofRat (1 / 100) : Float64) ≤ 1 / 100 + 1 / 2 ^ 58 ∧
      1 / 100 - 1 / 2 ^ 58 ≤ value (Num.ofRat (1 / 100) : Float64) := by decide +kernel
  have h1 := (Rat.cast_le (K := ℝ)).2 h.1
  have h2 := (Rat.cast_le (K := ℝ)).2 h.2
  push_cast at h1 h2
  exact ⟨h1, h2⟩

/-- the test for the second largest angular momentum, in doubles -/
theorem second_test {A C : Float64} (fA : Num.isFinite A = true) (fC : Num.isFinite C = true)
    (hC : 0 ≤ (value C : ℝ)) (hCA : (value C : ℝ) ≤ value A) (hA : 0 < (value A : ℝ))
    (hA1 : (value A : ℝ) ≤ 1 + 1 / 100) (h : 1 / 2 ^ 49 < |(value C - 99 / 100 * value A : ℝ)|) :
    (Num.ofRat (1 / 100) <=. (Num.ofRat 1 -. (C /. A))) = true ↔
      (value C : ℝ) ≤ 99 / 100 * value A := by
  have hq0 : 0 ≤ (value C / value A : ℝ) := div_nonneg hC hA.le
  have hq1 : (value C / value A : ℝ) ≤ 1 := (div_le_one hA).2 hCA
  have big : (1 : ℝ) ≤ 2 ^ (1000 : ℤ) := one_le_zpow₀ (by norm_num) (by norm_num)
  have hA0 : value A ≠ 0 := by
    intro h0
    rw [h0] at hA
    simp at hA
  obtain ⟨fq, eq⟩ := err_div fC fA hA0 (by rw [abs_of_nonneg hq0]; exact hq1.trans big)
  rw [abs_of_nonneg hq0] at eq
  have ht := tiny_small
  have v1 : value (Num.ofRat 1 : Float64) = 1 := value_eq toExt_one
  have f1 : Num.isFinite (Num.ofRat 1 : Float64) = true := isFinite_of toExt_one
  have eq' : |(value (C /. A) : ℝ) - value C / value A| ≤ 2 / 2 ^ 53 := by
    refine eq.trans ?_
    have : (value C / value A : ℝ) / 2 ^ 53 ≤ 1 / 2 ^ 53 := div_le_div_of_nonneg_right hq1 (by positivity)
    norm_num at ht this ⊢
    linarith
  have e1 := abs_le.1 eq'
  obtain ⟨fs, es⟩ := rel_sub f1 fq (by
    have : |(1 : ℝ) - value (C /. A)| ≤ 4 := by
      rw [abs_le]; norm_num at e1 ⊢; constructor <;> linarith [e1.1, e1.2]
    rw [v1]
    exact_mod_cast this)
  rw [v1] at es
  have es' : |(value (Num.ofRat 1 -. (C /. A)) : ℝ) - (1 - value (C /. A))| ≤ 2 / 2 ^ 53 := by
    push_cast at es
    refine es.trans ?_
    have : |(1 : ℝ) - value (C /. A)| ≤ 2 := by
      rw [abs_le]; norm_num at e1 ⊢; constructor <;> linarith [e1.1, e1.2]
    norm_num at this ⊢
    linarith
  obtain ⟨e1a, e1b⟩ := e1
  obtain ⟨e2a, e2b⟩ := abs_le.1 es'
  have fh : Num.isFinite (Num.ofRat (1 / 100) : Float64) = true :=
    NumOrd.ofRat_finite (by norm_num) (by norm_num)
  rw [real_le fh fs]
  obtain ⟨g1, g2⟩ := hundredth
  have hdiv : (value C : ℝ) = value C / value A * value A := by field_simp
  generalize (value C / value A : ℝ) = q at *
  generalize (value A : ℝ) = A' at *
  generalize (value C : ℝ) = C' at *
  generalize (value (Num.ofRat 1 -. (C /. A)) : ℝ) = s at *
  generalize (value (C /. A) : ℝ) = r at *
  generalize (value (Num.ofRat (1 / 100) : Float64) : ℝ) = c at *
  rcases le_total C' (99 / 100 * A') with hle | hle
  · refine ⟨fun _ => hle, fun _ => ?_⟩
    rw [abs_of_nonpos (by linarith)] at h
    have hq : q ≤ 99 / 100 - 1 / 2 ^ 50 := by
      by_contra hc
      have := mul_lt_mul_of_pos_right (not_le.1 hc) hA
      rw [← hdiv] at this
      norm_num at this h hA1
      linarith
    norm_num at *
    linarith
  · rw [abs_of_nonneg (by linarith)] at h
    refine ⟨fun hc => ?_, fun hc => by norm_num at *; linarith⟩
    have hq : 99 / 100 + 1 / 2 ^ 50 ≤ q := by
      by_contra hc
      have := mul_lt_mul_of_pos_right (not_le.1 hc) hA
      rw [← hdiv] at this
      norm_num at this h hA1
      linarith
    norm_num at *
    linarith

/-- particles between the same two edges -/
theorem sameBin_of {E : α → ℝ} {edges : List ℝ} (hs : edges.Pairwise (· < ·)) {k : Nat} {lo hi : ℝ}
    (h1 : edges[k]? = some lo) (h2 : edges[k + 1]? = some hi) {a c : α} (ha : lo < E a) (ha' : E a ≤ hi)
    (hc : lo < E c) (hc' : E c ≤ hi) : SameBin E edges a c := by
  intro u hu
  obtain ⟨i, hi', rfl⟩ := List.mem_iff_getElem.1 hu
  obtain ⟨k1, rfl⟩ := List.getElem?_eq_some_iff.1 h1
  obtain ⟨k2, rfl⟩ := List.getElem?_eq_some_iff.1 h2
  have mono : ∀ i j (hi : i < edges.length) (hj : j < edges.length), i ≤ j → edges[i] ≤ edges[j] := by
    intro i j hi hj hij
    rcases hij.lt_or_eq with h | rfl
    · exact (List.pairwise_iff_getElem.1 hs i j hi hj h).le
    · exact le_rfl
  rcases Nat.lt_or_ge k i with h | h
  · have := mono (k + 1) i k2 hi' h
    exact ⟨fun _ => by linarith, fun _ => by linarith⟩
  · have := mono i k hi' k1 h
    exact ⟨fun _ => by linarith, fun _ => by linarith⟩

/-- particles above the last edge -/
theorem sameBin_top {E : α → ℝ} {edges : List ℝ} (hs : edges.Pairwise (· < ·)) {top : ℝ}
    (h1 : edges.getLast? = some top) {a c : α} (ha : top < E a) (hc : top < E c) :
    SameBin E edges a c := by
  intro u hu
  rw [List.getLast?_eq_getElem?] at h1
  obtain ⟨i, hi', rfl⟩ := List.mem_iff_getElem.1 hu
  obtain ⟨k1, rfl⟩ := List.getElem?_eq_some_iff.1 h1
  have : edges[i] ≤ edges[edges.length - 1] := by
    rcases (show i ≤ edges.length - 1 by omega).lt_or_eq with h | h
    · exact (List.pairwise_iff_getElem.1 hs i _ hi' k1 h).le
    · simp [h]
  exact ⟨fun _ => by linarith, fun _ => by linarith⟩

theorem abs_close {v w η : ℝ} (h : |v - w| ≤ η) : |(|v| - |w|)| ≤ η :=
  (abs_abs_sub_abs_le v w).trans h

/-- the comparisons of the profile when the choices are clear -/
theorem alike_of_clear {l : List α} {e j : α → Float64} {E J : α → ℝ} {aux : List Float64}
    {edges : List ℝ} {η δ : ℝ} (hη : 0 ≤ η) (hδ : η + 1 / 2 ^ 50 ≤ δ)
    (he : ∀ a ∈ l, Num.isFinite (e a) = true ∧ |(value (e a) : ℝ) - E a| ≤ η)
    (hj : ∀ a ∈ l, Num.isFinite (j a) = true ∧ |(value (j a) : ℝ) - J a| ≤ η ∧
      |(value (j a) : ℝ)| ≤ 1 + 1 / 100 ∧ (J a = 0 → (value (j a) : ℝ) = 0))
    (hmin : ∃ d ∈ l, (value (e d) : ℝ) = -1) (hEmin : ∃ d ∈ l, E d = -1)
    (hlen : aux.length = edges.length)
    (haux : ∀ (k : Nat) u t, aux[k]? = some u → edges[k]? = some t →
      Num.isFinite u = true ∧ |(value u : ℝ) - t| ≤ 1 / 2 ^ 50 ∧ (t = -1 → (value u : ℝ) = -1))
    (hs : edges.Pairwise (· < ·)) (hc : Clear l E J edges δ) :
    Alike l e j aux (fun a => (Ext.fin (E a) : Ext ℝ)) (fun a => Ext.fin (J a)) (edges.map Ext.fin) := by
  have hδ0 : 0 < δ := lt_of_lt_of_le (by positivity) hδ
  have p50 : (0 : ℝ) < 1 / 2 ^ 50 := by positivity
  -- the deepest particle
  obtain ⟨d, hd, hdE⟩ := hEmin
  have hother : ∀ a ∈ l, a ≠ d → (-1 : ℝ) < value (e a) ∧ -1 < E a := by
    intro a ha hne
    have h1 := hc.deepest d hd a ha hdE hne
    have h2 := abs_le.1 (he a ha).2
    exact ⟨by linarith [h2.1], by linarith⟩
  have hd1 : (value (e d) : ℝ) = -1 := by
    obtain ⟨d', hd', h⟩ := hmin
    by_cases hne : d' = d
    · rw [← hne]; exact h
    · have := (hother d' hd' hne).1; linarith
  -- comparison with the edges
  have hcmp : ∀ (k : Nat) u t, aux[k]? = some u → edges[k]? = some t → ∀ a ∈ l,
      ((e a <=. u) = true ↔ E a ≤ t) ∧ ((u <. e a) = true ↔ t < E a) := by
    intro k u t hu ht a ha
    obtain ⟨fu, hut, hu1⟩ := haux k u t hu ht
    obtain ⟨fe, hea⟩ := he a ha
    rw [real_le fe fu, real_lt fu fe]
    by_cases h1 : t = -1
    · rw [hu1 h1, h1]
      by_cases had : a = d
      · rw [had, hd1, hdE]
        simp
      · obtain ⟨g1, g2⟩ := hother a ha had
        exact ⟨⟨fun h => by linarith, fun h => by linarith⟩, ⟨fun _ => g2, fun _ => g1⟩⟩
    · have h2 := hc.away a ha t (List.mem_of_getElem? ht) h1
      obtain ⟨c1, c2, -⟩ := clear_cmp hea hut (lt_of_le_of_lt hδ h2)
      exact ⟨c1, c2⟩
  have hedge' : ∀ {k : Nat} {t' : Ext ℝ}, (edges.map Ext.fin)[k]? = some t' →
      ∃ t, t' = Ext.fin t ∧ edges[k]? = some t := by
    intro k t' h
    rw [List.getElem?_map, Option.map_eq_some_iff] at h
    obtain ⟨t, h1, h2⟩ := h
    exact ⟨t, h2.symm, h1⟩
  -- comparison of angular momenta
  have hjabs : ∀ a ∈ l, Num.isFinite (Num.abs (j a)) = true ∧
      (value (Num.abs (j a)) : ℝ) = |(value (j a) : ℝ)| ∧ |(value (Num.abs (j a)) : ℝ) - abs (J a)| ≤ η := by
    intro a ha
    have : (value (Num.abs (j a)) : ℝ) = |(value (j a) : ℝ)| := by
      rw [value_abs]; push_cast; rfl
    exact ⟨finite_abs (hj a ha).1, this, by rw [this]; exact abs_close (hj a ha).2.1⟩
  have hord : ∀ a ∈ l, ∀ c ∈ l, SameBin E edges a c → a ≠ c →
      ((Num.abs (j a) <. Num.abs (j c)) = true ↔ |J a| < |J c|) ∧
      ((Num.abs (j a) <=. Num.abs (j c)) = true ↔ |J a| ≤ |J c|) ∧ |J a| ≠ |J c| := by
    intro a ha c hcl hsb hne
    have h1 := hc.order a ha c hcl hsb hne
    obtain ⟨fa, -, ea⟩ := hjabs a ha
    obtain ⟨fc, -, ec⟩ := hjabs c hcl
    rw [real_lt fa fc, real_le fa fc]
    obtain ⟨c1, c2, c3⟩ := clear_cmp ea ec (by linarith)
    refine ⟨?_, c1, ?_⟩
    · rw [lt_iff_le_and_ne, c1, lt_iff_le_and_ne]
      refine and_congr_right fun _ => ⟨fun _ h => ?_, fun _ h => c3 h⟩
      rw [h] at h1; simp at h1; linarith
    · intro h; rw [h] at h1; simp at h1; linarith
  have hbin : ∀ (k : Nat) lo hi, aux[k]? = some lo → aux[k + 1]? = some hi →
      ∃ lo' hi', edges[k]? = some lo' ∧ edges[k + 1]? = some hi' ∧
        ∀ a, a ∈ inBin e lo hi l ↔ a ∈ l ∧ lo' < E a ∧ E a ≤ hi' := by
    intro k lo hi h1 h2
    have k2 : k + 1 < edges.length := by rw [← hlen]; exact (List.getElem?_eq_some_iff.1 h2).1
    refine ⟨edges[k], edges[k + 1], List.getElem?_eq_getElem _, List.getElem?_eq_getElem _, ?_⟩
    intro a
    simp only [inBin, List.mem_filter, Bool.and_eq_true]
    refine and_congr_right fun ha => ?_
    rw [(hcmp k lo _ h1 (List.getElem?_eq_getElem (by omega)) a ha).2,
      (hcmp (k + 1) hi _ h2 (List.getElem?_eq_getElem k2) a ha).1]
    exact and_comm
  refine ⟨by simpa using hlen, ?_, ?_, ?_, ?_, ?_, ?_, ?_, ?_, ?_⟩
  · intro k u u' hu hu' a ha
    obtain ⟨t, rfl, ht⟩ := hedge' hu'
    rw [Bool.eq_iff_iff, (hcmp k u t hu ht a ha).1]
    simp
  · intro k u u' hu hu' a ha
    obtain ⟨t, rfl, ht⟩ := hedge' hu'
    rw [Bool.eq_iff_iff, (hcmp k u t hu ht a ha).2]
    simp
  · -- the deepest particle
    have hne : l ≠ [] := List.ne_nil_of_mem hd
    obtain ⟨i, x, hi, hix, hi'⟩ := argmin_spec (l := l.map e) (by
      intro v hv
      obtain ⟨a, ha, rfl⟩ := List.mem_map.1 hv
      exact NumOrd.finite_not_nan (he a ha).1) (by simpa using hne)
    obtain ⟨i', x', hi2, hix', hi2'⟩ := argmin_spec (l := l.map fun a => (Ext.fin (E a) : Ext ℝ)) (by
      intro v hv
      obtain ⟨a, ha, rfl⟩ := List.mem_map.1 hv
      rfl) (by simpa using hne)
    rw [hi, hi2]
    rw [List.getElem?_map, Option.map_eq_some_iff] at hix hix'
    obtain ⟨a, ha, rfl⟩ := hix
    obtain ⟨a', ha', rfl⟩ := hix'
    obtain ⟨n, hn, hdn⟩ := List.mem_iff_getElem.1 hd
    have hn' : l[n]? = some d := by rw [List.getElem?_eq_getElem hn, hdn]
    have had : a = d := by
      by_contra hne
      have h1 := (hi' n (e d) (by rw [List.getElem?_map, hn']; rfl)).1
      rw [real_le (he a (List.mem_of_getElem? ha)).1 (he d hd).1, hd1] at h1
      have := (hother a (List.mem_of_getElem? ha) hne).1
      linarith
    have had' : a' = d := by
      by_contra hne
      have h1 := (hi2' n (Ext.fin (E d)) (by rw [List.getElem?_map, hn']; rfl)).1
      rw [Ext.num_le, decide_eq_true_eq, hdE] at h1
      have := (hother a' (List.mem_of_getElem? ha') hne).2
      linarith
    subst had'
    subst had
    rcases Nat.lt_trichotomy i i' with h | h | h
    · have := (hi2' i _ (by rw [List.getElem?_map, ha]; rfl)).2 h
      rw [lt_irrefl'] at this; cases this
    · rw [h]
    · have := (hi' i' _ (by rw [List.getElem?_map, ha']; rfl)).2 h
      rw [lt_irrefl'] at this; cases this
  · exact fun a ha => NumOrd.finite_not_nan (hjabs a ha).1
  · exact fun a ha => rfl
  · intro a ha c hcl htog hne
    have hsb : SameBin E edges a c := by
      rcases htog with ⟨k, lo, hi, h1, h2, h3, h4⟩ | ⟨top, h1, h2, h3⟩
      · obtain ⟨lo', hi', g1, g2, g3⟩ := hbin k lo hi h1 h2
        obtain ⟨-, a1, a2⟩ := (g3 a).1 (by simp [inBin, ha, h3.1, h3.2])
        obtain ⟨-, c1, c2⟩ := (g3 c).1 (by simp [inBin, hcl, h4.1, h4.2])
        exact sameBin_of hs g1 g2 a1 a2 c1 c2
      · rw [List.getLast?_eq_getElem?] at h1
        have k1 : aux.length - 1 < edges.length := by
          rw [← hlen]; exact (List.getElem?_eq_some_iff.1 h1).1
        have g1 : edges[aux.length - 1]? = some edges[aux.length - 1] := List.getElem?_eq_getElem k1
        refine sameBin_top hs (top := edges[aux.length - 1]) ?_ ((hcmp _ _ _ h1 g1 a ha).2.1 h2)
          ((hcmp _ _ _ h1 g1 c hcl).2.1 h3)
        rw [List.getLast?_eq_getElem?, ← hlen]
        exact g1
    obtain ⟨o1, o2, o3⟩ := hord a ha c hcl hsb hne
    refine ⟨?_, ?_⟩
    · rw [Bool.eq_iff_iff, o1]; simp
    · rcases lt_or_gt_of_ne o3 with h | h
      · exact Or.inl (o1.2 h)
      · refine Or.inr ((hord c hcl a ha (fun u hu => (hsb u hu).symm) (Ne.symm hne)).1.2 h)
  · intro k lo hi h1 h2 a ha c hcl hne htop
    obtain ⟨lo', hi', g1, g2, g3⟩ := hbin k lo hi h1 h2
    obtain ⟨al, a1, a2⟩ := (g3 a).1 ha
    obtain ⟨cl, c1, c2⟩ := (g3 c).1 hcl
    have hsb := sameBin_of hs g1 g2 a1 a2 c1 c2
    have hsec := hc.second a al c cl hsb hne (by
      intro d' hd' hsb'
      have b1 := (hsb' lo' (List.mem_of_getElem? g1))
      have b2 := (hsb' hi' (List.mem_of_getElem? g2))
      have d1 : lo' < E d' := by
        by_contra hcon
        have := b1.1 (not_lt.1 hcon); linarith
      have d2 : E d' ≤ hi' := b2.2 a2
      obtain ⟨t1, t2⟩ := htop d' ((g3 d').2 ⟨hd', d1, d2⟩)
      have le' : ∀ x ∈ l, lo' < E x → E x ≤ hi' →
          (Num.abs (j d') <=. Num.abs (j x)) = true → |J d'| ≤ |J x| := by
        intro x hx x1 x2 h
        by_cases hdx : d' = x
        · rw [hdx]
        · exact (hord d' hd' x hx (sameBin_of hs g1 g2 d1 d2 x1 x2) hdx).2.1.1 h
      exact ⟨le' a al a1 a2 t1, fun hne' => le' c cl c1 c2 (t2 hne')⟩)
    obtain ⟨fa, va, ea⟩ := hjabs a al
    obtain ⟨fc, vc, ec⟩ := hjabs c cl
    obtain ⟨o1, o2, o3⟩ := hord c cl a al (fun u hu => (hsb u hu).symm) (Ne.symm hne)
    have hca := (htop c hcl).1
    have hJ : |J c| < |J a| := lt_of_le_of_ne (o2.1 hca) o3
    have hsep := hc.order c cl a al (fun u hu => (hsb u hu).symm) (Ne.symm hne)
    rw [abs_of_neg (by linarith)] at hsep
    have ea' := abs_le.1 ea
    have ec' := abs_le.1 ec
    have hc0 : (0 : ℝ) ≤ value (Num.abs (j c)) := by rw [vc]; exact abs_nonneg _
    have hA0 : (0 : ℝ) < value (Num.abs (j a)) := by linarith [abs_nonneg (J c), ea'.1]
    have hlt := (real_le fc fa).1 hca
    have p49 : (1 : ℝ) / 2 ^ 49 = 2 * (1 / 2 ^ 50) := by norm_num
    have hfar : (1 : ℝ) / 2 ^ 49 < |(value (Num.abs (j c)) - 99 / 100 * value (Num.abs (j a)) : ℝ)| ∧
        ((value (Num.abs (j c)) : ℝ) ≤ 99 / 100 * value (Num.abs (j a)) ↔ |J c| ≤ 99 / 100 * |J a|) := by
      rw [p49]
      rcases le_total (|J c|) (99 / 100 * |J a|) with h | h
      · rw [abs_of_nonpos (by linarith)] at hsec
        have : (value (Num.abs (j c)) : ℝ) < 99 / 100 * value (Num.abs (j a)) - 2 * (1 / 2 ^ 50) := by
          linarith [ea'.1, ec'.2]
        exact ⟨by rw [abs_of_nonpos (by linarith)]; linarith, ⟨fun _ => h, fun _ => by linarith⟩⟩
      · rw [abs_of_nonneg (by linarith)] at hsec
        have : 99 / 100 * (value (Num.abs (j a)) : ℝ) + 2 * (1 / 2 ^ 50) < value (Num.abs (j c)) := by
          linarith [ea'.2, ec'.1]
        exact ⟨by rw [abs_of_nonneg (by linarith)]; linarith, ⟨fun _ => by linarith, fun _ => by linarith⟩⟩
    have htest := second_test fa fc hc0 hlt hA0 (by rw [va]; exact (hj a al).2.2.1) hfar.1
    have hJa : |J a| ≠ 0 := by have := abs_nonneg (J c); linarith
    have hJa0 : 0 < |J a| := lt_of_le_of_ne (abs_nonneg _) (Ne.symm hJa)
    rw [Bool.eq_iff_iff, htest, hfar.2]
    simp only [Ext.num_abs, Ext.num_ofRat, Ext.num_div _ _ hJa, Ext.num_sub, Ext.num_le, decide_eq_true_eq]
    push_cast
    rw [le_sub_comm, div_le_iff₀ hJa0]
    norm_num
  · intro a ha
    obtain ⟨fa, va, ea⟩ := hjabs a ha
    have f0 : Num.isFinite (Num.ofRat 0 : Float64) = true := isFinite_of toExt_zero
    have v0' : value (Num.ofRat 0 : Float64) = 0 := value_eq toExt_zero
    have v0 : (value (Num.ofRat 0 : Float64) : ℝ) = 0 := by rw [v0']; simp
    rw [Bool.eq_iff_iff, real_eq fa f0, v0, va]
    simp only [Ext.num_abs, Ext.num_ofRat, Rat.cast_zero, Ext.num_eq, decide_eq_true_eq, abs_eq_zero]
    refine ⟨fun h => ?_, fun h => (hj a ha).2.2.2 h⟩
    rcases hc.zero a ha with h0 | h0
    · exact h0
    · have := abs_le.1 (hj a ha).2.1
      rw [h] at this
      have : |J a| ≤ η := by rw [abs_le]; constructor <;> linarith [this.1, this.2]
      linarith
  · intro a ha
    have f0 : Num.isFinite (Num.ofRat 0 : Float64) = true := isFinite_of toExt_zero
    have v0' : value (Num.ofRat 0 : Float64) = 0 := value_eq toExt_zero
    have v0 : (value (Num.ofRat 0 : Float64) : ℝ) = 0 := by rw [v0']; simp
    have h1 := hc.neg a ha
    have h2 := abs_le.1 (he a ha).2
    rw [Bool.eq_iff_iff, real_eq (he a ha).1 f0, v0]
    simp only [Ext.num_ofRat, Rat.cast_zero, Ext.num_eq, decide_eq_true_eq]
    exact ⟨fun h => by linarith [h2.1], fun h => by linarith⟩

end GChop
