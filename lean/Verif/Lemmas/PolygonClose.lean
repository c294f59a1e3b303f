import Verif.Props.DoubleInterp

/-! # Heights of polygons: the exact interpolation, and polygons with close corners -/

namespace GChop

open Ext

/-! ### `np.interp` in exact arithmetic -/

/-- interpolation in an increasing table of real numbers gives the height of the polygon -/
theorem interp1_polygon {locate : List (Ext ℝ) → Ext ℝ → Nat} (hl : Np.LocateOK locate)
    (pts : List (ℝ × ℝ)) (hne : pts ≠ []) (hx : pts.Pairwise fun p q => p.1 < q.1) (k : ℝ) :
    ∃ L : ℝ, Np.interp1 locate (pts.map fun p => fin p.1) (pts.map fun p => fin p.2) (fin k) = fin L ∧
      OnPolygon (pts.map (·.1)) (pts.map (·.2)) k L := by
  have hat : ∀ (f : ℝ × ℝ → ℝ) (k : Nat) (hk : k < pts.length),
      (pts.map fun p => (fin (f p) : Ext ℝ)).getD k Num.nan = fin (f pts[k]) := by
    intro f k hk
    simp [List.getD, hk]
  have hpos : 0 < pts.length := List.length_pos_iff.2 hne
  have hhead : ∀ f : ℝ × ℝ → ℝ, (pts.map f).head? = some (f pts[0]) := by
    intro f
    rw [List.head?_eq_getElem?]
    simp [hpos]
  have hlast : ∀ f : ℝ × ℝ → ℝ, (pts.map f).getLast? = some (f pts[pts.length - 1]) := by
    intro f
    rw [List.getLast?_eq_getElem?]
    simp [hpos]
  unfold Np.interp1
  simp only [List.length_map]
  split
  · rename_i h1
    rw [hat (fun p => p.2) 0 hpos]
    refine ⟨_, rfl, ?_⟩
    rcases le_total k pts[0].1 with h | h
    · exact Or.inl ⟨_, hhead _, h, hhead _⟩
    · refine Or.inr (Or.inl ⟨_, hlast _, ?_, ?_⟩)
      · simpa [h1] using h
      · rw [hlast]; simp [h1]
  rename_i h1
  simp only [num_isNaN, Bool.false_eq_true, if_false]
  rw [hat (fun p => p.1) (pts.length - 1) (by omega), hat (fun p => p.2) (pts.length - 1) (by omega),
    hat (fun p => p.1) 0 hpos, hat (fun p => p.2) 0 hpos]
  split
  · rename_i h2
    simp only [num_lt, decide_eq_true_eq] at h2
    exact ⟨_, rfl, Or.inr (Or.inl ⟨_, hlast _, h2.le, hlast _⟩)⟩
  rename_i h2
  split
  · rename_i h3
    simp only [num_lt, decide_eq_true_eq] at h3
    exact ⟨_, rfl, Or.inl ⟨_, hhead _, h3.le, hhead _⟩⟩
  rename_i h3
  simp only [num_lt, decide_eq_true_eq, not_lt] at h2 h3
  obtain ⟨hj, hsorted⟩ := hl (pts.map fun p => fin p.1) (fin k) (by simpa using hne)
  rw [List.length_map] at hj
  obtain ⟨ha, hb⟩ := hsorted (by
      rw [List.pairwise_map]
      exact hx.imp fun h => by simpa using h.le) (by
      intro a ha
      rw [List.getElem?_map, List.getElem?_eq_getElem hpos] at ha
      cases ha
      simpa using h3)
  generalize locate (pts.map fun p => fin p.1) (fin k) = j at *
  have hka : pts[j].1 ≤ k := by
    have := ha _ (by rw [List.getElem?_map, List.getElem?_eq_getElem hj]; rfl)
    simpa using this
  rw [hat (fun p => p.1) j hj, hat (fun p => p.2) j hj]
  split
  · rename_i h4
    subst h4
    exact ⟨_, rfl, Or.inr (Or.inl ⟨_, hlast _, hka, hlast _⟩)⟩
  rename_i h4
  have hj1 : j + 1 < pts.length := by omega
  have hxx : pts[j].1 < pts[j + 1].1 := List.pairwise_iff_getElem.1 hx j (j + 1) hj hj1 (by omega)
  have hkb : k < pts[j + 1].1 := by
    have := hb (j + 1) _ (by omega) (by rw [List.getElem?_map, List.getElem?_eq_getElem hj1]; rfl)
    simpa using this
  have hget : ∀ (f : ℝ × ℝ → ℝ) (i : Nat) (hi : i < pts.length), (pts.map f)[i]? = some (f pts[i]) := by
    intro f i hi
    simp [hi]
  split
  · rename_i h5
    simp only [num_eq, decide_eq_true_eq] at h5
    refine ⟨_, rfl, Or.inr (Or.inr ⟨j, _, _, _, _, hget _ j hj, hget _ _ hj1, hget _ j hj, hget _ _ hj1,
      hka, hkb, ?_⟩)⟩
    rw [← h5]; simp
  rw [hat (fun p => p.1) (j + 1) hj1, hat (fun p => p.2) (j + 1) hj1]
  have hd : 0 < pts[j + 1].1 - pts[j].1 := by linarith
  rw [num_sub, num_sub, num_div _ _ hd.ne', num_sub, num_mul, num_add, num_isNaN]
  simp only [Bool.false_eq_true, if_false]
  refine ⟨_, rfl, Or.inr (Or.inr ⟨j, _, _, _, _, hget _ j hj, hget _ _ hj1, hget _ j hj, hget _ _ hj1,
      hka, hkb, ?_⟩)⟩
  field_simp
  ring

/-! ### Heights of close polygons -/

/-- `L` is the height at `t` of the polygon through `(X 0, Y 0), ..., (X (n - 1), Y (n - 1))` -/
def OnCorners (n : Nat) (X Y : Nat → ℝ) (t L : ℝ) : Prop :=
  (t ≤ X 0 ∧ L = Y 0) ∨ (X (n - 1) ≤ t ∧ L = Y (n - 1)) ∨
    ∃ i, i + 1 < n ∧ X i ≤ t ∧ t < X (i + 1) ∧
      L = Y i + (Y (i + 1) - Y i) * ((t - X i) / (X (i + 1) - X i))

theorem onCorners_of {xs ys : List ℝ} (hlen : xs.length = ys.length) (hne : xs ≠ []) {t L : ℝ}
    (h : OnPolygon xs ys t L) :
    OnCorners xs.length (fun i => xs.getD i 0) (fun i => ys.getD i 0) t L := by
  have hpos : 0 < xs.length := List.length_pos_iff.2 hne
  rcases h with ⟨x, h1, h2, h3⟩ | ⟨x, h1, h2, h3⟩ | ⟨i, x0, x1, y0, y1, h1, h2, h3, h4, h5, h6, h7⟩
  · left
    rw [List.head?_eq_getElem?] at h1 h3
    simp [List.getD, h1, h3, h2]
  · right; left
    rw [List.getLast?_eq_getElem?] at h1 h3
    rw [← hlen] at h3
    simp [List.getD, h1, h3, h2]
  · right; right
    exact ⟨i, (List.getElem?_eq_some_iff.1 h2).1, by simp [List.getD, h1, h5], by simp [List.getD, h2, h6],
      by simp [List.getD, h1, h2, h3, h4, h7]⟩

theorem corners_range {n : Nat} {X Y : Nat → ℝ} {t L : ℝ} (hn : 0 < n)
    (hy : ∀ i < n, 0 ≤ Y i ∧ Y i ≤ 1) (h : OnCorners n X Y t L) : 0 ≤ L ∧ L ≤ 1 := by
  rcases h with ⟨-, rfl⟩ | ⟨-, rfl⟩ | ⟨i, h1, h2, h3, rfl⟩
  · exact hy 0 hn
  · exact hy (n - 1) (by omega)
  · have hd : 0 < X (i + 1) - X i := by linarith
    have r0 : 0 ≤ (t - X i) / (X (i + 1) - X i) := div_nonneg (by linarith) hd.le
    have r1 : (t - X i) / (X (i + 1) - X i) ≤ 1 := (div_le_one hd).2 (by linarith)
    exact mix_range (hy i (by omega)).1 (hy i (by omega)).2 (hy _ h1).1 (hy _ h1).2 r0 r1

/-- the height changes by at most the distance over the gap of the corners, from a corner -/
theorem corner_lip {n : Nat} {X Y : Nat → ℝ} {γ t L : ℝ} (hγ : 0 < γ)
    (hx : ∀ i k, i < k → k < n → γ ≤ X k - X i) (hy : ∀ i < n, 0 ≤ Y i ∧ Y i ≤ 1)
    (h : OnCorners n X Y t L) {k : Nat} (hk : k < n) : |L - Y k| ≤ |t - X k| / γ := by
  have hL := corners_range (by omega) hy h
  have hYk := hy k hk
  have far : γ ≤ |t - X k| → |L - Y k| ≤ |t - X k| / γ := by
    intro h
    have h1 : (1 : ℝ) ≤ |t - X k| / γ := (one_le_div hγ).2 h
    refine le_trans ?_ h1
    rw [abs_le]
    constructor <;> linarith [hL.1, hL.2, hYk.1, hYk.2]
  rcases h with ⟨h1, rfl⟩ | ⟨h1, rfl⟩ | ⟨i, hi, h1, h2, rfl⟩
  · rcases Nat.eq_zero_or_pos k with rfl | hk0
    · simp; positivity
    · refine far ?_
      have := hx 0 k hk0 hk
      rw [abs_of_nonpos (by linarith)]
      linarith
  · by_cases hkn : k = n - 1
    · subst hkn; simp; positivity
    · refine far ?_
      have := hx k (n - 1) (by omega) (by omega)
      rw [abs_of_nonneg (by linarith)]
      linarith
  · have hd : γ ≤ X (i + 1) - X i := hx i (i + 1) (by omega) hi
    have hd0 : 0 < X (i + 1) - X i := by linarith
    have hYi := hy i (by omega)
    have hYj := hy (i + 1) hi
    have hab : |Y (i + 1) - Y i| ≤ 1 := by
      rw [abs_le]; constructor <;> linarith [hYi.1, hYi.2, hYj.1, hYj.2]
    rcases lt_trichotomy k i with hki | rfl | hki
    · refine far ?_
      have := hx k i hki (by omega)
      rw [abs_of_nonneg (by linarith)]
      linarith
    · rw [add_sub_cancel_left, abs_mul, abs_of_nonneg (div_nonneg (sub_nonneg.2 h1) hd0.le),
        abs_of_nonneg (sub_nonneg.2 h1)]
      have e1 : (t - X k) / (X (k + 1) - X k) ≤ (t - X k) / γ :=
        div_le_div_of_nonneg_left (by linarith) hγ hd
      have e2 : 0 ≤ (t - X k) / (X (k + 1) - X k) := div_nonneg (by linarith) hd0.le
      calc |Y (k + 1) - Y k| * ((t - X k) / (X (k + 1) - X k))
          ≤ 1 * ((t - X k) / (X (k + 1) - X k)) := mul_le_mul_of_nonneg_right hab e2
        _ ≤ _ := by rw [one_mul]; exact e1
    · by_cases hk1 : k = i + 1
      · subst hk1
        have e0 : Y i + (Y (i + 1) - Y i) * ((t - X i) / (X (i + 1) - X i)) - Y (i + 1)
            = -((Y (i + 1) - Y i) * ((X (i + 1) - t) / (X (i + 1) - X i))) := by
          field_simp; ring
        rw [e0, abs_neg, abs_mul, abs_of_nonneg (div_nonneg (sub_nonneg.2 h2.le) hd0.le),
          abs_of_nonpos (show t - X (i + 1) ≤ 0 by linarith), neg_sub]
        have e1 : (X (i + 1) - t) / (X (i + 1) - X i) ≤ (X (i + 1) - t) / γ :=
          div_le_div_of_nonneg_left (by linarith) hγ hd
        have e2 : 0 ≤ (X (i + 1) - t) / (X (i + 1) - X i) := div_nonneg (by linarith) hd0.le
        calc |Y (i + 1) - Y i| * ((X (i + 1) - t) / (X (i + 1) - X i))
            ≤ 1 * ((X (i + 1) - t) / (X (i + 1) - X i)) := mul_le_mul_of_nonneg_right hab e2
          _ ≤ _ := by rw [one_mul]; exact e1
      · refine far ?_
        have := hx (i + 1) k (by omega) hk
        rw [abs_of_nonpos (by linarith)]
        linarith

/-- the height changes by at most the distance over the gap of the corners -/
theorem corners_lip {n : Nat} {X Y : Nat → ℝ} {γ t u L M : ℝ} (hn : 0 < n) (hγ : 0 < γ)
    (hx : ∀ i k, i < k → k < n → γ ≤ X k - X i) (hy : ∀ i < n, 0 ≤ Y i ∧ Y i ≤ 1)
    (h : OnCorners n X Y t L) (h' : OnCorners n X Y u M) : |L - M| ≤ |t - u| / γ := by
  wlog htu : t ≤ u generalizing t u L M
  · rw [abs_sub_comm L, abs_sub_comm t]
    exact this h' h (le_of_not_ge htu)
  -- a corner in between
  have mid : ∀ k < n, t ≤ X k → X k ≤ u → |L - M| ≤ |t - u| / γ := by
    intro k hk h1 h2
    have e1 := corner_lip hγ hx hy h hk
    have e2 := corner_lip hγ hx hy h' hk
    rw [abs_of_nonpos (show t - X k ≤ 0 by linarith)] at e1
    rw [abs_of_nonneg (show 0 ≤ u - X k by linarith)] at e2
    rw [abs_of_nonpos (show t - u ≤ 0 by linarith)]
    have e3 : |L - M| ≤ |L - Y k| + |M - Y k| := by
      have := abs_sub_le L (Y k) M
      rwa [abs_sub_comm (Y k) M] at this
    have e4 : -(t - u) / γ = -(t - X k) / γ + (u - X k) / γ := by ring
    linarith
  have zero : L = M → |L - M| ≤ |t - u| / γ := by
    rintro rfl; simp; positivity
  have mono : ∀ i k, i ≤ k → k < n → X i ≤ X k := by
    intro i k hik hk
    rcases hik.lt_or_eq with h | rfl
    · have := hx i k h hk; linarith
    · exact le_rfl
  rcases h with ⟨h1, rfl⟩ | ⟨h1, rfl⟩ | ⟨i, hi, h1, h2, hL⟩
  · by_cases hu : X 0 ≤ u
    · exact mid 0 hn h1 hu
    · rcases h' with ⟨-, rfl⟩ | ⟨g1, rfl⟩ | ⟨k, hk, g1, g2, rfl⟩
      · exact zero rfl
      · have := mono 0 (n - 1) (by omega) (by omega); linarith
      · have := mono 0 k (by omega) (by omega); linarith
  · rcases h' with ⟨g1, rfl⟩ | ⟨g1, rfl⟩ | ⟨k, hk, g1, g2, rfl⟩
    · have := mono 0 (n - 1) (by omega) (by omega)
      exact mid 0 hn (by linarith) (by linarith)
    · exact zero rfl
    · have := mono (k + 1) (n - 1) (by omega) (by omega); linarith
  · by_cases hu : X (i + 1) ≤ u
    · exact mid (i + 1) hi h2.le hu
    · rcases h' with ⟨g1, -⟩ | ⟨g1, -⟩ | ⟨k, hk, g1, g2, hM⟩
      · have := mono 0 i (by omega) (by omega)
        exact mid i (by omega) (by linarith) (by linarith)
      · have := mono (i + 1) (n - 1) (by omega) (by omega); linarith
      · have hki : k = i := by
          by_contra hne
          rcases Nat.lt_or_gt_of_ne hne with hlt | hlt
          · have := mono (k + 1) i (by omega) (by omega); linarith
          · have := mono (i + 1) k (by omega) (by omega); linarith
        subst hki
        have hd : γ ≤ X (k + 1) - X k := hx k (k + 1) (by omega) hi
        have hd0 : 0 < X (k + 1) - X k := by linarith
        have hYi := hy k (by omega)
        have hYj := hy (k + 1) hi
        have hab : |Y (k + 1) - Y k| ≤ 1 := by
          rw [abs_le]; constructor <;> linarith [hYi.1, hYi.2, hYj.1, hYj.2]
        have e0 : L - M = (Y (k + 1) - Y k) * ((t - u) / (X (k + 1) - X k)) := by
          rw [hL, hM]; field_simp; ring
        rw [e0, abs_mul, abs_div, abs_of_pos hd0]
        have e1 : |t - u| / (X (k + 1) - X k) ≤ |t - u| / γ :=
          div_le_div_of_nonneg_left (abs_nonneg _) hγ hd
        have e2 : 0 ≤ |t - u| / (X (k + 1) - X k) := by positivity
        calc |Y (k + 1) - Y k| * (|t - u| / (X (k + 1) - X k))
            ≤ 1 * (|t - u| / (X (k + 1) - X k)) := mul_le_mul_of_nonneg_right hab e2
          _ ≤ _ := by rw [one_mul]; exact e1

/-- **Two polygons with close corners have close heights.** -/
theorem corners_close {n : Nat} {X Y X' Y' : Nat → ℝ} {γ δ t u L M : ℝ} (hn : 0 < n) (hγ : 0 < γ)
    (hx : ∀ i k, i < k → k < n → γ ≤ X' k - X' i) (hy : ∀ i < n, 0 ≤ Y' i ∧ Y' i ≤ 1)
    (dx : ∀ i < n, |X i - X' i| ≤ δ) (dy : ∀ i < n, |Y i - Y' i| ≤ δ) (dt : |t - u| ≤ δ)
    (hinc : ∀ i k, i < k → k < n → X i < X k)
    (h : OnCorners n X Y t L) (h' : OnCorners n X' Y' u M) : |L - M| ≤ δ + 2 * δ / γ := by
  have hδ : 0 ≤ δ := (abs_nonneg _).trans dt
  -- a point of the second polygon near the point of the first one
  obtain ⟨v, P, hP, hv, hLP⟩ : ∃ v P, OnCorners n X' Y' v P ∧ |v - t| ≤ δ ∧ |L - P| ≤ δ := by
    rcases h with ⟨h1, rfl⟩ | ⟨h1, rfl⟩ | ⟨i, hi, h1, h2, rfl⟩
    · have := abs_le.1 (dx 0 hn)
      refine ⟨t - δ, Y' 0, Or.inl ⟨by linarith, rfl⟩, ?_, dy 0 hn⟩
      rw [sub_sub_cancel_left, abs_neg, abs_of_nonneg hδ]
    · have := abs_le.1 (dx (n - 1) (by omega))
      refine ⟨t + δ, Y' (n - 1), Or.inr (Or.inl ⟨by linarith, rfl⟩), ?_, dy _ (by omega)⟩
      rw [add_sub_cancel_left, abs_of_nonneg hδ]
    · have hd : 0 < X (i + 1) - X i := by have := hinc i (i + 1) (by omega) hi; linarith
      have hd' : 0 < X' (i + 1) - X' i := by have := hx i (i + 1) (by omega) hi; linarith
      set s := (t - X i) / (X (i + 1) - X i) with hs
      have s0 : 0 ≤ s := div_nonneg (by linarith) hd.le
      have s1 : s < 1 := (div_lt_one hd).2 (by linarith)
      have ht : t = X i + s * (X (i + 1) - X i) := by rw [hs]; field_simp; ring
      have mix : ∀ {a b a' b' : ℝ}, |a - a'| ≤ δ → |b - b'| ≤ δ →
          |(a' + s * (b' - a')) - (a + s * (b - a))| ≤ δ := by
        intro a b a' b' h1 h2
        have e : (a' + s * (b' - a')) - (a + s * (b - a)) = -((1 - s) * (a - a') + s * (b - b')) := by
          ring
        rw [e, abs_neg]
        have e1 : |(1 - s) * (a - a')| ≤ (1 - s) * δ := by
          rw [abs_mul, abs_of_nonneg (by linarith)]
          exact mul_le_mul_of_nonneg_left h1 (by linarith)
        have e2 : |s * (b - b')| ≤ s * δ := by
          rw [abs_mul, abs_of_nonneg s0]
          exact mul_le_mul_of_nonneg_left h2 s0
        refine (abs_add_le _ _).trans ?_
        linarith
      refine ⟨X' i + s * (X' (i + 1) - X' i), Y' i + s * (Y' (i + 1) - Y' i),
        Or.inr (Or.inr ⟨i, hi, ?_, ?_, ?_⟩), ?_, ?_⟩
      · have := mul_nonneg s0 hd'.le; linarith
      · have := mul_lt_mul_of_pos_right s1 hd'; linarith
      · have : (X' i + s * (X' (i + 1) - X' i) - X' i) / (X' (i + 1) - X' i) = s := by
          field_simp; ring
        rw [this]; ring
      · rw [ht]
        have := mix (dx i (by omega)) (dx _ hi)
        convert this using 3
      · have := mix (dy i (by omega)) (dy _ hi)
        rw [abs_sub_comm]
        convert this using 3
        ring
  have h1 := corners_lip hn hγ hx hy hP h'
  have h2 : |v - u| ≤ 2 * δ := by
    have := abs_sub_le v t u; linarith
  have h3 : |v - u| / γ ≤ 2 * δ / γ := div_le_div_of_nonneg_right h2 hγ.le
  have := abs_sub_le L P M
  linarith

end GChop
