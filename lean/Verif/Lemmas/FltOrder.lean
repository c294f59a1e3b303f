import Verif.Lemmas.BinaryErr
import Verif.Single

/-!
# Monotonicity of IEEE-754 operations, with NaN

`(b <. a) = false` says that `a ≤ b` unless one of them is NaN.
-/

set_option linter.unusedSectionVars false

namespace GChop
namespace Fmt

/-- rounding to the format, extended to infinities and NaN -/
def rnd (fmt : Fmt) : Ext ℚ → Ext ℚ
  | .fin x => fmt.clip (fmt.srnd x)
  | a => a

end Fmt

namespace Ext
variable {K : Type} [Field K] [LinearOrder K] [IsStrictOrderedRing K]

/-- not larger, or NaN is involved -/
def NotGt (a b : Ext K) : Prop := a = nan ∨ b = nan ∨ le a b = true

theorem NotGt.add {a b c d : Ext K} (h1 : NotGt a b) (h2 : NotGt c d) :
    NotGt (Ext.add a c) (Ext.add b d) := by
  unfold NotGt at *
  cases a <;> cases b <;> cases c <;> cases d <;> simp_all [Ext.add, le]
  linarith

theorem NotGt.neg {a b : Ext K} (h : NotGt a b) : NotGt (Ext.neg b) (Ext.neg a) := by
  unfold NotGt at *
  cases a <;> cases b <;> simp_all [Ext.neg, le]

theorem signInf_pos {x : K} (h : 0 < x) : (signInf x : Ext K) = pinf := by simp [signInf, h]

theorem signInf_zero : (signInf (0 : K) : Ext K) = nan := by simp [signInf]

theorem signInf_neg {x : K} (h : x < 0) : (signInf x : Ext K) = ninf := by
  simp [signInf, h, h.le]

theorem signInf_mono {x y : K} (h : x ≤ y) : NotGt (signInf x : Ext K) (signInf y) := by
  unfold NotGt
  rcases lt_trichotomy x 0 with h1 | rfl | h1
  · rw [signInf_neg h1]
    rcases lt_trichotomy y 0 with h2 | rfl | h2
    · rw [signInf_neg h2]; simp [le]
    · rw [signInf_zero]; simp
    · rw [signInf_pos h2]; simp [le]
  · rw [signInf_zero]; simp
  · rw [signInf_pos h1, signInf_pos (h1.trans_le h)]; simp [le]

/-- division by a number that is not negative (a zero divisor counts as positive) -/
theorem NotGt.div {a b c : Ext K} (h : NotGt a b) (hc : NotGt (fin 0) c) :
    NotGt (Ext.div a c) (Ext.div b c) := by
  cases c with
  | nan => left; cases a <;> rfl
  | ninf => simp [NotGt, le] at hc
  | pinf =>
    unfold NotGt at *
    cases a <;> cases b <;> simp_all [Ext.div, le]
  | fin z =>
    have hz : 0 ≤ z := by simpa [NotGt, le] using hc
    have hz' : ¬ z < 0 := not_lt.2 hz
    cases a with
    | nan => left; rfl
    | pinf =>
      cases b with
      | nan => right; left; rfl
      | pinf => simp only [Ext.div, hz', if_false]; right; right; rfl
      | _ => simp [NotGt, le] at h
    | ninf =>
      right
      cases b with
      | nan => left; rfl
      | fin y =>
        simp only [Ext.div, hz', if_false]
        split_ifs
        · rcases lt_trichotomy y 0 with h2 | rfl | h2
          · rw [signInf_neg h2]; simp [le]
          · rw [signInf_zero]; simp
          · rw [signInf_pos h2]; simp [le]
        · simp [le]
      | _ => simp only [Ext.div, hz', if_false]; right; rfl
    | fin x =>
      cases b with
      | nan => right; left; rfl
      | ninf => simp [NotGt, le] at h
      | pinf =>
        simp only [Ext.div, hz', if_false]
        split_ifs
        · rcases lt_trichotomy x 0 with h2 | rfl | h2
          · rw [signInf_neg h2]; simp [NotGt, le]
          · rw [signInf_zero]; simp [NotGt]
          · rw [signInf_pos h2]; simp [NotGt, le]
        · simp [NotGt, le]
      | fin y =>
        have hxy : x ≤ y := by simpa [NotGt, le] using h
        simp only [Ext.div]
        split_ifs
        · exact signInf_mono hxy
        · simp only [NotGt, le, reduceCtorEq, false_or, decide_eq_true_eq]
          exact div_le_div_of_nonneg_right hxy hz

/-- multiplication by a number that is not negative -/
theorem NotGt.mul {a b c : Ext K} (h : NotGt a b) (hc : NotGt (fin 0) c) :
    NotGt (Ext.mul a c) (Ext.mul b c) := by
  cases c with
  | nan => left; cases a <;> rfl
  | ninf => simp [NotGt, le] at hc
  | pinf =>
    cases a with
    | nan => left; rfl
    | pinf =>
      cases b with
      | nan => right; left; rfl
      | _ => simp_all [NotGt, le, Ext.mul]
    | ninf =>
      right
      cases b with
      | nan => left; rfl
      | fin y =>
        simp only [Ext.mul]
        rcases lt_trichotomy y 0 with h2 | rfl | h2
        · rw [signInf_neg h2]; simp [le]
        · rw [signInf_zero]; simp
        · rw [signInf_pos h2]; simp [le]
      | _ => simp [le, Ext.mul]
    | fin x =>
      cases b with
      | nan => right; left; rfl
      | ninf => simp [NotGt, le] at h
      | pinf =>
        simp only [Ext.mul]
        rcases lt_trichotomy x 0 with h2 | rfl | h2
        · rw [signInf_neg h2]; simp [NotGt, le]
        · rw [signInf_zero]; simp [NotGt]
        · rw [signInf_pos h2]; simp [NotGt, le]
      | fin y =>
        simp only [Ext.mul]
        exact signInf_mono (by simpa [NotGt, le] using h)
  | fin z =>
    have hz : 0 ≤ z := by simpa [NotGt, le] using hc
    rcases hz.eq_or_lt with rfl | hz'
    · cases a <;> cases b <;> simp_all [NotGt, le, Ext.mul, signInf_zero, Ext.neg]
    · cases a <;> cases b <;> simp_all [NotGt, le, Ext.mul, signInf_pos, Ext.neg]

end Ext

namespace Flt
variable {fmt : Fmt}

theorem toExt_nan_iff {a : Flt fmt} : toExt a = .nan ↔ a = nan := by
  cases a with
  | inf s => cases s <;> simp [toExt]
  | _ => simp [toExt]

theorem lt_false_iff {a b : Flt fmt} :
    (b <. a) = false ↔ Ext.NotGt (toExt a) (toExt b) := by
  show (Ext.le (toExt b) (toExt a) && !Ext.le (toExt a) (toExt b)) = false ↔ _
  unfold Ext.NotGt
  cases toExt a <;> cases toExt b <;> simp [Ext.le]
  grind

theorem toExt_ofExact_rnd (z : Bool) (x : ℚ) :
    toExt (ofExact z x : Flt fmt) = fmt.rnd (.fin x) := toExt_ofExact z x

theorem rnd_mono {a b : Ext ℚ} (h : Ext.NotGt a b) : Ext.NotGt (fmt.rnd a) (fmt.rnd b) := by
  have hc : ∀ x : ℚ, Ext.le (fmt.clip x) .pinf = true ∧ Ext.le .ninf (fmt.clip x) = true := by
    intro x
    unfold Fmt.clip
    split_ifs <;> simp [Ext.le]
  cases a with
  | nan => left; rfl
  | pinf =>
    cases b with
    | nan => right; left; rfl
    | _ => simp_all [Ext.NotGt, Ext.le, Fmt.rnd]
  | ninf =>
    right
    cases b with
    | nan => left; rfl
    | fin y => right; exact (hc _).2
    | _ => simp [Ext.le, Fmt.rnd]
  | fin x =>
    cases b with
    | nan => right; left; rfl
    | ninf => simp [Ext.NotGt, Ext.le] at h
    | pinf => right; right; exact (hc _).1
    | fin y =>
      right; right
      exact fmt.clip_mono (fmt.srnd_mono (by simpa [Ext.NotGt, Ext.le] using h))

theorem toExt_add_rnd (a b : Flt fmt) :
    toExt (a +. b) = fmt.rnd (Ext.add (toExt a) (toExt b)) := by
  show toExt (add a b) = _
  cases a with
  | fin s m => cases b with
    | fin t n => exact toExt_ofExact_rnd _ _
    | inf t => cases t <;> rfl
    | nan => rfl
  | inf s => cases b with
    | fin t n => cases s <;> rfl
    | inf t => cases s <;> cases t <;> rfl
    | nan => cases s <;> rfl
  | nan => rfl

theorem sval_cases (s : Bool) (m : fmt.Mag) (h : m.val ≠ 0) :
    (s = false ∧ 0 < sval s m) ∨ (s = true ∧ sval s m < 0) := by
  have := lt_of_le_of_ne m.nonneg (Ne.symm h)
  cases s <;> simp [sval, this]

theorem toExt_mul_rnd (a b : Flt fmt) :
    toExt (a *. b) = fmt.rnd (Ext.mul (toExt a) (toExt b)) := by
  show toExt (mul a b) = _
  have aux : ∀ (s t : Bool) (m : fmt.Mag), toExt (if m.val = 0 then nan else inf (s != t) : Flt fmt)
      = fmt.rnd (if t then Ext.neg (Ext.signInf (sval s m)) else Ext.signInf (sval s m)) := by
    intro s t m
    split_ifs with h ht ht
    · rw [sval_of_zero h, Ext.signInf_zero]; rfl
    · rw [sval_of_zero h, Ext.signInf_zero]; rfl
    · rcases sval_cases s m h with ⟨rfl, h2⟩ | ⟨rfl, h2⟩
      · rw [Ext.signInf_pos h2, ht]; rfl
      · rw [Ext.signInf_neg h2, ht]; rfl
    · rcases sval_cases s m h with ⟨rfl, h2⟩ | ⟨rfl, h2⟩
      · rw [Ext.signInf_pos h2]; cases t <;> simp_all [toExt, Fmt.rnd]
      · rw [Ext.signInf_neg h2]; cases t <;> simp_all [toExt, Fmt.rnd]
  cases a with
  | fin s m => cases b with
    | fin t n => exact toExt_ofExact_rnd _ _
    | inf t =>
      refine (aux s t m).trans ?_
      cases t <;> rfl
    | nan => rfl
  | inf s => cases b with
    | fin t n =>
      have := aux t s n
      rw [bne_comm] at this
      refine this.trans ?_
      cases s <;> rfl
    | inf t => cases s <;> cases t <;> rfl
    | nan => cases s <;> rfl
  | nan => rfl

theorem toExt_neg' (a : Flt fmt) : toExt (Num.neg a) = Ext.neg (toExt a) := by
  show toExt (neg a) = _
  cases a with
  | fin s m => simp [neg, toExt, sval_not, Ext.neg]
  | inf s => cases s <;> rfl
  | nan => rfl

/-- a number without a minus sign, or NaN -/
def Plus (a : Flt fmt) : Prop := a = nan ∨ a = inf false ∨ ∃ m, a = fin false m

theorem Plus.toExt {a : Flt fmt} (h : Plus a) : Ext.NotGt (.fin 0) (toExt a) := by
  rcases h with rfl | rfl | ⟨m, rfl⟩
  · right; left; rfl
  · right; right; rfl
  · right; right
    exact decide_eq_true m.nonneg

/-- division by a number without a minus sign -/
theorem toExt_div_rnd (a : Flt fmt) {b : Flt fmt} (h : Plus b) :
    toExt (a /. b) = fmt.rnd (Ext.div (toExt a) (toExt b)) := by
  show toExt (div a b) = _
  rcases h with rfl | rfl | ⟨n, rfl⟩
  · cases a with
    | inf s => cases s <;> rfl
    | _ => rfl
  · cases a with
    | fin s m => exact toExt_ofExact_rnd _ _
    | inf s => cases s <;> rfl
    | nan => rfl
  · have hn : sval false n = n.val := rfl
    cases a with
    | fin s m =>
      rw [div_fin]
      simp only [toExt, Ext.div, hn]
      split_ifs with h1 h2
      · rw [sval_of_zero h2, Ext.signInf_zero]; rfl
      · rcases sval_cases s m h2 with ⟨rfl, h3⟩ | ⟨rfl, h3⟩
        · rw [Ext.signInf_pos h3]; rfl
        · rw [Ext.signInf_neg h3]; rfl
      · exact toExt_ofExact_rnd _ _
    | inf s =>
      have : ¬ n.val < 0 := not_lt.2 n.nonneg
      cases s <;> simp [toExt, Ext.div, hn, this, div, Fmt.rnd]
    | nan => rfl

theorem plus_ofExact {x : ℚ} (h : 0 ≤ x) : Plus (ofExact false x : Flt fmt) := by
  have hs : (if x = 0 then false else decide (x < 0)) = false := by
    split_ifs
    · rfl
    · simpa using h
  unfold ofExact
  simp only [hs]
  split_ifs with h1
  · exact Or.inr (Or.inr ⟨_, rfl⟩)
  · exact Or.inr (Or.inl rfl)

theorem plus_sq (a : Flt fmt) : Plus (Num.sq a) := by
  show Plus (mul a a)
  cases a with
  | fin s m =>
    rw [mul_fin, show (s != s) = false by simp]
    exact plus_ofExact (mul_self_nonneg _)
  | inf s => exact Or.inr (Or.inl (by cases s <;> rfl))
  | nan => exact Or.inl rfl

theorem Plus.add {a b : Flt fmt} (ha : Plus a) (hb : Plus b) : Plus (a +. b) := by
  show Plus (Flt.add a b)
  rcases ha with rfl | rfl | ⟨m, rfl⟩
  · exact Or.inl rfl
  · rcases hb with rfl | rfl | ⟨n, rfl⟩
    · exact Or.inl rfl
    · exact Or.inr (Or.inl rfl)
    · exact Or.inr (Or.inl rfl)
  · rcases hb with rfl | rfl | ⟨n, rfl⟩
    · exact Or.inl rfl
    · exact Or.inr (Or.inl rfl)
    · rw [add_fin]
      exact plus_ofExact (add_nonneg m.nonneg n.nonneg)

theorem sticky_nonneg (x : ℚ) : 0 ≤ sqrtSticky fmt x := by
  unfold sqrtSticky
  dsimp only
  refine div_nonneg ?_ (by positivity)
  split_ifs <;> positivity

theorem Plus.sqrt {a : Flt fmt} (ha : Plus a) : Plus (Num.sqrt a) := by
  show Plus (Flt.sqrt a)
  rcases ha with rfl | rfl | ⟨m, rfl⟩
  · exact Or.inl rfl
  · exact Or.inr (Or.inl rfl)
  · simp only [Flt.sqrt]
    split_ifs
    · exact Or.inr (Or.inr ⟨m, rfl⟩)
    · exact Or.inl rfl
    · exact plus_ofExact (sticky_nonneg _)

/-! ### Comparisons -/

theorem lt_add {a b c d : Flt fmt} (h1 : (b <. a) = false) (h2 : (d <. c) = false) :
    ((b +. d) <. (a +. c)) = false := by
  rw [lt_false_iff] at *
  rw [toExt_add_rnd, toExt_add_rnd]
  exact rnd_mono (h1.add h2)

theorem lt_neg {a b : Flt fmt} (h : (b <. a) = false) : (Num.neg a <. Num.neg b) = false := by
  rw [lt_false_iff] at *
  rw [toExt_neg', toExt_neg']
  exact h.neg

theorem lt_mul {a b c : Flt fmt} (h : (b <. a) = false) (hc : (c <. Num.ofRat 0) = false) :
    ((b *. c) <. (a *. c)) = false := by
  rw [lt_false_iff] at *
  rw [toExt_mul_rnd, toExt_mul_rnd]
  refine rnd_mono (h.mul ?_)
  have : toExt (Num.ofRat 0 : Flt fmt) = .fin 0 := toExt_zero
  rwa [this] at hc

theorem lt_div {a b c : Flt fmt} (h : (b <. a) = false) (hc : Plus c) :
    ((b /. c) <. (a /. c)) = false := by
  rw [lt_false_iff] at *
  rw [toExt_div_rnd _ hc, toExt_div_rnd _ hc]
  exact rnd_mono (h.div hc.toExt)

theorem toExt_cast {f g : Fmt} (a : Flt f) : toExt (cast a : Flt g) = g.rnd (toExt a) := by
  cases a with
  | fin s m => exact toExt_ofExact_rnd _ _
  | inf s => cases s <;> rfl
  | nan => rfl

theorem lt_cast {f g : Fmt} {a b : Flt f} (h : (b <. a) = false) :
    ((cast b : Flt g) <. cast a) = false := by
  rw [lt_false_iff] at *
  rw [toExt_cast, toExt_cast]
  exact rnd_mono h

/-! ### Signs -/

theorem not_neg_iff {a : Flt fmt} : (a <. Num.ofRat 0) = false ↔ Ext.NotGt (.fin 0) (toExt a) := by
  rw [lt_false_iff, show toExt (Num.ofRat 0 : Flt fmt) = .fin 0 from toExt_zero]

theorem rnd_zero : fmt.rnd (.fin 0) = .fin 0 := by
  rw [← toExt_ofExact_rnd false, toExt_zero]

theorem add_not_neg {a b : Flt fmt} (h1 : (a <. Num.ofRat 0) = false)
    (h2 : (b <. Num.ofRat 0) = false) : ((a +. b) <. Num.ofRat 0) = false := by
  rw [not_neg_iff] at *
  rw [toExt_add_rnd, ← rnd_zero (fmt := fmt)]
  have := h1.add h2
  simp only [Ext.add, add_zero] at this
  exact rnd_mono this

theorem div_not_neg {a b : Flt fmt} (h1 : (a <. Num.ofRat 0) = false) (hb : Plus b) :
    ((a /. b) <. Num.ofRat 0) = false := by
  rw [not_neg_iff] at *
  rw [toExt_div_rnd _ hb, ← rnd_zero (fmt := fmt)]
  apply rnd_mono
  have hb := hb.toExt
  generalize toExt a = a at *
  generalize toExt b = b at *
  cases b with
  | nan => right; left; cases a <;> rfl
  | ninf => simp [Ext.NotGt, Ext.le] at hb
  | pinf => cases a <;> simp_all [Ext.NotGt, Ext.le, Ext.div]
  | fin z =>
    have hz : 0 ≤ z := by simpa [Ext.NotGt, Ext.le] using hb
    have hz' : ¬ z < 0 := not_lt.2 hz
    cases a with
    | nan => right; left; rfl
    | ninf => simp [Ext.NotGt, Ext.le] at h1
    | pinf => right; right; simp [Ext.div, hz', Ext.le]
    | fin x =>
      have hx : 0 ≤ x := by simpa [Ext.NotGt, Ext.le] using h1
      simp only [Ext.div]
      split_ifs
      · rcases hx.eq_or_lt with rfl | hx
        · rw [Ext.signInf_zero]; right; left; rfl
        · rw [Ext.signInf_pos hx]; right; right; rfl
      · right; right
        exact decide_eq_true (div_nonneg hx hz)

theorem mul_not_neg {a b : Flt fmt} (h1 : (a <. Num.ofRat 0) = false)
    (h2 : (b <. Num.ofRat 0) = false) : ((a *. b) <. Num.ofRat 0) = false := by
  rw [not_neg_iff] at *
  rw [toExt_mul_rnd, ← rnd_zero (fmt := fmt)]
  apply rnd_mono
  generalize toExt a = a at *
  generalize toExt b = b at *
  cases b with
  | nan => right; left; cases a <;> rfl
  | ninf => simp [Ext.NotGt, Ext.le] at h2
  | pinf =>
    cases a with
    | nan => right; left; rfl
    | ninf => simp [Ext.NotGt, Ext.le] at h1
    | pinf => right; right; rfl
    | fin x =>
      have hx : 0 ≤ x := by simpa [Ext.NotGt, Ext.le] using h1
      rcases hx.eq_or_lt with rfl | hx
      · right; left; exact Ext.signInf_zero
      · right; right; simp [Ext.mul, Ext.signInf_pos hx, Ext.le]
  | fin z =>
    have hz : 0 ≤ z := by simpa [Ext.NotGt, Ext.le] using h2
    cases a with
    | nan => right; left; rfl
    | ninf => simp [Ext.NotGt, Ext.le] at h1
    | pinf =>
      rcases hz.eq_or_lt with rfl | hx
      · right; left; exact Ext.signInf_zero
      · right; right; simp [Ext.mul, Ext.signInf_pos hx, Ext.le]
    | fin x =>
      have hx : 0 ≤ x := by simpa [Ext.NotGt, Ext.le] using h1
      right; right
      exact decide_eq_true (mul_nonneg hx hz)

theorem cast_not_neg {f g : Fmt} {a : Flt f} (h : (a <. Num.ofRat 0) = false) :
    ((cast a : Flt g) <. Num.ofRat 0) = false := by
  rw [not_neg_iff] at *
  rw [toExt_cast, ← rnd_zero (fmt := g)]
  exact rnd_mono h

theorem neg_not_pos {a : Flt fmt} (h : (a <. Num.ofRat 0) = false) :
    (Num.ofRat 0 <. Num.neg a) = false := by
  rw [not_neg_iff] at h
  rw [lt_false_iff, toExt_neg', show toExt (Num.ofRat 0 : Flt fmt) = .fin 0 from toExt_zero]
  have := h.neg
  simpa [Ext.neg] using this

theorem cast_not_pos {f g : Fmt} {a : Flt f} (h : (Num.ofRat 0 <. a) = false) :
    (Num.ofRat 0 <. (cast a : Flt g)) = false := by
  rw [lt_false_iff] at *
  rw [show toExt (Num.ofRat 0 : Flt f) = .fin 0 from toExt_zero] at h
  rw [toExt_cast, show toExt (Num.ofRat 0 : Flt g) = .fin 0 from toExt_zero,
    ← rnd_zero (fmt := g)]
  exact rnd_mono h

theorem sum_not_neg {l : List (Flt fmt)} (h : ∀ a ∈ l, (a <. Num.ofRat 0) = false) :
    (Num.sum l <. Num.ofRat 0) = false := by
  have aux : ∀ (l : List (Flt fmt)) (s : Flt fmt), (∀ a ∈ l, (a <. Num.ofRat 0) = false) →
      (s <. Num.ofRat 0) = false → (l.foldl add s <. Num.ofRat 0) = false := by
    intro l
    induction l with
    | nil => exact fun s _ h => h
    | cons a l ih =>
      intro s h1 h2
      exact ih _ (fun c hc => h1 c (List.mem_cons_of_mem _ hc))
        (add_not_neg h2 (h1 a List.mem_cons_self))
  refine aux l _ h ?_
  rw [not_neg_iff]
  show Ext.NotGt _ (toExt (ofExact false 0 : Flt fmt))
  rw [toExt_zero]
  right; right; simp [Ext.le]

end Flt
end GChop
