import Verif.Py

/-!
# Dictionaries
-/

namespace GChop.Dict

variable {κ ν : Type} [DecidableEq κ]

theorem get?_set_eq (d : Dict κ ν) (k : κ) (v : ν) (k' : κ) :
    get? (set d k v) k' = if k = k' then some v else get? d k' := by
  induction d with
  | nil => simp [set, get?]
  | cons kv d ih =>
    obtain ⟨a, b⟩ := kv
    by_cases h : a = k
    · subst h
      by_cases h2 : a = k' <;> simp [set, get?, h2]
    · by_cases h2 : a = k'
      · subst h2
        simp [set, get?, h, Ne.symm h]
      · simp [set, get?, h, h2, ih]

theorem get?_erase (d : Dict κ ν) (k k' : κ) :
    get? (erase d k) k' = if k = k' then none else get? d k' := by
  induction d with
  | nil => simp [erase, get?]
  | cons kv d ih =>
    obtain ⟨a, b⟩ := kv
    by_cases h : a = k
    · subst h
      simp only [erase, if_true, ih, get?]
      split <;> rfl
    · by_cases h2 : a = k'
      · subst h2
        simp [erase, get?, h, Ne.symm h]
      · simp [erase, get?, h, h2, ih]

theorem mem_keys {d : Dict κ ν} {k : κ} : k ∈ keys d ↔ ∃ v, get? d k = some v := by
  induction d with
  | nil => simp [keys, get?]
  | cons kv d ih =>
    obtain ⟨a, b⟩ := kv
    by_cases h : a = k
    · subst h; simp [keys, get?]
    · simp only [get?, h, if_false, ← ih, keys, List.map_cons, List.mem_cons, Ne.symm h, false_or]

theorem not_mem_keys {d : Dict κ ν} {k : κ} : k ∉ keys d ↔ get? d k = none := by
  rw [mem_keys]
  cases get? d k <;> simp

theorem get?_mem {d : Dict κ ν} {k : κ} {v : ν} (h : get? d k = some v) : (k, v) ∈ d := by
  induction d with
  | nil => simp [get?] at h
  | cons kv d ih =>
    obtain ⟨a, b⟩ := kv
    by_cases hk : a = k
    · subst hk; simp [get?] at h; simp [h]
    · simp [get?, hk] at h; exact List.mem_cons_of_mem _ (ih h)

theorem get?_of_mem {d : Dict κ ν} {k : κ} {v : ν} (hd : (keys d).Nodup) (h : (k, v) ∈ d) :
    get? d k = some v := by
  induction d with
  | nil => cases h
  | cons kv d ih =>
    obtain ⟨a, b⟩ := kv
    simp only [keys, List.map_cons, List.nodup_cons] at hd
    rcases List.mem_cons.1 h with h | h
    · injection h with h1 h2
      subst h1; subst h2
      simp [get?]
    · have : a ≠ k := by
        rintro rfl
        exact hd.1 (List.mem_map.2 ⟨_, h, rfl⟩)
      simp only [get?, this, if_false]
      exact ih hd.2 h

/-- `update` with a dictionary: its entries win, the others stay -/
theorem get?_update (d e : Dict κ ν) (he : (keys e).Nodup) (k : κ) :
    get? (update d e) k = (get? e k).or (get? d k) := by
  unfold update
  induction e generalizing d with
  | nil => simp [get?]
  | cons kv e ih =>
    obtain ⟨a, b⟩ := kv
    simp only [keys, List.map_cons, List.nodup_cons] at he
    rw [List.foldl_cons, ih _ he.2, get?_set_eq]
    by_cases h : a = k
    · subst h
      rw [not_mem_keys.1 he.1]
      simp [get?]
    · simp [get?, h]

theorem keys_set (d : Dict κ ν) (k : κ) (v : ν) :
    keys (set d k v) = if k ∈ keys d then keys d else keys d ++ [k] := by
  induction d with
  | nil => simp [set, keys]
  | cons kv d ih =>
    obtain ⟨a, b⟩ := kv
    by_cases h : a = k
    · subst h; simp [set, keys]
    · simp only [keys] at ih
      simp only [set, h, if_false, keys, List.map_cons, List.mem_cons, Ne.symm h, false_or, ih]
      by_cases h2 : k ∈ List.map (fun x => x.1) d <;> simp [h2]

theorem nodup_set {d : Dict κ ν} (h : (keys d).Nodup) (k : κ) (v : ν) : (keys (set d k v)).Nodup := by
  rw [keys_set]
  split
  · exact h
  · next hk =>
    rw [List.nodup_append]
    refine ⟨h, by simp, ?_⟩
    rintro a ha b hb rfl
    rw [List.mem_singleton.1 hb] at ha
    exact hk ha

theorem keys_erase (d : Dict κ ν) (k : κ) : keys (erase d k) = (keys d).filter (· ≠ k) := by
  induction d with
  | nil => rfl
  | cons kv d ih =>
    obtain ⟨a, b⟩ := kv
    by_cases h : a = k
    · subst h; simpa [erase, keys] using ih
    · simp only [keys] at ih
      simp [erase, keys, h, ih]

theorem nodup_erase {d : Dict κ ν} (h : (keys d).Nodup) (k : κ) : (keys (erase d k)).Nodup := by
  rw [keys_erase]; exact h.filter _

end GChop.Dict
