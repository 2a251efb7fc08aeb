import Verif.Np
import Mathlib.Algebra.BigOperators.Group.List.Basic

/-! # Association-list dictionaries -/

namespace Vsm.Np.Dict

variable {κ ν : Type*} [DecidableEq κ]

theorem get?_set (d : Dict κ ν) (k k' : κ) (v : ν) :
    get? (set d k v) k' = if k = k' then some v else get? d k' := by
  induction d with
  | nil => simp [set, get?]
  | cons e d ih =>
    obtain ⟨k₀, v₀⟩ := e
    by_cases h : k₀ = k
    · subst h
      by_cases h' : k₀ = k' <;> simp [set, get?, h']
    · by_cases h' : k₀ = k'
      · subst h'
        simp [set, get?, h, Ne.symm h]
      · simp [set, get?, h, h', ih]

theorem get?_eq_none {d : Dict κ ν} {k : κ} : get? d k = none ↔ k ∉ keys d := by
  induction d with
  | nil => simp [get?, keys]
  | cons e d ih =>
    obtain ⟨k₀, v₀⟩ := e
    by_cases h : k₀ = k
    · simp [get?, keys, h]
    · simp only [get?, h, if_false, ih]
      simp [keys, Ne.symm h]

theorem get?_mem {d : Dict κ ν} {k : κ} {v : ν} (h : get? d k = some v) : (k, v) ∈ d := by
  induction d with
  | nil => simp [get?] at h
  | cons e d ih =>
    obtain ⟨k₀, v₀⟩ := e
    by_cases h' : k₀ = k
    · simp [get?, h'] at h; simp [h', h]
    · simp only [get?, h', if_false] at h; exact List.mem_cons_of_mem _ (ih h)

theorem get?_of_mem {d : Dict κ ν} (hd : (keys d).Nodup) {k : κ} {v : ν} (h : (k, v) ∈ d) : get? d k = some v := by
  induction d with
  | nil => simp at h
  | cons e d ih =>
    obtain ⟨k₀, v₀⟩ := e
    simp only [keys, List.map_cons, List.nodup_cons] at hd
    rcases List.mem_cons.mp h with h | h
    · cases h; simp [get?]
    · have : k₀ ≠ k := by rintro rfl; exact hd.1 (List.mem_map.mpr ⟨_, h, rfl⟩)
      simp only [get?, this, if_false]
      exact ih hd.2 h

theorem set_new {d : Dict κ ν} {k : κ} (h : k ∉ keys d) (v : ν) : set d k v = d ++ [(k, v)] := by
  induction d with
  | nil => rfl
  | cons e d ih =>
    obtain ⟨k₀, v₀⟩ := e
    simp only [keys, List.map_cons, List.mem_cons, not_or] at h
    simp only [set, Ne.symm h.1, if_false, List.cons_append]
    rw [ih h.2]

theorem keys_set (d : Dict κ ν) (k : κ) (v : ν) :
    keys (set d k v) = if k ∈ keys d then keys d else keys d ++ [k] := by
  induction d with
  | nil => simp [set, keys]
  | cons e d ih =>
    obtain ⟨k₀, v₀⟩ := e
    by_cases h : k₀ = k
    · subst h; simp [set, keys]
    · simp only [set, h, if_false]
      have e1 : keys ((k₀, v₀) :: set d k v) = k₀ :: keys (set d k v) := rfl
      have e2 : keys ((k₀, v₀) :: d) = k₀ :: keys d := rfl
      rw [e1, e2, ih]
      by_cases h' : k ∈ keys d
      · simp [h']
      · simp [h', Ne.symm h]

theorem nodup_set {d : Dict κ ν} (h : (keys d).Nodup) (k : κ) (v : ν) : (keys (set d k v)).Nodup := by
  rw [keys_set]
  split_ifs with h'
  · exact h
  · exact List.nodup_append.mpr ⟨h, by simp, by intro a ha b hb; simp at hb; subst hb; rintro rfl; exact h' ha⟩

theorem sum_set [AddCommMonoid ν] {d : Dict κ ν} {k : κ} {v₀ : ν} (h : get? d k = some v₀) (v : ν) :
    (values (set d k v)).sum + v₀ = (values d).sum + v := by
  induction d with
  | nil => simp [get?] at h
  | cons e d ih =>
    obtain ⟨k₁, v₁⟩ := e
    by_cases h' : k₁ = k
    · simp only [get?, h', if_true, Option.some.injEq] at h
      simp only [set, h', if_true, values, List.map_cons, List.sum_cons, h]
      rw [add_comm, add_comm v, ← add_assoc]
    · simp only [get?, h', if_false] at h
      have := ih h
      simp only [values] at this
      simp only [set, h', if_false, values, List.map_cons, List.sum_cons]
      rw [add_assoc, this, add_assoc]

theorem sum_set_new [AddCommMonoid ν] {d : Dict κ ν} {k : κ} (h : k ∉ keys d) (v : ν) :
    (values (set d k v)).sum = (values d).sum + v := by
  rw [set_new h]; simp [values]

theorem mem_values_set {d : Dict κ ν} {k : κ} {v x : ν} (h : x ∈ values (set d k v)) : x ∈ values d ∨ x = v := by
  induction d with
  | nil => simp [set, values] at h; exact Or.inr h
  | cons e d ih =>
    obtain ⟨k₁, v₁⟩ := e
    by_cases h' : k₁ = k
    · simp only [set, h', if_true, values, List.map_cons, List.mem_cons] at h ⊢
      tauto
    · simp only [set, h', if_false, values, List.map_cons, List.mem_cons] at h ⊢
      rcases h with h | h
      · exact Or.inl (Or.inl h)
      · rcases ih h with h | h
        · exact Or.inl (Or.inr h)
        · exact Or.inr h

/-- Assigning `f t` at key `key t` for all `t` of a list, in order: the last one wins. -/
theorem get?_foldl {τ : Type*} (key : τ → κ) (f : τ → ν) (l : List τ) (d : Dict κ ν) (k : κ) :
    get? (l.foldl (fun d t => set d (key t) (f t)) d) k =
      ((l.reverse.find? fun t => decide (key t = k)).map f).or (get? d k) := by
  induction l generalizing d with
  | nil => simp
  | cons t l ih =>
    rw [List.foldl_cons, ih, List.reverse_cons, List.find?_append, get?_set]
    cases l.reverse.find? fun t => decide (key t = k) with
    | some u => simp
    | none =>
      by_cases h : key t = k
      · simp [h]
      · simp [h]

theorem keys_foldl {τ : Type*} (key : τ → κ) (f g : τ → ν) (l : List τ) (d d' : Dict κ ν) (h : keys d = keys d') :
    keys (l.foldl (fun d t => set d (key t) (f t)) d) = keys (l.foldl (fun d t => set d (key t) (g t)) d') := by
  induction l generalizing d d' with
  | nil => exact h
  | cons t l ih => exact ih _ _ (by rw [keys_set, keys_set, h])

theorem nodup_foldl {τ : Type*} (key : τ → κ) (f : τ → ν) (l : List τ) (d : Dict κ ν) (h : (keys d).Nodup) :
    (keys (l.foldl (fun d t => set d (key t) (f t)) d)).Nodup := by
  induction l generalizing d with
  | nil => exact h
  | cons t l ih => exact ih _ (nodup_set h _ _)

/-- With distinct keys the dictionary is simply the list of assignments. -/
theorem foldl_of_inj {τ : Type*} (key : τ → κ) (f : τ → ν) (l : List τ) (d : Dict κ ν) (hl : (l.map key).Nodup)
    (hd : ∀ t ∈ l, key t ∉ keys d) :
    l.foldl (fun d t => set d (key t) (f t)) d = d ++ l.map fun t => (key t, f t) := by
  induction l generalizing d with
  | nil => simp
  | cons t l ih =>
    rw [List.map_cons, List.nodup_cons] at hl
    rw [List.foldl_cons, set_new (hd t (by simp)), ih _ hl.2, List.map_cons]
    · simp
    · intro u hu
      simp only [keys, List.map_append, List.map_cons, List.map_nil, List.mem_append, List.mem_singleton, not_or]
      refine ⟨hd u (by simp [hu]), ?_⟩
      intro h
      exact hl.1 (List.mem_map.mpr ⟨u, hu, h⟩)

end Vsm.Np.Dict
