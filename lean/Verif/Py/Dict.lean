import Verif.Py.Err
/-!
# Python dictionaries: insertion ordered association lists
-/
namespace Verif.Py

abbrev Dict (κ α : Type) := List (κ × α)

namespace Dict
variable {κ α : Type} [DecidableEq κ]

/-- `d.get(k)` -/
def get? : Dict κ α → κ → Option α
  | [], _ => none
  | (k, v) :: d, x => if k = x then some v else get? d x

/-- `d[k] = v`: overwrite in place, or append -/
def set : Dict κ α → κ → α → Dict κ α
  | [], x, w => [(x, w)]
  | (k, v) :: d, x, w => if k = x then (k, w) :: d else (k, v) :: set d x w

/-- `k in d` -/
def has (d : Dict κ α) (k : κ) : Bool := (d.get? k).isSome

def keys (d : Dict κ α) : List κ := d.map (·.1)

theorem get?_set (d : Dict κ α) (x y : κ) (w : α) :
    (d.set x w).get? y = if x = y then some w else d.get? y := by
  induction d with
  | nil => simp [set, get?]
  | cons p d ih =>
    obtain ⟨k, v⟩ := p
    simp only [set]
    by_cases h : k = x
    · subst h; simp only [if_true, get?]
      by_cases h2 : k = y <;> simp [h2]
    · simp only [h, if_false, get?]
      by_cases h2 : k = y
      · subst h2; simp [Ne.symm h]
      · simp [h2, ih]

theorem mem_keys_set (d : Dict κ α) (x y : κ) (w : α) :
    y ∈ (d.set x w).keys ↔ y = x ∨ y ∈ d.keys := by
  induction d with
  | nil => simp [set, keys]
  | cons p d ih =>
    obtain ⟨k, v⟩ := p
    simp only [set]
    by_cases h : k = x
    · subst h; simp [keys]
    · simp only [h, if_false, keys, List.map_cons, List.mem_cons] at ih ⊢
      rw [ih]
      constructor
      · rintro (h|h|h) <;> simp [h]
      · rintro (h|h|h) <;> simp [h]

theorem keys_set_of_mem (d : Dict κ α) (x : κ) (w : α) (h : x ∈ d.keys) : (d.set x w).keys = d.keys := by
  induction d with
  | nil => simp [keys] at h
  | cons p d ih =>
    obtain ⟨k, v⟩ := p
    simp only [set]
    by_cases hk : k = x
    · simp [hk, keys]
    · simp only [keys, List.map_cons, List.mem_cons] at h
      have h' : x ∈ keys d := h.resolve_left (fun e => hk e.symm)
      simp only [hk, if_false, keys, List.map_cons, List.cons.injEq, true_and]
      exact ih h'

theorem nodup_set (d : Dict κ α) (x : κ) (w : α) (h : d.keys.Nodup) : (d.set x w).keys.Nodup := by
  induction d with
  | nil => simp [set, keys]
  | cons p d ih =>
    obtain ⟨k, v⟩ := p
    simp only [keys, List.map_cons, List.nodup_cons] at h
    simp only [set]
    by_cases hk : k = x
    · simp only [hk, if_true, keys, List.map_cons, List.nodup_cons]; exact hk ▸ h
    · simp only [hk, if_false, keys, List.map_cons, List.nodup_cons]
      refine ⟨?_, ih h.2⟩
      intro hm
      rcases (mem_keys_set d x k w).1 hm with h1 | h1
      · exact hk h1
      · exact h.1 h1

theorem get?_isSome_iff (d : Dict κ α) (x : κ) : (d.get? x).isSome ↔ x ∈ d.keys := by
  induction d with
  | nil => simp [get?, keys]
  | cons p d ih =>
    obtain ⟨k, v⟩ := p
    simp only [get?, keys, List.map_cons, List.mem_cons]
    by_cases h : k = x
    · simp [h]
    · simp only [h, if_false]
      rw [ih]
      constructor
      · intro h2; exact Or.inr h2
      · rintro (h2|h2)
        · exact absurd h2.symm h
        · exact h2

theorem get?_mem (d : Dict κ α) (x : κ) (v : α) (h : d.get? x = some v) : (x, v) ∈ d := by
  induction d with
  | nil => simp [get?] at h
  | cons p d ih =>
    obtain ⟨k, w⟩ := p
    simp only [get?] at h
    by_cases hk : k = x
    · simp [hk] at h; simp [hk, h]
    · simp only [hk, if_false] at h
      exact List.mem_cons_of_mem _ (ih h)

theorem mem_get? (d : Dict κ α) (x : κ) (v : α) (hn : d.keys.Nodup) (h : (x, v) ∈ d) :
    d.get? x = some v := by
  induction d with
  | nil => simp at h
  | cons p d ih =>
    obtain ⟨k, w⟩ := p
    simp only [keys, List.map_cons, List.nodup_cons] at hn
    simp only [get?]
    rcases List.mem_cons.1 h with h1 | h1
    · cases h1; simp
    · have : k ≠ x := by
        intro hkx; subst hkx
        exact hn.1 (List.mem_map.2 ⟨_, h1, rfl⟩)
      simp [this, ih hn.2 h1]

end Dict
end Verif.Py
