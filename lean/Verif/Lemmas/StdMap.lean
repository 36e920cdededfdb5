import Verif.Model.StdMap
namespace Verif.StdMap

theorem mem_set {α} (m : Map α) (k : String) (v : α) (x : String × α) :
    x ∈ set m k v → x = (k, v) ∨ x ∈ m := by
  induction m with
  | nil => intro h; simp [set] at h; exact Or.inl h
  | cons y m ih =>
    obtain ⟨k', v'⟩ := y
    unfold set
    split
    · intro h; simp only [List.mem_cons] at h ⊢; exact h
    · split
      · intro h; simp only [List.mem_cons] at h ⊢
        rcases h with h | h
        · exact Or.inl h
        · exact Or.inr (Or.inr h)
      · intro h; simp only [List.mem_cons] at h ⊢
        rcases h with h | h
        · exact Or.inr (Or.inl h)
        · rcases ih h with h | h
          · exact Or.inl h
          · exact Or.inr (Or.inr h)

theorem lt_of_not_lt_of_ne {a b : String} (h : ¬ a < b) (h' : a ≠ b) : b < a := by
  have h1 : b ≤ a := String.not_lt.mp h
  by_cases h2 : b < a
  · exact h2
  · exact absurd (String.le_antisymm (String.not_lt.mp h2) h1) h'

theorem ordered_set {α} (m : Map α) (k : String) (v : α) (h : Ordered m) : Ordered (set m k v) := by
  induction m with
  | nil => simp [set, Ordered]
  | cons y m ih =>
    obtain ⟨k', v'⟩ := y
    unfold Ordered at h
    rw [List.pairwise_cons] at h
    unfold set
    split
    · rename_i hlt
      refine List.pairwise_cons.2 ⟨?_, List.pairwise_cons.2 h⟩
      intro z hz
      rcases List.mem_cons.1 hz with rfl | hz
      · exact hlt
      · exact String.lt_trans hlt (h.1 z hz)
    · split
      · rename_i heq
        subst heq
        exact List.pairwise_cons.2 ⟨h.1, h.2⟩
      · rename_i h1 h2
        refine List.pairwise_cons.2 ⟨?_, ih h.2⟩
        intro z hz
        rcases mem_set m k v z hz with rfl | hz
        · exact lt_of_not_lt_of_ne h1 h2
        · exact h.1 z hz

theorem find_set {α} (m : Map α) (k k' : String) (v : α) (h : Ordered m) :
    find (set m k v) k' = if k = k' then some v else find m k' := by
  induction m with
  | nil => rfl
  | cons y m ih =>
    obtain ⟨k1, v1⟩ := y
    unfold Ordered at h
    rw [List.pairwise_cons] at h
    unfold set
    split
    · rfl
    · split
      · rename_i heq
        subst heq
        by_cases hk : k = k'
        · simp [find, hk]
        · simp [find, hk]
      · rename_i h1 h2
        simp only [find]
        by_cases hk1 : k1 = k'
        · rw [if_pos hk1, if_pos hk1]
          subst hk1
          rw [if_neg h2]
        · rw [if_neg hk1, if_neg hk1, ih h.2]

theorem find_none {α} (m : Map α) (k : String) (h : ∀ x ∈ m, x.1 ≠ k) : find m k = none := by
  induction m with
  | nil => rfl
  | cons y m ih =>
    simp only [find]
    rw [if_neg (h y (by simp))]
    exact ih (fun x hx => h x (List.mem_cons_of_mem _ hx))

theorem find_mem {α} (m : Map α) (k : String) (v : α) (h : find m k = some v) : (k, v) ∈ m := by
  induction m with
  | nil => cases h
  | cons y m ih =>
    obtain ⟨k1, v1⟩ := y
    simp only [find] at h
    split at h
    · rename_i e; subst e; cases h; simp
    · exact List.mem_cons_of_mem _ (ih h)

theorem mem_find {α} (m : Map α) (k : String) (v : α) (ho : Ordered m) (h : (k, v) ∈ m) : find m k = some v := by
  induction m with
  | nil => cases h
  | cons y m ih =>
    obtain ⟨k1, v1⟩ := y
    unfold Ordered at ho
    rw [List.pairwise_cons] at ho
    simp only [find]
    rcases List.mem_cons.1 h with h | h
    · cases h; simp
    · have := ho.1 _ h
      rw [if_neg (by rintro rfl; exact String.lt_irrefl _ this)]
      exact ih ho.2 h

end Verif.StdMap
