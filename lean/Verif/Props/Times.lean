import Verif.Model.Times
/-!
C92: the measured duration of a call is right. C93: the statistics of durations are right.
-/
namespace Verif.Times

/-! ## C92 -/

/-- A clock reading, before the year 2038. -/
def Spec.Valid (t : Spec) : Prop := t.sec < 2 ^ 31 ∧ t.nsec < 1000000000

instance (t : Spec) : Decidable t.Valid := inferInstanceAs (Decidable (_ ∧ _))

/-- The time in nanoseconds. -/
def Spec.exact (t : Spec) : Int := t.sec * 1000000000 + t.nsec

/-- C92, full statement: the difference of any two readings, the second later than the first, within two microseconds. -/
def C92_statement : Prop :=
  ∀ (a b : Spec), a.Valid → b.Valid → a.exact ≤ b.exact →
    ∃ u, elapsedUs a b = some u ∧ b.exact - a.exact - 2000 ≤ u * 1000 ∧ u * 1000 ≤ b.exact - a.exact + 2000

theorem rnd_near (n : Nat) (h : n < 2 ^ 61) : n ≤ rnd n + 128 ∧ rnd n ≤ n + 128 := by
  have hl : Nat.log2 n - 52 ≤ 8 := by
    by_cases h0 : n = 0
    · subst h0; decide
    · have := (Nat.log2_lt h0).2 h
      omega
  unfold rnd
  generalize Nat.log2 n - 52 = e at *
  simp only
  have : e = 0 ∨ e = 1 ∨ e = 2 ∨ e = 3 ∨ e = 4 ∨ e = 5 ∨ e = 6 ∨ e = 7 ∨ e = 8 := by omega
  rcases this with rfl | rfl | rfl | rfl | rfl | rfl | rfl | rfl | rfl <;> split <;> omega

theorem rnd_exact (n : Nat) (h : n < 2 ^ 53) : rnd n = n := by
  have hl : Nat.log2 n - 52 = 0 := by
    by_cases h0 : n = 0
    · subst h0; decide
    · have := (Nat.log2_lt h0).2 h
      omega
  unfold rnd
  rw [hl]
  simp [Nat.mod_one]

theorem rndInt_exact (i : Int) (h1 : -2 ^ 53 < i) (h2 : i < 2 ^ 53) : rndInt i = i := by
  unfold rndInt
  split
  · rw [rnd_exact _ (by omega)]; omega
  · rw [rnd_exact _ (by omega)]; omega

theorem ns_near (t : Spec) (h : t.Valid) : t.exact ≤ ns t + 256 ∧ (ns t : Int) ≤ t.exact + 256 := by
  obtain ⟨h1, h2⟩ := h
  unfold ns Spec.exact
  have g1 := rnd_near (t.sec * 1000000000) (by omega)
  have g2 := rnd_near (rnd (t.sec * 1000000000) + t.nsec) (by omega)
  omega

theorem tdiv_bounds (d : Int) (h : 0 ≤ d) : d - 1000 < d.tdiv 1000 * 1000 ∧ d.tdiv 1000 * 1000 ≤ d ∧ 0 ≤ d.tdiv 1000 := by
  rw [Int.tdiv_eq_ediv_of_nonneg h]
  omega

theorem tdiv_small (d : Int) (h1 : -1000 < d) (h2 : d < 0) : d.tdiv 1000 = 0 := by
  have := Int.neg_tdiv (a := -d) (b := 1000)
  rw [Int.neg_neg] at this
  rw [this, Int.tdiv_eq_ediv_of_nonneg (by omega)]
  omega

/-- C92, proved part: calls shorter than 2^32 - 1 microseconds (71 minutes). -/
theorem C92_partial (a b : Spec) (ha : a.Valid) (hb : b.Valid) (h : a.exact ≤ b.exact)
    (hl : b.exact - a.exact < (2 ^ 32 - 1) * 1000) :
    ∃ u, elapsedUs a b = some u ∧ b.exact - a.exact - 1512 < u * 1000 ∧ u * 1000 ≤ b.exact - a.exact + 512 := by
  have h1 := ns_near a ha
  have h2 := ns_near b hb
  unfold elapsedUs
  simp only
  rw [rndInt_exact _ (by omega) (by omega)]
  generalize hd : (ns b : Int) - ns a = d at *
  by_cases hn : 0 ≤ d
  · obtain ⟨g1, g2, g3⟩ := tdiv_bounds d hn
    rw [if_neg (by omega)]
    exact ⟨_, rfl, by omega, by omega⟩
  · rw [tdiv_small d (by omega) (by omega)]
    exact ⟨0, rfl, by omega, by omega⟩

/-- A call that takes 72 minutes. -/
theorem C92_violated : ¬ C92_statement := by
  intro h
  obtain ⟨u, h1, _⟩ := h ⟨0, 0⟩ ⟨4320, 0⟩ (by decide) (by decide) (by decide)
  have : elapsedUs ⟨0, 0⟩ ⟨4320, 0⟩ = none := by decide +kernel
  rw [this] at h1
  cases h1

/-- Every call longer than that is undefined behaviour. -/
theorem C92_long (a b : Spec) (ha : a.Valid) (hb : b.Valid) (hl : (2 ^ 32 + 1) * 1000 ≤ b.exact - a.exact)
    (hm : b.exact - a.exact < 2 ^ 52) : elapsedUs a b = none := by
  have h1 := ns_near a ha
  have h2 := ns_near b hb
  unfold elapsedUs
  simp only
  rw [rndInt_exact _ (by omega) (by omega)]
  obtain ⟨g1, g2, g3⟩ := tdiv_bounds ((ns b : Int) - ns a) (by omega)
  rw [if_pos (by omega)]

/-- The duration of `process_frame` is taken with the wall clock. If it is set back meanwhile the result is undefined. -/
theorem C92_back (a b : Spec) (ha : a.Valid) (hb : b.Valid) (hl : b.exact + 2000 ≤ a.exact) (hm : a.exact - b.exact < 2 ^ 52) :
    elapsedUs a b = none := by
  have h1 := ns_near a ha
  have h2 := ns_near b hb
  unfold elapsedUs
  simp only
  rw [rndInt_exact _ (by omega) (by omega)]
  have hneg := Int.neg_tdiv (a := (ns a : Int) - ns b) (b := 1000)
  rw [show -((ns a : Int) - ns b) = (ns b : Int) - ns a by omega] at hneg
  obtain ⟨g1, g2, g3⟩ := tdiv_bounds ((ns a : Int) - ns b) (by omega)
  rw [if_pos (by omega)]

/-- The results are not exact: 100000 nanoseconds are measured as 99 microseconds. -/
theorem C92_inexact : (⟨1700000000, 100129⟩ : Spec).exact - (⟨1700000000, 129⟩ : Spec).exact = 100000 ∧
    elapsedUs ⟨1700000000, 129⟩ ⟨1700000000, 100129⟩ = some 99 := by
  decide +kernel

example : elapsedUs ⟨1700000000, 999999000⟩ ⟨1700000001, 1000⟩ = some 2 := by decide +kernel

/-! ## C93 -/

/-- The calls since the last reset, or all. -/
def recent : List Op → List Nat
  | [] => []
  | .call d :: l => if Op.reset ∈ l then recent l else d :: recent l
  | .reset :: l => recent l

def greatest : List Nat → Nat
  | [] => 0
  | d :: l => Nat.max d (greatest l)

/-- What is to be reported after the calls: the last one, the longest, and a value between the shortest and the longest; 0 if
there was none. -/
def Correct (s : Dur) (l : List Nat) : Prop :=
  s.last = l.getLast?.getD 0 ∧ s.max = greatest l ∧
    (∀ lo hi, (∀ d ∈ l, lo ≤ d ∧ d ≤ hi) → l ≠ [] → lo ≤ s.mean ∧ s.mean ≤ hi) ∧ (l = [] → s.mean = 0)

/-- C93, full statement. -/
def C93_statement : Prop := ∀ (s : Dur) (l : List Op), Correct (run s l) (recent l)

theorem greatest_append (l : List Nat) (d : Nat) : greatest (l ++ [d]) = Nat.max (greatest l) d := by
  induction l with
  | nil => simp [greatest]
  | cons a l ih => simp only [List.cons_append, greatest, ih]; simp only [Nat.max_def]; repeat (first | split | omega)

theorem update_correct (s : Dur) (l : List Nat) (d : Nat) (h : Correct s l) : Correct (update s d) (l ++ [d]) := by
  obtain ⟨h1, h2, h3, h4⟩ := h
  refine ⟨by simp [update], ?_, ?_, by simp⟩
  · rw [greatest_append, ← h2]
    simp only [update, Nat.max_def]
    split <;> split <;> omega
  · intro lo hi hb _
    have hd := hb d (by simp)
    have hm : s.mean ≠ 0 → lo ≤ s.mean ∧ s.mean ≤ hi := by
      intro hm
      by_cases hl : l = []
      · exact absurd (h4 hl) hm
      · exact h3 lo hi (fun e he => hb e (by simp [he])) hl
    simp only [update]
    split
    · exact hd
    · rename_i hz
      have := hm hz
      omega

theorem recent_append (l m : List Op) (h : Op.reset ∉ m) : recent (l ++ m) = recent l ++ recent m := by
  induction l with
  | nil => rfl
  | cons o l ih =>
    cases o with
    | reset => exact ih
    | call d =>
      simp only [List.cons_append, recent, List.mem_append]
      by_cases hl : Op.reset ∈ l
      · rw [if_pos (Or.inl hl), if_pos hl]; exact ih
      · rw [if_neg (by simp [hl, h]), if_neg hl, ih]; rfl

theorem recent_reset (l m : List Op) : recent (l ++ Op.reset :: m) = recent m := by
  induction l with
  | nil => rfl
  | cons o l ih =>
    cases o with
    | reset => exact ih
    | call d =>
      simp only [List.cons_append, recent]
      rw [if_pos (by simp)]
      exact ih

/-- C93, proved part: from the first reset on. -/
theorem C93_partial (s : Dur) (l m : List Op) : Correct (run s (l ++ Op.reset :: m)) (recent (l ++ Op.reset :: m)) := by
  rw [recent_reset]
  have hr : run s (l ++ Op.reset :: m) = run zero m := by
    simp [run, step]
  rw [hr]
  have key : ∀ (m : List Op) (s : Dur) (k : List Nat), Correct s k →
      Correct (run s m) (if Op.reset ∈ m then recent m else k ++ recent m) := by
    intro m
    induction m with
    | nil => intro s k h; simpa [run, recent] using h
    | cons o m ih =>
      intro s k h
      cases o with
      | reset =>
        have := ih zero [] ⟨rfl, rfl, fun _ _ _ h => absurd rfl h, fun _ => rfl⟩
        simp only [List.nil_append, ite_self] at this
        simp only [List.mem_cons, true_or, if_true, recent]
        exact this
      | call d =>
        have := ih (update s d) (k ++ [d]) (update_correct s k d h)
        show Correct (run (update s d) m) _
        by_cases hm : Op.reset ∈ m
        · rw [if_pos hm] at this
          rw [if_pos (List.mem_cons_of_mem _ hm)]
          simp only [recent]
          rw [if_pos hm]
          exact this
        · rw [if_neg hm] at this
          rw [if_neg (by simp [hm])]
          simp only [recent]
          rw [if_neg hm]
          simpa using this
  have := key m zero [] ⟨rfl, rfl, fun _ _ _ h => absurd rfl h, fun _ => rfl⟩
  simpa using this

/-- Before it the maximum is whatever the memory held. -/
theorem C93_violated : ¬ C93_statement := by
  intro h
  have := (h { last := 0, max := 7, mean := 0 } [.call 3]).2.1
  revert this
  decide +kernel

/-- The value called mean is not the mean: it depends on the order. -/
theorem C93_order : (run zero [.call 100, .call 0, .call 0]).mean = 25 ∧ (run zero [.call 0, .call 0, .call 100]).mean = 100 := by
  decide +kernel

example : run { last := 5, max := 9, mean := 1 } [.call 3, .reset, .call 10, .call 4, .call 1] = { last := 1, max := 10, mean := 4 } := by
  decide +kernel

end Verif.Times
