import Verif.Model.SimInterval
/-
C183: the simulator keeps the interval between frames.
-/
namespace Verif.SimInterval

/-- The numbers that are floats. -/
def IsFloat (n : Nat) : Prop := ∃ m e, m < 2 ^ 24 ∧ n = m * 2 ^ e

/-! ## Rounding -/

theorem log_bounds (n : Nat) (h : 2 ^ 24 ≤ n) : 2 ^ (n.log2 - 23) * 2 ^ 23 ≤ n ∧ n < 2 ^ (n.log2 - 23) * 2 ^ 24 ∧ 24 ≤ n.log2 := by
  have h0 : n ≠ 0 := by omega
  have h1 := Nat.log2_self_le h0
  have h2 := Nat.lt_log2_self (n := n)
  have h3 : 24 ≤ n.log2 := (Nat.le_log2 h0).2 h
  rw [← Nat.pow_add, ← Nat.pow_add, show n.log2 - 23 + 23 = n.log2 by omega, show n.log2 - 23 + 24 = n.log2 + 1 by omega]
  exact ⟨h1, h2, h3⟩

theorem nearest_err (n s : Nat) (hs : 0 < s) : 2 * nearest n s ≤ 2 * n + s ∧ 2 * n ≤ 2 * nearest n s + s := by
  have h := Nat.div_add_mod n s
  have hl := Nat.mod_lt n hs
  rw [Nat.mul_comm] at h
  unfold nearest
  split
  · omega
  · rw [Nat.add_mul, Nat.one_mul]; omega

/-- The error is at most one part in 2^24. -/
theorem round_err (n : Nat) : round n * 2 ^ 24 ≤ n * 2 ^ 24 + n ∧ n * 2 ^ 24 ≤ round n * 2 ^ 24 + n := by
  unfold round
  by_cases h : n < 2 ^ 24
  · rw [if_pos h]; omega
  · rw [if_neg h]
    obtain ⟨a, b, c⟩ := log_bounds n (by omega)
    have := nearest_err n _ (Nat.pow_pos (n := n.log2 - 23) (show 0 < 2 by omega))
    generalize 2 ^ (n.log2 - 23) = s at *
    generalize nearest n s = r at *
    omega

/-- Half-way it is the even neighbour. -/
theorem nearest_tie (n s : Nat) (hs : 0 < s) (h : 2 * (n % s) = s) : nearest n s / s % 2 = 0 := by
  unfold nearest
  split
  · next hc =>
    rw [Nat.mul_div_cancel _ hs]
    omega
  · next hc =>
    rw [Nat.mul_div_cancel _ hs]
    omega

theorem nearest_dvd (n s : Nat) (hs : 0 < s) (h : n % s = 0) : nearest n s = n := by
  unfold nearest
  rw [if_pos (Or.inl (by omega))]
  have := Nat.div_add_mod n s
  rw [h, Nat.mul_comm] at this
  omega

theorem round_exact (n : Nat) (h : IsFloat n) : round n = n := by
  obtain ⟨m, e, hm, rfl⟩ := h
  unfold round
  by_cases hn : m * 2 ^ e < 2 ^ 24
  · rw [if_pos hn]
  · rw [if_neg hn]
    refine nearest_dvd _ _ (Nat.pow_pos (by omega)) ?_
    obtain ⟨a, b, c⟩ := log_bounds (m * 2 ^ e) (by omega)
    have hk : (m * 2 ^ e).log2 - 23 ≤ e := by
      rcases Nat.lt_or_ge e ((m * 2 ^ e).log2 - 23) with h | h
      · exfalso
        have h1 : m * 2 ^ e < 2 ^ 24 * 2 ^ e := Nat.mul_lt_mul_of_pos_right hm (Nat.pow_pos (by omega))
        have h2 : 2 ^ (e + 1) * 2 ^ 23 ≤ 2 ^ ((m * 2 ^ e).log2 - 23) * 2 ^ 23 :=
          Nat.mul_le_mul_right _ (Nat.pow_le_pow_right (by omega) h)
        rw [Nat.pow_succ] at h2
        generalize 2 ^ ((m * 2 ^ e).log2 - 23) = s at *
        generalize m * 2 ^ e = n at *
        generalize 2 ^ e = p at *
        omega
      · exact h
    exact Nat.mod_eq_zero_of_dvd (Nat.dvd_mul_left_of_dvd (Nat.pow_dvd_pow 2 hk) m)

theorem round_float (n : Nat) : IsFloat (round n) := by
  unfold round
  by_cases h : n < 2 ^ 24
  · rw [if_pos h]; exact ⟨n, 0, h, by simp⟩
  · rw [if_neg h]
    obtain ⟨a, b, c⟩ := log_bounds n (by omega)
    have hq : n / 2 ^ (n.log2 - 23) < 2 ^ 24 := Nat.div_lt_of_lt_mul b
    unfold nearest
    split
    · exact ⟨_, _, hq, rfl⟩
    · by_cases he : n / 2 ^ (n.log2 - 23) + 1 < 2 ^ 24
      · exact ⟨_, _, he, rfl⟩
      · refine ⟨1, 24 + (n.log2 - 23), by omega, ?_⟩
        rw [show n / 2 ^ (n.log2 - 23) + 1 = 2 ^ 24 by omega, Nat.one_mul, Nat.pow_add]

/-! ## The time slept -/

/-- The whole seconds of a float are a float, and so is the rest; the rest is less than a second by more than 2^-24. -/
theorem split_float (w : Nat) (h : IsFloat w) : IsFloat (w / one * one) ∧ IsFloat (w % one) ∧ w % one + 2 ^ 125 ≤ one := by
  obtain ⟨m, e, hm, rfl⟩ := h
  unfold one
  by_cases he : 149 ≤ e
  · have hd : 2 ^ 149 ∣ m * 2 ^ e := Nat.dvd_mul_left_of_dvd (Nat.pow_dvd_pow 2 he) m
    rw [Nat.div_mul_cancel hd, Nat.mod_eq_zero_of_dvd hd]
    exact ⟨⟨m, e, hm, rfl⟩, ⟨0, 0, by omega, by omega⟩, by decide⟩
  · have hp : (2 : Nat) ^ 149 = 2 ^ (149 - e) * 2 ^ e := by rw [← Nat.pow_add, show 149 - e + e = 149 by omega]
    have hpos : 0 < 2 ^ e := Nat.pow_pos (by omega)
    have hdiv : m * 2 ^ e / 2 ^ 149 = m / 2 ^ (149 - e) := by rw [hp, Nat.mul_div_mul_right _ _ hpos]
    have hmod : m * 2 ^ e % 2 ^ 149 = m % 2 ^ (149 - e) * 2 ^ e := by rw [hp, Nat.mul_mod_mul_right]
    refine ⟨⟨m / 2 ^ (149 - e), 149, Nat.lt_of_le_of_lt (Nat.div_le_self _ _) hm, by rw [hdiv]⟩,
      ⟨m % 2 ^ (149 - e), e, Nat.lt_of_le_of_lt (Nat.mod_le _ _) hm, hmod⟩, ?_⟩
    rw [hmod]
    by_cases h125 : 125 ≤ e
    · have h1 : m % 2 ^ (149 - e) + 1 ≤ 2 ^ (149 - e) := Nat.mod_lt _ (Nat.pow_pos (by omega))
      have h2 := Nat.mul_le_mul_right (2 ^ e) h1
      rw [← hp, Nat.add_mul, Nat.one_mul] at h2
      have h3 : 2 ^ 125 ≤ 2 ^ e := Nat.pow_le_pow_right (by omega) h125
      omega
    · have h1 : m % 2 ^ (149 - e) * 2 ^ e ≤ (2 ^ 24 - 1) * 2 ^ 124 :=
        Nat.mul_le_mul (by have := Nat.mod_le m (2 ^ (149 - e)); omega) (Nat.pow_le_pow_right (by omega) (by omega))
      have h2 : (2 ^ 24 - 1) * 2 ^ 124 + 2 ^ 125 ≤ (2 : Nat) ^ 149 := by decide
      omega

/-- Arithmetic of `C183_valid`, with the number of nanoseconds in a second as a variable. -/
theorem near (K O w y x nn r z : Nat) (hK : K ≤ 60 * 2 ^ 24) (hdm : y + x = w) (hx : x < O) (r1 : r * 2 ^ 24 ≤ x * K * 2 ^ 24 + x * K)
    (r2 : x * K * 2 ^ 24 ≤ r * 2 ^ 24 + x * K) (hq : nn + z = r) (hz : z < O) : y * K + nn ≤ w * K + 60 * O ∧ w * K ≤ y * K + nn + 61 * O := by
  subst hdm
  have h : x * K ≤ O * (60 * 2 ^ 24) := Nat.mul_le_mul (Nat.le_of_lt hx) hK
  rw [Nat.add_mul]
  generalize x * K = X at *
  generalize y * K = Y at *
  constructor <;> omega

/-- Arithmetic of `C183_partial`. -/
theorem upper (K O gap k d w sO : Nat) (hk : k * O < gap) (m2 : d ≤ k * K + K) (r1 : w * 2 ^ 24 ≤ (gap - k * O) * 2 ^ 24 + (gap - k * O))
    (h3 : sO ≤ w * K + 60 * O) : d * O + sO ≤ (gap * K).max (d * O) + (K * O + 60 * O) + gap * K / 2 ^ 24 := by
  have h1 := Nat.mul_le_mul_right O m2
  have h2 := Nat.mul_le_mul_right K r1
  have h4 : (gap - k * O) * K = gap * K - k * O * K := Nat.sub_mul _ _ _
  rw [Nat.add_mul, Nat.mul_right_comm _ (2 ^ 24), Nat.mul_right_comm _ (2 ^ 24), h4] at h2
  rw [Nat.add_mul, Nat.mul_right_comm] at h1
  have h5 := Nat.mul_le_mul_right K (Nat.le_of_lt hk)
  have h6 : gap * K ≤ (gap * K).max (d * O) := Nat.le_max_left _ _
  generalize (gap * K).max (d * O) = M at *
  generalize gap * K = G at *
  generalize k * O * K = z at *
  generalize w * K = W at *
  generalize d * O = D at *
  generalize K * O = B at *
  omega

theorem lower (K O gap k d w sO : Nat) (hk : k * O < gap) (m1 : k * K ≤ d + K) (r2 : (gap - k * O) * 2 ^ 24 ≤ w * 2 ^ 24 + (gap - k * O))
    (h4 : w * K ≤ sO + 61 * O) : gap * K ≤ d * O + sO + (K * O + 61 * O) + gap * K / 2 ^ 24 := by
  have h1 := Nat.mul_le_mul_right O m1
  have h2 := Nat.mul_le_mul_right K r2
  have h3 : (gap - k * O) * K = gap * K - k * O * K := Nat.sub_mul _ _ _
  rw [Nat.add_mul, Nat.mul_right_comm _ (2 ^ 24), Nat.mul_right_comm _ (2 ^ 24), h3] at h2
  rw [Nat.add_mul, Nat.mul_right_comm] at h1
  have h5 := Nat.mul_le_mul_right K (Nat.le_of_lt hk)
  generalize gap * K = G at *
  generalize k * O * K = z at *
  generalize w * K = W at *
  generalize d * O = D at *
  generalize K * O = B at *
  omega

theorem atOnce (K O gap k d : Nat) (hk : gap ≤ k * O) (m1 : k * K ≤ d + K) : gap * K ≤ d * O + (K * O + 61 * O) + gap * K / 2 ^ 24 := by
  have h1 := Nat.mul_le_mul_right O m1
  have h2 := Nat.mul_le_mul_right K hk
  rw [Nat.add_mul, Nat.mul_right_comm] at h1
  generalize gap * K = G at *
  generalize k * O * K = z at *
  generalize d * O = D at *
  generalize K * O = B at *
  omega

theorem same (K O gap d s : Nat) (h3 : s * O ≤ gap * K + 60 * O) (h4 : gap * K ≤ s * O + 61 * O) :
    (d + s) * O ≤ gap * K + (d + 60) * O ∧ gap * K + d * O ≤ (d + s) * O + 61 * O := by
  rw [Nat.add_mul, Nat.add_mul]
  generalize gap * K = G at *
  generalize d * O = D at *
  generalize s * O = S at *
  constructor <;> omega

/-- The time asked of `nanosleep` is always valid, and within 61 ns of the time that was to be waited. -/
theorem C183_valid (w : Nat) (hw : IsFloat w) (hs : w < 2 ^ 31 * one) :
    ∃ s, spec w = some s ∧ s.nsec < 1000000000 ∧ slept s * one ≤ w * 1000000000 + 60 * one ∧ w * 1000000000 ≤ slept s * one + 61 * one := by
  obtain ⟨f1, f2, f3⟩ := split_float w hw
  have hone : 0 < one := by decide
  have hsec : w / one < 2 ^ 31 := (Nat.div_lt_iff_lt_mul hone).2 hs
  have hdm := Nat.div_add_mod w one
  rw [Nat.mul_comm] at hdm
  have hrest : w - w / one * one = w % one := by omega
  have hspec : spec w = some ⟨w / one, round (w % one * 1000000000) / one⟩ := by
    unfold spec
    rw [if_pos hsec, round_exact _ f1, hrest, round_exact _ f2]
  refine ⟨_, hspec, ?_⟩
  obtain ⟨r1, r2⟩ := round_err (w % one * 1000000000)
  have hq := Nat.div_add_mod (round (w % one * 1000000000)) one
  have hql := Nat.mod_lt (round (w % one * 1000000000)) hone
  have hone2 : one = 2 ^ 149 := rfl
  generalize round (w % one * 1000000000) % one = z at *
  have hlt : round (w % one * 1000000000) < 1000000000 * one := by
    clear hq hql hspec hdm hrest f1 f2
    generalize round (w % one * 1000000000) = r at *
    generalize w % one = x at *
    rw [hone2] at f3 ⊢
    omega
  have hn : round (w % one * 1000000000) / one < 1000000000 := (Nat.div_lt_iff_lt_mul hone).2 hlt
  have hx : w % one < one := Nat.mod_lt _ hone
  refine ⟨hn, ?_⟩
  unfold slept
  rw [if_pos hn]
  dsimp only
  generalize round (w % one * 1000000000) / one = n at *
  generalize round (w % one * 1000000000) = r at *
  generalize w / one = a at *
  generalize w % one = x at *
  rw [Nat.add_mul, Nat.mul_right_comm]
  rw [Nat.mul_comm] at hq
  exact near _ one w _ x _ r z (by decide) hdm hx r1 r2 hq hql

/-- Longer waits overflow the conversion to `int`. -/
theorem C183_long (w : Nat) (hs : 2 ^ 31 * one ≤ w) : spec w = none := by
  unfold spec
  rw [if_neg]
  have := (Nat.le_div_iff_mul_le (show 0 < one by decide)).2 hs
  omega

/-! ## The interval -/

/-- The full claim: a frame that takes less than the interval is followed by the next after the interval, within 61 ns; one that takes
longer, at once. `gap` is a float, in units of 2^-149 s; times are in ns. -/
def C183_statement : Prop :=
  ∀ (gap t d : Nat), IsFloat gap → gap < 2 ^ 31 * one → ∃ u, next (some gap) t d = some u ∧
    (d * one < gap * 1000000000 → (u - t) * one ≤ gap * 1000000000 + 60 * one ∧ gap * 1000000000 ≤ (u - t) * one + 61 * one) ∧
    (gap * 1000000000 ≤ d * one → u = t + d)

theorem frameTime_small (t d : Nat) (hd : d < 2 ^ 24 * 1000000000 - 1000000000) :
    frameTime t d = ((t + d) / 1000000000 - t / 1000000000) * one := by
  unfold frameTime
  refine round_exact _ ⟨(t + d) / 1000000000 - t / 1000000000, 149, by omega, rfl⟩

theorem next_none (gap t d : Nat) (hw : waitTime (gap : Int) (frameTime t d : Int) = none) : next (some (gap : Int)) t d = some (t + d) := by
  have hp : pause (some (gap : Int)) (frameTime t d) = some 0 := by
    show sleepFor (waitTime (gap : Int) (frameTime t d : Int)) = _
    rw [hw]
    rfl
  unfold next
  rw [hp]
  rfl

theorem next_some (gap t d w : Nat) (s : Spec) (hw : waitTime (gap : Int) (frameTime t d : Int) = some w) (hs : spec w = some s) :
    next (some (gap : Int)) t d = some (t + d + slept s) := by
  have hp : pause (some (gap : Int)) (frameTime t d) = some (slept s) := by
    show sleepFor (waitTime (gap : Int) (frameTime t d : Int)) = _
    rw [hw]
    show (spec w).map slept = _
    rw [hs]
    rfl
  unfold next
  rw [hp]
  rfl

/-- The interval if no second begins while the frame is sent: the time of the sending is added to the interval. -/
theorem C183_longer (gap t d : Nat) (hg : IsFloat gap) (h0 : 0 < gap) (hm : gap < 2 ^ 31 * one) (hs : (t + d) / 1000000000 = t / 1000000000) :
    ∃ u, next (some gap) t d = some u ∧ (u - t) * one ≤ gap * 1000000000 + (d + 60) * one ∧ gap * 1000000000 + d * one ≤ (u - t) * one + 61 * one := by
  have hf : frameTime t d = 0 := by
    unfold frameTime
    rw [hs, Nat.sub_self, Nat.zero_mul]
    simp [round]
  obtain ⟨s, h1, h2, h3, h4⟩ := C183_valid gap hg hm
  have hw : waitTime (gap : Int) (frameTime t d : Int) = some gap := by
    unfold waitTime
    rw [hf, if_pos (by omega), show ((gap : Int) - ((0 : Nat) : Int)).toNat = gap by omega, round_exact gap hg]
  refine ⟨t + d + slept s, next_some gap t d gap s hw h1, ?_⟩
  rw [show t + d + slept s - t = d + slept s by omega]
  exact same _ one gap d _ h3 h4

/-- If seconds begin while the frame is sent, and there are at least as many as the interval has, the next frame follows at once. -/
theorem C183_shorter (gap t d : Nat) (hd : d < 2 ^ 24 * 1000000000 - 1000000000) (hs : gap ≤ ((t + d) / 1000000000 - t / 1000000000) * one) :
    next (some gap) t d = some (t + d) := by
  have hw : waitTime (gap : Int) (frameTime t d : Int) = none := by
    unfold waitTime
    rw [if_neg]
    rw [frameTime_small t d hd]
    omega
  exact next_none gap t d hw

/-- So an interval of 0.02 s is 0.015 s for a frame during which a second begins, and 0.035 s for all others that take 0.015 s. -/
theorem C183_violated : ¬ C183_statement := by
  intro h
  -- 0.02f = 10737418 * 2^-29
  obtain ⟨u, hu, h1, _⟩ := h (10737418 * 2 ^ 120) 990000000 15000000 ⟨10737418, 120, by decide, rfl⟩ (by decide)
  rw [C183_shorter _ _ _ (by decide) (by decide)] at hu
  cases hu
  have := (h1 (by decide)).2
  revert this
  decide

/-- What holds: the interval is wrong by less than a second, plus 61 ns and one part in 2^24 of the wait; the frame is always sent whole first. -/
theorem C183_partial (gap t d : Nat) (hm : gap < 2 ^ 30 * one) (hd : d < 2 ^ 24 * 1000000000 - 1000000000) :
    ∃ u, next (some gap) t d = some u ∧ t + d ≤ u ∧
      ((u - t) * one ≤ (gap * 1000000000).max (d * one) + (1000000000 + 60) * one + gap * 1000000000 / 2 ^ 24) ∧
      gap * 1000000000 ≤ (u - t) * one + (1000000000 + 61) * one + gap * 1000000000 / 2 ^ 24 := by
  have hone : 0 < one := by decide
  have hf := frameTime_small t d hd
  -- the measured time is within a second of the true one
  have m1 : ((t + d) / 1000000000 - t / 1000000000) * 1000000000 ≤ d + 1000000000 := by omega
  have m2 : d ≤ ((t + d) / 1000000000 - t / 1000000000) * 1000000000 + 1000000000 := by omega
  generalize (t + d) / 1000000000 - t / 1000000000 = k at *
  by_cases hk : gap ≤ k * one
  · refine ⟨t + d, ?_, Nat.le_refl _, ?_, ?_⟩
    · have hw : waitTime (gap : Int) (frameTime t d : Int) = none := by
        unfold waitTime
        rw [if_neg]
        rw [hf]
        omega
      exact next_none gap t d hw
    · rw [show t + d - t = d by omega]
      have := Nat.le_max_right (gap * 1000000000) (d * one)
      refine Nat.le_trans this ?_
      rw [Nat.add_assoc]
      exact Nat.le_add_right _ _
    · rw [show t + d - t = d by omega]
      rw [Nat.add_mul]
      exact atOnce _ one gap k d hk m1
  · have hw : waitTime (gap : Int) (frameTime t d : Int) = some (round (gap - k * one)) := by
      unfold waitTime
      rw [hf, if_pos (by omega)]
      congr 2
      omega
    obtain ⟨r1, r2⟩ := round_err (gap - k * one)
    have hfl := round_float (gap - k * one)
    obtain ⟨s, h1, h2, h3, h4⟩ := C183_valid (round (gap - k * one)) hfl (by
      have : (2 : Nat) ^ 31 * one = 2 * (2 ^ 30 * one) := by decide
      omega)
    refine ⟨t + d + slept s, ?_, by omega, ?_, ?_⟩
    · exact next_some gap t d _ s hw h1
    · rw [show t + d + slept s - t = d + slept s by omega, Nat.add_mul d, Nat.add_mul 1000000000]
      exact upper _ one gap k d _ _ (by omega) m2 r1 h3
    · rw [show t + d + slept s - t = d + slept s by omega, Nat.add_mul d, Nat.add_mul 1000000000]
      exact lower _ one gap k d _ _ (by omega) m1 r2 h4

/-- Without an interval every frame follows at once. -/
theorem C183_none (t d : Nat) : next none t d = some (t + d) := rfl

/-- A whole run: there is a start for every frame, and each is the one that follows the frame before it, so that the above holds of each. -/
theorem C183_run (gap : Option Int) : ∀ (ds : List Nat) (t : Nat) (us : List Nat), starts gap t ds = some us →
    us.length = ds.length + 1 ∧ us[0]? = some t ∧ ∀ i d u, ds[i]? = some d → us[i]? = some u → ∃ v, us[i + 1]? = some v ∧ next gap u d = some v := by
  intro ds
  induction ds with
  | nil =>
    intro t us h
    cases h
    exact ⟨rfl, rfl, fun i d u h => by simp at h⟩
  | cons d ds ih =>
    intro t us h
    unfold starts at h
    cases hn : next gap t d with
    | none => rw [hn] at h; cases h
    | some v =>
      rw [hn] at h
      dsimp only at h
      cases hs : starts gap v ds with
      | none => rw [hs] at h; cases h
      | some vs =>
        rw [hs] at h
        cases h
        obtain ⟨i1, i2, i3⟩ := ih v vs hs
        refine ⟨by simp [i1], rfl, ?_⟩
        intro i d' u hd hu
        cases i with
        | zero =>
          cases hd
          cases hu
          exact ⟨v, by simpa using i2, hn⟩
        | succ i => exact i3 i d' u (by simpa using hd) (by simpa using hu)

/-- Non-vacuity: one second is a float; frames of 0.1 s with an interval of 1 s begin every 1.1 s, until a second begins during one. -/
example : IsFloat one := ⟨1, 149, by decide, by decide⟩
example : starts (some (one : Int)) 0 [100000000, 100000000, 0] = some [0, 1100000000, 2200000000, 3200000000] := by decide +kernel
example : starts (some (one : Int)) 950000000 [100000000, 100000000] = some [950000000, 1050000000, 2150000000] := by decide +kernel

end Verif.SimInterval
