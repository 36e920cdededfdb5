import Verif.Model.StringParse
/-!
C91: where a configuration file has a syntax error is reported correctly.
-/
namespace Verif.StringParse

/-! ## Specification -/

/-- A part of a text. -/
def part (s : Text) (a b : Nat) : Text := (s.drop a).take (b - a)

/-- What the comment of `extract_substr_at_pos` promises: text around the position, of the same line, at most `limit`
characters to either side. -/
def Snippet (s : Text) (pos limit : Nat) (r : Text) : Prop :=
  ∃ a b, a ≤ pos ∧ pos < b ∧ b ≤ s.length ∧ r = part s a b ∧ '\n' ∉ r ∧ pos < a + limit ∧ b ≤ pos + limit

/-- C91, full statement, for a position that is not itself the end of a line. -/
def C91_statement : Prop :=
  ∀ (s : Text) (pos limit : Nat), pos < s.length → s[pos]? ≠ some '\n' → 0 < limit →
    ∃ r, extractSubstr s pos limit = some r ∧ Snippet s pos limit r

/-- The line of a position begins at `a`. -/
def LineStart (s : Text) (pos a : Nat) : Prop :=
  a ≤ pos ∧ (a = 0 ∨ s[a - 1]? = some '\n') ∧ ∀ k, a ≤ k → k ≤ pos → s[k]? ≠ some '\n'

/-! ## Searching -/

theorem findFrom_some (pos : Nat) (s : Text) : ∀ (i j : Nat), findFrom pos i s = some j →
    i ≤ j ∧ pos ≤ j ∧ s[j - i]? = some '\n' ∧ ∀ k, i ≤ k → pos ≤ k → k < j → s[k - i]? ≠ some '\n' := by
  induction s with
  | nil => intro i j h; cases h
  | cons c l ih =>
    intro i j h
    unfold findFrom at h
    split at h
    · rename_i hc
      simp only [Option.some.injEq] at h
      subst h
      refine ⟨Nat.le_refl _, hc.2, by simp [hc.1], fun k h1 _ h3 => by omega⟩
    · rename_i hc
      obtain ⟨h1, h2, h3, h4⟩ := ih (i + 1) j h
      refine ⟨by omega, h2, ?_, ?_⟩
      · rw [show j - i = (j - (i + 1)) + 1 by omega]; simpa using h3
      · intro k g1 g2 g3
        rcases Nat.lt_or_ge i k with g | g
        · have := h4 k g g2 g3
          rw [show k - i = (k - (i + 1)) + 1 by omega]; simpa using this
        · have hk : k = i := by omega
          subst hk
          simp only [Nat.sub_self, List.getElem?_cons_zero, ne_eq, Option.some.injEq]
          exact fun e => hc ⟨e, g2⟩

theorem findFrom_none (pos : Nat) (s : Text) : ∀ (i : Nat), findFrom pos i s = none →
    ∀ k, i ≤ k → pos ≤ k → s[k - i]? ≠ some '\n' := by
  induction s with
  | nil => intro i _ k _ _; simp
  | cons c l ih =>
    intro i h k g1 g2
    unfold findFrom at h
    split at h
    · cases h
    · rename_i hc
      rcases Nat.lt_or_ge i k with g | g
      · have := ih (i + 1) h k g g2
        rw [show k - i = (k - (i + 1)) + 1 by omega]; simpa using this
      · have hk : k = i := by omega
        subst hk
        simp only [Nat.sub_self, List.getElem?_cons_zero, ne_eq, Option.some.injEq]
        exact fun e => hc ⟨e, g2⟩

theorem findBack_none (pos : Nat) (s : Text) : ∀ (i : Nat), findBack pos i s = none →
    ∀ k, i ≤ k → k ≤ pos → s[k - i]? ≠ some '\n' := by
  induction s with
  | nil => intro i _ k _ _; simp
  | cons c l ih =>
    intro i h k g1 g2
    unfold findBack at h
    split at h
    · cases h
    · rename_i hn
      split at h
      · cases h
      · rename_i hc
        rcases Nat.lt_or_ge i k with g | g
        · have := ih (i + 1) hn k g g2
          rw [show k - i = (k - (i + 1)) + 1 by omega]; simpa using this
        · have hk : k = i := by omega
          subst hk
          simp only [Nat.sub_self, List.getElem?_cons_zero, ne_eq, Option.some.injEq]
          exact fun e => hc ⟨e, g2⟩

theorem findBack_some (pos : Nat) (s : Text) : ∀ (i j : Nat), findBack pos i s = some j →
    i ≤ j ∧ j ≤ pos ∧ s[j - i]? = some '\n' ∧ ∀ k, j < k → k ≤ pos → s[k - i]? ≠ some '\n' := by
  induction s with
  | nil => intro i j h; cases h
  | cons c l ih =>
    intro i j h
    unfold findBack at h
    split at h
    · rename_i j' hj
      simp only [Option.some.injEq] at h
      subst h
      obtain ⟨h1, h2, h3, h4⟩ := ih (i + 1) j' hj
      refine ⟨by omega, h2, ?_, ?_⟩
      · rw [show j' - i = (j' - (i + 1)) + 1 by omega]; simpa using h3
      · intro k g1 g2
        have := h4 k g1 g2
        rw [show k - i = (k - (i + 1)) + 1 by omega]; simpa using this
    · rename_i hn
      split at h
      · rename_i hc
        simp only [Option.some.injEq] at h
        subst h
        refine ⟨Nat.le_refl _, hc.2, by simp [hc.1], ?_⟩
        intro k g1 g2
        have := findBack_none pos l (i + 1) hn k g1 g2
        rw [show k - i = (k - (i + 1)) + 1 by omega]; simpa using this
      · cases h

/-- The beginning of the line, found by the search. -/
theorem findBack_start (s : Text) (pos a : Nat) (h : LineStart s pos a) : toInt (findBack pos 0 s) + 1 = a := by
  obtain ⟨h1, h2, h3⟩ := h
  cases hf : findBack pos 0 s with
  | none =>
    have := findBack_none pos s 0 hf
    rcases h2 with h2 | h2
    · subst h2; rfl
    · exact absurd h2 (by
        have := this (a - 1) (Nat.zero_le _) (by omega)
        simpa using this)
  | some j =>
    obtain ⟨g1, g2, g3, g4⟩ := findBack_some pos s 0 j hf
    simp only [Nat.sub_zero] at g3 g4
    simp only [toInt]
    have k1 : j < a := by
      rcases Nat.lt_or_ge j a with g | g
      · exact g
      · exact absurd g3 (h3 j g g2)
    have k2 : ¬ j + 1 < a := by
      intro g
      rcases h2 with h2 | h2
      · omega
      · exact g4 (a - 1) (by omega) (by omega) h2
    omega

/-! ## Line numbers -/

/-- The line number reported is right: one more than the line ends before the position. -/
theorem count_take_succ (s : Text) (p q : Nat) (h : p ≤ q) (hn : ∀ k, p ≤ k → k < q → s[k]? ≠ some '\n') :
    (s.take q).count '\n' = (s.take p).count '\n' := by
  induction q with
  | zero => simp [show p = 0 by omega]
  | succ q ih =>
    rcases Nat.lt_or_ge p (q + 1) with g | g
    · rw [← ih (by omega) (fun k h1 h2 => hn k h1 (by omega)), List.take_succ, List.count_append]
      have := hn q (by omega) (by omega)
      cases hq : s[q]? with
      | none => simp
      | some c =>
        rw [hq] at this
        have hc : c ≠ '\n' := fun e => this (by rw [e])
        simp [hc]
    · rw [show p = q + 1 by omega]

theorem count_take_newline (s : Text) (p : Nat) (h : s[p]? = some '\n') :
    (s.take (p + 1)).count '\n' = (s.take p).count '\n' + 1 := by
  rw [List.take_succ, List.count_append, h]
  rfl

theorem lineLoop_count (s : Text) (pos : Nat) : ∀ (fuel q n : Nat), s.length ≤ fuel + q →
    (q ≤ pos ∨ q = 0) → n = 1 + (s.take q).count '\n' → lineLoop s pos (fuel + 1) (findFrom q 0 s) n = 1 + (s.take pos).count '\n' := by
  intro fuel
  induction fuel with
  | zero =>
    intro q n hl hq hn
    have hf : findFrom q 0 s = none := by
      cases hf : findFrom q 0 s with
      | none => rfl
      | some j =>
        obtain ⟨_, h2, h3, _⟩ := findFrom_some q s 0 j hf
        simp only [Nat.sub_zero] at h3
        have := (List.getElem?_eq_some_iff.1 h3).1
        omega
    rw [hf]
    unfold lineLoop
    rw [hn]
    rcases hq with hq | hq
    · rw [count_take_succ s q pos hq (fun k h1 _ => by simpa using findFrom_none q s 0 hf k (Nat.zero_le _) h1)]
    · subst hq
      rw [count_take_succ s 0 pos (Nat.zero_le _) (fun k h1 _ => by simpa using findFrom_none 0 s 0 hf k (Nat.zero_le _) h1)]
  | succ fuel ih =>
    intro q n hl hq hn
    have hq' : q ≤ pos := by omega
    cases hf : findFrom q 0 s with
    | none =>
      unfold lineLoop
      rw [hn, count_take_succ s q pos hq' (fun k h1 _ => by simpa using findFrom_none q s 0 hf k (Nat.zero_le _) h1)]
    | some j =>
      obtain ⟨_, h2, h3, h4⟩ := findFrom_some q s 0 j hf
      simp only [Nat.sub_zero] at h3 h4
      unfold lineLoop
      split
      · rename_i hj
        refine ih (j + 1) (n + 1) (by omega) (Or.inl hj) ?_
        rw [count_take_newline s j h3, count_take_succ s q j h2 (fun k h1 g => h4 k (Nat.zero_le _) h1 g)]
        omega
      · rename_i hj
        rw [hn, count_take_succ s q pos hq' (fun k h1 g => h4 k (Nat.zero_le _) h1 (by omega))]

theorem C91_line (s : Text) (pos : Nat) : extractLineNo s pos = 1 + (s.take pos).count '\n' := by
  unfold extractLineNo
  exact lineLoop_count s pos s.length 0 1 (by omega) (Or.inr rfl) (by simp)

/-! ## Snippets -/

theorem part_newline (s : Text) (a b : Nat) (h : ∀ k, a ≤ k → k < b → s[k]? ≠ some '\n') : '\n' ∉ part s a b := by
  intro hm
  obtain ⟨i, hi, he⟩ := List.mem_iff_getElem.1 hm
  have h1 : (part s a b)[i]? = some '\n' := by rw [List.getElem?_eq_getElem hi, he]
  unfold part at h1 hi
  simp only [List.length_take, List.length_drop] at hi
  rw [List.getElem?_take_of_lt (by omega), List.getElem?_drop] at h1
  exact h (a + i) (by omega) (by omega) h1

theorem substr_rest (s : Text) (start count : Int) (a : Nat) (h : start = a) (ha : a ≤ s.length) (hc : count < 0) :
    substr s start count = some (s.drop a) := by
  unfold substr
  rw [if_neg (by omega), if_pos hc, h, Int.toNat_natCast]

theorem substr_part (s : Text) (start count : Int) (a n : Nat) (h : start = a) (ha : a ≤ s.length) (hc : count = n) :
    substr s start count = some ((s.drop a).take n) := by
  unfold substr
  rw [if_neg (by omega), if_neg (by omega), h, hc, Int.toNat_natCast, Int.toNat_natCast]

/-- C91, proved part: when the error is at least `limit` characters from the beginning of its line the text reported is
the line up to at most `limit` characters behind the error, or up to the end if the line is the last one. -/
theorem C91_partial (s : Text) (pos limit a : Nat) (hp : pos < s.length) (h0 : 0 < limit) (ha : LineStart s pos a)
    (hl : a + limit ≤ pos + 1) :
    ∃ b, pos < b ∧ b ≤ s.length ∧ extractSubstr s pos limit = some (part s a b) ∧ '\n' ∉ part s a b ∧
      (b ≤ pos + limit ∨ b = s.length) := by
  have hb := findBack_start s pos a ha
  have hpre : min ((pos : Int) - limit) (toInt (findBack pos 0 s)) = (a : Int) - 1 := by omega
  have hnl := ha.2.2
  have hap := ha.1
  unfold extractSubstr
  simp only [hpre]
  cases hf : findFrom pos 0 s with
  | none =>
    have hn := findFrom_none pos s 0 hf
    refine ⟨s.length, hp, Nat.le_refl _, ?_, ?_, Or.inr rfl⟩
    · rw [substr_rest s _ _ a (by omega) (by omega) (by simp only [toInt]; omega)]
      unfold part
      rw [List.take_of_length_le (by simp)]
    · exact part_newline s a _ fun k h1 _ => by
        rcases Nat.lt_or_ge k pos with g | g
        · exact hnl k h1 (by omega)
        · simpa using hn k (Nat.zero_le _) g
  | some j =>
    obtain ⟨_, h2, h3, h4⟩ := findFrom_some pos s 0 j hf
    simp only [Nat.sub_zero] at h3 h4
    have hj := (List.getElem?_eq_some_iff.1 h3).1
    have hne : j ≠ pos := fun e => hnl pos hap (Nat.le_refl _) (e ▸ h3)
    refine ⟨min (pos + limit) j, by omega, by omega, ?_, ?_, Or.inl (Nat.min_le_left _ _)⟩
    · rw [substr_part s _ _ a (min (pos + limit) j - a) (by omega) (by omega) (by simp only [toInt]; omega)]
      rfl
    · exact part_newline s a _ fun k h1 g1 => by
        rcases Nat.lt_or_ge k pos with g | g
        · exact hnl k h1 (by omega)
        · exact h4 k (Nat.zero_le _) g (by omega)

/-- An error in the first characters of the file is not reported at all: the report throws `out_of_range`. -/
theorem C91_throws (s : Text) (pos limit : Nat) (h : pos + 1 < limit) : extractSubstr s pos limit = none := by
  unfold extractSubstr
  simp only
  unfold substr
  rw [if_pos (Or.inl (by omega))]

theorem C91_violated : ¬ C91_statement := by
  intro h
  obtain ⟨r, h1, _⟩ := h ['x'] 0 15 (by decide) (by decide) (by decide)
  rw [C91_throws _ _ _ (by decide)] at h1
  cases h1

/-- Closer to the beginning of a later line than `limit`, the report shows text of the lines before. -/
theorem C91_lines : extractSubstr "{\n \"a\": 1,\n \"b\" 2\n}\n".toList 16 15 = some " \"a\": 1,\n \"b\" 2".toList := by decide +kernel

example : LineStart "{\n  \"some_parameter\" 2\n}\n".toList 21 2 ∧
    extractSubstr "{\n  \"some_parameter\" 2\n}\n".toList 21 15 = some "  \"some_parameter\" 2".toList ∧
    extractLineNo "{\n  \"some_parameter\" 2\n}\n".toList 21 = 2 := by
  refine ⟨⟨by decide, Or.inr (by decide), ?_⟩, by decide +kernel, by decide +kernel⟩
  intro k h1 h2
  have : ∀ k, k < 22 → 2 ≤ k → "{\n  \"some_parameter\" 2\n}\n".toList[k]? ≠ some '\n' := by decide +kernel
  exact this k (by omega) h1

end Verif.StringParse
