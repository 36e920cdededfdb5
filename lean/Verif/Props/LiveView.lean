import Verif.Model.LiveView
import Verif.Lemmas.StdMap
/-! Property C23: live view down-samples exactly and never withholds frames. -/
namespace Verif.LiveView
open Verif.StdMap

namespace Spec

/-- A frame the live view is to consider: its dataset and one of its tags are asked for, if any are. -/
def Eligible (datasets tags : List String) (f : Frame) : Prop :=
  (datasets = [] ∨ f.dataset ∈ datasets) ∧ (tags = [] ∨ ∃ t ∈ tags, t ∈ f.params)

instance (datasets tags : List String) (f : Frame) : Decidable (Eligible datasets tags f) := by
  unfold Eligible; infer_instance

/-- Frames down-sampled together: those of one dataset if there is a filter, all frames otherwise. -/
def Together (datasets : List String) (f g : Frame) : Prop := datasets = [] ∨ f.dataset = g.dataset

instance (datasets : List String) (f g : Frame) : Decidable (Together datasets f g) := by
  unfold Together; infer_instance

/-- How many eligible frames of the same kind as `f` plugin `k` has had. -/
def before (k : Nat) (datasets tags : List String) (es : List Ev) (f : Frame) : Nat :=
  (es.filter (fun e => e.who = k ∧ Eligible datasets tags e.frame ∧ Together datasets e.frame f)).length

/-- A plugin bound and configured with a frequency, without rate, before the first frame. -/
def configured (datasets tags : List String) (freq : Int) : State :=
  setDatasets { bound := true, tags := tags, freq := freq } datasets

end Spec
open Spec

/-! ## The dataset filter -/

theorem find_foldl (names : List String) : ∀ (m : Map Int), Ordered m →
    Ordered (names.foldl (fun m n => set m n 0) m) ∧
    ∀ d, find (names.foldl (fun m n => set m n 0) m) d = if d ∈ names then some 0 else find m d := by
  induction names with
  | nil => intro m h; exact ⟨h, fun d => by simp⟩
  | cons n ns ih =>
    intro m h
    obtain ⟨h1, h2⟩ := ih (set m n 0) (ordered_set _ _ _ h)
    refine ⟨h1, fun d => ?_⟩
    simp only [List.foldl_cons]
    rw [h2 d, find_set _ _ _ _ h]
    by_cases hd : d ∈ ns
    · simp [hd]
    · by_cases hn : n = d
      · simp [hn]
      · simp [hd, hn, Ne.symm hn]

/-- What stays and what counts in a plugin, relative to its configuration. -/
structure Counts (s : State) (datasets tags : List String) (freq : Int) (n : String → Int) : Prop where
  ordered : Ordered s.datasets
  found : ∀ d, find s.datasets d = if d ∈ datasets then some (n d) else none
  bound : s.bound = true
  tags : s.tags = tags
  freq : s.freq = freq
  rate : s.perSecond = 0

theorem counts_configured (datasets tags : List String) (freq : Int) :
    Counts (configured datasets tags freq) datasets tags freq (fun _ => 0) := by
  obtain ⟨h1, h2⟩ := find_foldl datasets [] List.Pairwise.nil
  exact ⟨h1, h2, rfl, rfl, rfl, rfl⟩

theorem isEmpty_iff_found {s : State} {datasets tags : List String} {freq : Int} {n : String → Int}
    (h : Counts s datasets tags freq n) : s.datasets.isEmpty = true ↔ datasets = [] := by
  constructor
  · intro he
    have hn : s.datasets = [] := List.isEmpty_iff.1 he
    cases datasets with
    | nil => rfl
    | cons d ds =>
      have := h.found d
      rw [hn] at this
      simp [find] at this
  · intro he
    cases hs : s.datasets with
    | nil => rfl
    | cons x xs =>
      have := h.found x.1
      rw [hs, he] at this
      simp [find] at this

theorem selected_iff {s : State} {datasets tags : List String} {freq : Int} {n : String → Int}
    (h : Counts s datasets tags freq n) (f : Frame) : selected s f = true ↔ Eligible datasets tags f := by
  unfold selected Eligible
  have he := isEmpty_iff_found h
  have hf : (find s.datasets f.dataset).isSome = true ↔ f.dataset ∈ datasets := by
    rw [h.found]; split <;> simp_all
  rw [Bool.and_eq_true, Bool.and_eq_true, Bool.or_eq_true, Bool.or_eq_true, he, hf, h.bound, h.tags,
    List.isEmpty_iff, List.any_eq_true]
  simp

theorem display_keeps (s : State) (c n1 n2 : Int) :
    (display s c n1 n2).1.datasets = s.datasets ∧ (display s c n1 n2).1.bound = s.bound ∧
    (display s c n1 n2).1.tags = s.tags ∧ (display s c n1 n2).1.freq = s.freq ∧
    (display s c n1 n2).1.perSecond = s.perSecond ∧ (display s c n1 n2).1.between = s.between := by
  unfold display; split <;> exact ⟨rfl, rfl, rfl, rfl, rfl, rfl⟩

theorem display_freq (s : State) (c n1 n2 : Int) (h : s.perSecond = 0) :
    (display s c n1 n2).2 = .passed (freqOk s c) := by
  unfold display
  have : rateOk s n1 = false := by unfold rateOk; simp [h]
  rw [this, Bool.false_or]
  cases freqOk s c <;> rfl

theorem counts_display {s : State} {datasets tags : List String} {freq : Int} {n : String → Int}
    (h : Counts s datasets tags freq n) (c n1 n2 : Int) : Counts (display s c n1 n2).1 datasets tags freq n := by
  obtain ⟨h1, h2, h3, h4, h5, -⟩ := display_keeps s c n1 n2
  exact ⟨by rw [h1]; exact h.ordered, by rw [h1]; exact h.found, h2.trans h.bound, h3.trans h.tags,
    h4.trans h.freq, h5.trans h.rate⟩

/-- One frame at a plugin with a count for its dataset. -/
theorem processFrame_filtered {s : State} {datasets tags : List String} {freq : Int} {n : String → Int}
    (h : Counts s datasets tags freq n) (st : Nat) (f : Frame) (n1 n2 : Int) (hd : datasets ≠ [])
    (hn : n f.dataset < 2147483647) :
    Counts (processFrame s st f n1 n2).1 datasets tags freq
      (fun d => if Eligible datasets tags f ∧ f.dataset = d then n d + 1 else n d) ∧
    (processFrame s st f n1 n2).2.2 =
      .passed (decide (Eligible datasets tags f) && (freq != 0 && (n f.dataset).tmod freq == 0)) := by
  unfold processFrame
  by_cases he : Eligible datasets tags f
  · rw [if_pos ((selected_iff h f).2 he)]
    have hmem : f.dataset ∈ datasets := he.1.resolve_left hd
    have hfind : find s.datasets f.dataset = some (n f.dataset) := by rw [h.found, if_pos hmem]
    rw [hfind]
    simp only [counted]
    rw [if_neg (by omega)]
    have hc : Counts { s with datasets := set s.datasets f.dataset (n f.dataset + 1) } datasets tags freq
        (fun d => if Eligible datasets tags f ∧ f.dataset = d then n d + 1 else n d) := by
      refine ⟨ordered_set _ _ _ h.ordered, ?_, h.bound, h.tags, h.freq, h.rate⟩
      intro d
      rw [find_set _ _ _ _ h.ordered]
      by_cases hfd : f.dataset = d
      · subst hfd; simp [he, hmem]
      · simp only [hfd, and_false, if_false]; exact h.found d
    refine ⟨counts_display hc _ _ _, ?_⟩
    show (display { s with datasets := set s.datasets f.dataset (n f.dataset + 1) } (n f.dataset) n1 n2).2 = _
    rw [display_freq { s with datasets := set s.datasets f.dataset (n f.dataset + 1) } _ _ _ h.rate]
    simp only [decide_eq_true he, Bool.true_and]
    unfold freqOk
    rw [show ({ s with datasets := set s.datasets f.dataset (n f.dataset + 1) } : State).freq = freq from h.freq]
  · rw [if_neg (fun x => he ((selected_iff h f).1 x))]
    constructor
    · have : (fun d => if Eligible datasets tags f ∧ f.dataset = d then n d + 1 else n d) = n := by
        funext d; simp [he]
      rw [this]; exact h
    · simp [he]

/-- One frame at a plugin without dataset filter. -/
theorem processFrame_unfiltered {s : State} {tags : List String} {freq : Int} {n : String → Int}
    (h : Counts s [] tags freq n) (st : Nat) (f : Frame) (n1 n2 : Int) (hst : st < 2147483648) :
    Counts (processFrame s st f n1 n2).1 [] tags freq n ∧
    (processFrame s st f n1 n2).2.1 = (if Eligible [] tags f then st + 1 else st) ∧
    (processFrame s st f n1 n2).2.2 =
      .passed (decide (Eligible [] tags f) && (freq != 0 && ((st : Int)).tmod freq == 0)) := by
  unfold processFrame
  by_cases he : Eligible [] tags f
  · rw [if_pos ((selected_iff h f).2 he), h.found]
    simp only [List.not_mem_nil, if_false, counted, if_pos he]
    rw [if_neg (by omega)]
    refine ⟨counts_display h _ _ _, (by dsimp only; omega), ?_⟩
    rw [display_freq _ _ _ _ h.rate]
    simp only [decide_eq_true he, Bool.true_and]
    unfold freqOk toInt
    rw [if_pos hst, h.freq]
  · rw [if_neg (fun x => he ((selected_iff h f).1 x)), if_neg he]
    exact ⟨h, rfl, by simp [he]⟩

/-! ## C23, frequency -/

/-- C23, frequency, full statement: whatever live view plugins there are and whatever frames they had, a
plugin with frequency `N` and no rate displays a frame iff it is eligible and the number of eligible frames of
its dataset before (of all frames, without dataset filter) is a multiple of `N`. -/
def C23_statement : Prop :=
  ∀ (y : Sys) (k : Nat) (datasets tags : List String) (N : Nat) (es : List Ev) (f : Frame) (n1 n2 : Int),
    y.static = 0 → y.plugin k = configured datasets tags N → 0 < N →
    (step (after y es) ⟨k, f, n1, n2⟩).2 =
      .passed (decide (Eligible datasets tags f ∧ N ∣ before k datasets tags es f))

theorem tmod_dvd (a N : Nat) (hN : 0 < N) : (((N : Int) != 0) && (((a : Int)).tmod N == 0)) = decide (N ∣ a) := by
  have h1 : ((N : Int) != 0) = true := by simp; omega
  rw [h1, Bool.true_and, Bool.eq_iff_iff, beq_iff_eq, decide_eq_true_iff]
  rw [Int.tmod_eq_emod_of_nonneg (by omega), ← Int.dvd_iff_emod_eq_zero]
  exact Int.natCast_dvd_natCast

theorem before_append (k : Nat) (ds ts : List String) (es : List Ev) (e : Ev) (f : Frame) :
    before k ds ts (es ++ [e]) f =
      before k ds ts es f + if e.who = k ∧ Eligible ds ts e.frame ∧ Together ds e.frame f then 1 else 0 := by
  unfold before
  rw [List.filter_append, List.length_append]
  congr 1
  by_cases h : e.who = k ∧ Eligible ds ts e.frame ∧ Together ds e.frame f <;> simp [h]

theorem before_le (k : Nat) (ds ts : List String) (es : List Ev) (f : Frame) : before k ds ts es f ≤ es.length :=
  List.length_filter_le _ _

theorem after_append (y : Sys) (es : List Ev) (e : Ev) : after y (es ++ [e]) = (step (after y es) e).1 := by
  unfold after; rw [List.foldl_append]; rfl

/-- induction from the end. -/
theorem list_rev_induction {α} {P : List α → Prop} (h0 : P []) (h1 : ∀ l a, P l → P (l ++ [a])) (l : List α) : P l := by
  suffices ∀ l : List α, P l.reverse by have := this l.reverse; rwa [List.reverse_reverse] at this
  intro l
  induction l with
  | nil => exact h0
  | cons a l ih => rw [List.reverse_cons]; exact h1 _ _ ih

theorem filtered_counts (y : Sys) (k : Nat) (datasets tags : List String) (N : Nat)
    (hk : y.plugin k = configured datasets tags N) (hd : datasets ≠ []) (es : List Ev) :
    es.length ≤ 2147483647 →
    Counts ((after y es).plugin k) datasets tags N (fun d => (before k datasets tags es ⟨d, []⟩ : Int)) := by
  induction es using list_rev_induction with
  | h0 => intro _; simp only [after, List.foldl_nil]; rw [hk]; exact counts_configured datasets tags N
  | h1 es e ih =>
    intro hl
    rw [List.length_append, List.length_singleton] at hl
    have ih := ih (by omega)
    rw [after_append]
    simp only [step]
    by_cases hw : k = e.who
    · rw [if_pos hw]
      subst hw
      have hb := before_le e.who datasets tags es ⟨e.frame.dataset, []⟩
      have := (processFrame_filtered ih (after y es).static e.frame e.now1 e.now2 hd (by omega)).1
      refine (Eq.mp ?_ this)
      congr 1
      funext d
      rw [before_append]
      by_cases hc : Eligible datasets tags e.frame ∧ e.frame.dataset = d
      · simp only [Together, hd, false_or, true_and]
        rw [if_pos hc, if_pos hc]; omega
      · simp only [Together, hd, false_or, true_and]
        rw [if_neg hc, if_neg hc]; omega
    · rw [if_neg hw]
      have : (fun d => (before k datasets tags (es ++ [e]) ⟨d, []⟩ : Int))
          = fun d => (before k datasets tags es ⟨d, []⟩ : Int) := by
        funext d; rw [before_append, if_neg (fun h => hw h.1.symm)]; rfl
      rw [this]; exact ih

/-- C23, frequency, proved part 1: with a dataset filter, whatever other live view plugins do, for fewer than
2^31 - 1 frames. Missing: longer runs, where the count overflows (`C23_overflow_ub`). -/
theorem C23_partial (y : Sys) (k : Nat) (datasets tags : List String) (N : Nat) (es : List Ev) (f : Frame)
    (n1 n2 : Int) (hk : y.plugin k = configured datasets tags N) (hN : 0 < N) (hd : datasets ≠ [])
    (hl : es.length < 2147483647) :
    (step (after y es) ⟨k, f, n1, n2⟩).2 =
      .passed (decide (Eligible datasets tags f ∧ N ∣ before k datasets tags es f)) := by
  have hc := filtered_counts y k datasets tags N hk hd es (by omega)
  have hb := before_le k datasets tags es ⟨f.dataset, []⟩
  have := (processFrame_filtered hc (after y es).static f n1 n2 hd (by omega)).2
  simp only [step]
  rw [this, tmod_dvd _ _ hN]
  rw [Bool.decide_and]
  rfl

/-- C23, frequency, proved part 2: without dataset filter, if this is the only live view plugin without
filter that gets frames (here: the only one), for at most 2^31 frames. Missing: several plugins
(`C23_violated`), longer runs (`C23_wrap`). -/
theorem C23_single_partial (y : Sys) (k : Nat) (tags : List String) (N : Nat) (es : List Ev) (f : Frame)
    (n1 n2 : Int) (hs : y.static = 0) (hk : y.plugin k = configured [] tags N) (hN : 0 < N)
    (ho : ∀ e ∈ es, e.who = k) (hl : es.length < 2147483648) :
    (step (after y es) ⟨k, f, n1, n2⟩).2 =
      .passed (decide (Eligible [] tags f ∧ N ∣ before k [] tags es f)) := by
  have inv : ∀ es : List Ev, (∀ e ∈ es, e.who = k) → es.length < 2147483648 →
      Counts ((after y es).plugin k) [] tags N (fun _ => 0) ∧
      ∀ g, (after y es).static = before k [] tags es g := by
    intro es
    induction es using list_rev_induction with
    | h0 => intro _ _; simp only [after, List.foldl_nil]; rw [hk]; exact ⟨counts_configured [] tags N, fun g => hs⟩
    | h1 es e ih =>
      intro ho hl
      rw [List.length_append, List.length_singleton] at hl
      obtain ⟨ih1, ih2⟩ := ih (fun x hx => ho x (List.mem_append_left _ hx)) (by omega)
      have hw : e.who = k := ho e (by simp)
      have hb := before_le k [] tags es f
      obtain ⟨p1, p2, -⟩ := processFrame_unfiltered ih1 (after y es).static e.frame e.now1 e.now2
        (by rw [ih2 f]; omega)
      rw [after_append]
      simp only [step, hw, if_true]
      refine ⟨p1, fun g => ?_⟩
      rw [p2, before_append, ih2 g]
      by_cases he : Eligible [] tags e.frame <;> simp [he, hw, Together]
  obtain ⟨i1, i2⟩ := inv es ho hl
  have hb := before_le k [] tags es f
  obtain ⟨-, -, p3⟩ := processFrame_unfiltered i1 (after y es).static f n1 n2 (by rw [i2 f]; omega)
  simp only [step]
  rw [p3, i2 f, tmod_dvd _ _ hN, Bool.decide_and]

/-- C23 is false of the code: the count is a static variable, so two live view plugins in one process
disturb each other. With frequency 2 and frames going to both, one displays all and the other none. -/
theorem C23_violated : ¬ C23_statement := by
  intro h
  have := h { plugin := fun _ => configured [] [] 2 } 0 [] [] 2 [⟨0, ⟨"d", []⟩, 0, 0⟩, ⟨1, ⟨"d", []⟩, 0, 0⟩] ⟨"d", []⟩ 0 0 rfl rfl (by decide)
  revert this
  decide +kernel

/-- In a run over 2^31 frames the static count, read as a signed number, falls out of step: frame 2^31 + 1
(counted from 0) is a multiple of 3 and is not displayed. -/
theorem C23_wrap (s : State) (f : Frame) (n1 n2 : Int) (h : Counts s [] [] 3 (fun _ => 0)) :
    (processFrame s (2147483648 + 1) f n1 n2).2.2 = .passed false ∧ 3 ∣ 2147483648 + 1 := by
  refine ⟨?_, by decide⟩
  unfold processFrame
  rw [if_pos ((selected_iff h f).2 ⟨Or.inl rfl, Or.inl rfl⟩), h.found]
  simp only [List.not_mem_nil, if_false, counted]
  rw [if_neg (fun k => absurd k.1 (by decide))]
  rw [display_freq _ _ _ _ h.rate]
  unfold freqOk
  rw [h.freq]
  have : ((3 : Int) != 0 && (toInt (2147483648 + 1)).tmod 3 == 0) = false := by decide +kernel
  rw [this]

theorem processFrame_static {s : State} {freq : Int} {n : String → Int}
    (h : Counts s [] [] freq n) (hf : freq ≠ -1) (st : Nat) (f : Frame) (n1 n2 : Int) :
    Counts (processFrame s st f n1 n2).1 [] [] freq n ∧
    (processFrame s st f n1 n2).2.1 = (st + 1) % 4294967296 := by
  unfold processFrame
  rw [if_pos ((selected_iff h f).2 ⟨Or.inl rfl, Or.inl rfl⟩), h.found]
  simp only [List.not_mem_nil, if_false, counted]
  rw [if_neg (fun k => hf (h.freq.symm.trans k.2))]
  exact ⟨counts_display h _ _ _, rfl⟩

/-- The static count after any number of frames. -/
theorem static_count (y : Sys) (N : Int) (e : Ev) (hN : N ≠ -1) (hs : y.static = 0) (hk : y.plugin e.who = configured [] [] N) (n : Nat) :
    Counts ((after y (List.replicate n e)).plugin e.who) [] [] N (fun _ => 0) ∧
    (after y (List.replicate n e)).static = n % 4294967296 := by
  induction n with
  | zero => simp only [List.replicate_zero, after, List.foldl_nil]; rw [hk]; exact ⟨counts_configured [] [] N, by omega⟩
  | succ n ih =>
    rw [List.replicate_succ', after_append]
    obtain ⟨a, b⟩ := processFrame_static ih.1 hN (after y (List.replicate n e)).static e.frame e.now1 e.now2
    simp only [step, if_true]
    exact ⟨a, by rw [b, ih.2]; omega⟩

/-- C23 is false also for a single plugin, in a run of more than 2^31 frames: with frequency 3, the frame after
2^31 + 1 others should be displayed and is not. -/
theorem C23_single_violated : ∃ (y : Sys) (n : Nat) (e : Ev), y.static = 0 ∧ y.plugin e.who = configured [] [] 3 ∧
    3 ∣ before e.who [] [] (List.replicate n e) e.frame ∧ Eligible [] [] e.frame ∧
    (step (after y (List.replicate n e)) e).2 = .passed false := by
  obtain ⟨n, hn⟩ : ∃ n, n = 2147483648 + 1 := ⟨_, rfl⟩
  refine ⟨{ plugin := fun _ => configured [] [] 3 }, n, ⟨0, ⟨"d", []⟩, 0, 0⟩, rfl, rfl, ?_, ⟨Or.inl rfl, Or.inl rfl⟩, ?_⟩
  · have : before 0 [] [] (List.replicate n ⟨0, ⟨"d", []⟩, 0, 0⟩) ⟨"d", []⟩ = n := by
      unfold before
      rw [List.filter_replicate_of_pos (by simp [Eligible, Together]), List.length_replicate]
    show 3 ∣ before 0 [] [] (List.replicate n ⟨0, ⟨"d", []⟩, 0, 0⟩) ⟨"d", []⟩
    rw [this]; omega
  · obtain ⟨a, b⟩ := static_count { plugin := fun _ => configured [] [] 3 } 3 ⟨0, ⟨"d", []⟩, 0, 0⟩ (by decide) rfl rfl n
    simp only [step]
    rw [b, show n % 4294967296 = 2147483648 + 1 by omega]
    exact (C23_wrap _ _ _ _ a).1

/-- The count of a dataset overflows after 2^31 - 1 frames. -/
theorem C23_overflow_ub (s : State) (st : Nat) (f : Frame) (n1 n2 : Int) (hb : selected s f = true)
    (h : find s.datasets f.dataset = some 2147483647) : (processFrame s st f n1 n2).2.2 = .ub := by
  unfold processFrame
  rw [if_pos hb, h]
  generalize hc : (2147483647 : Int) = c
  simp only [counted]
  rw [if_pos hc.symm]

/-- With frequency -1, which is accepted, frame 2^31 divides the smallest `int` by -1. -/
theorem C23_remainder_ub (y : Sys) (e : Ev) (tags : List String) (h : Counts (y.plugin e.who) [] tags (-1) (fun _ => 0))
    (he : Eligible [] tags e.frame) (hs : y.static = 2147483648) : (step y e).2 = .ub := by
  unfold step processFrame
  rw [if_pos ((selected_iff h e.frame).2 he), h.found]
  simp only [List.not_mem_nil, if_false, counted]
  rw [if_pos ⟨hs, h.freq⟩]

/-! ## C23, rate -/

/-- C23, rate: with the frequency off, a frame is displayed iff it is eligible and more than the period
configured has passed since the last display. -/
theorem C23_rate_exact (s : State) (st : Nat) (f : Frame) (n1 n2 : Int) (hf : s.freq = 0) (hp : s.perSecond ≠ 0)
    (hub : (processFrame s st f n1 n2).2.2 ≠ .ub) :
    ((processFrame s st f n1 n2).2.2 = .passed true ↔
      selected s f = true ∧ ∀ t, s.last = some t → n1 - t > s.between) ∧
    ((processFrame s st f n1 n2).2.2 = .passed true → (processFrame s st f n1 n2).1.last = some n2) ∧
    ((processFrame s st f n1 n2).2.2 ≠ .passed true → (processFrame s st f n1 n2).1.last = s.last) ∧
    (processFrame s st f n1 n2).1.freq = s.freq ∧ (processFrame s st f n1 n2).1.perSecond = s.perSecond ∧
    (processFrame s st f n1 n2).1.between = s.between := by
  have hdisp : ∀ (s' : State) (c : Int), s'.freq = 0 → s'.perSecond ≠ 0 →
      ((display s' c n1 n2).2 = .passed true ↔ ∀ t, s'.last = some t → n1 - t > s'.between) ∧
      ((display s' c n1 n2).2 = .passed true → (display s' c n1 n2).1.last = some n2) ∧
      ((display s' c n1 n2).2 ≠ .passed true → (display s' c n1 n2).1.last = s'.last) := by
    intro s' c h1 h2
    have hfq : freqOk s' c = false := by unfold freqOk; simp [h1]
    have hr : rateOk s' n1 = true ↔ ∀ t, s'.last = some t → n1 - t > s'.between := by
      unfold rateOk
      have : (s'.perSecond != 0) = true := by simpa using h2
      rw [this, Bool.true_and]
      cases s'.last with
      | none => simp
      | some t => simp
    unfold display
    rw [hfq, Bool.or_false]
    by_cases hc : rateOk s' n1 = true
    · rw [if_pos hc]; exact ⟨⟨fun _ => hr.1 hc, fun _ => rfl⟩, fun _ => rfl, fun h => absurd rfl h⟩
    · rw [if_neg hc]
      exact ⟨⟨fun h => (by cases h), fun h => absurd (hr.2 h) hc⟩, fun h => (by cases h), fun _ => rfl⟩
  unfold processFrame at hub ⊢
  by_cases hs : selected s f = true
  · rw [if_pos hs] at hub ⊢
    cases hfd : find s.datasets f.dataset with
    | none =>
      simp only [counted]
      rw [if_neg (fun k => absurd (hf.symm.trans k.2) (by decide))]
      obtain ⟨a, b, c⟩ := hdisp s (toInt st) hf hp
      obtain ⟨-, -, -, k1, k2, k3⟩ := display_keeps s (toInt st) n1 n2
      exact ⟨⟨fun h => ⟨hs, a.1 h⟩, fun h => a.2 h.2⟩, b, c, k1, k2, k3⟩
    | some c0 =>
      rw [hfd] at hub
      simp only [counted] at hub ⊢
      by_cases hov : c0 = 2147483647
      · rw [if_pos hov] at hub; exact absurd rfl hub
      · rw [if_neg hov]
        obtain ⟨a, b, c⟩ := hdisp { s with datasets := set s.datasets f.dataset (c0 + 1) } c0 hf hp
        obtain ⟨-, -, -, k1, k2, k3⟩ := display_keeps { s with datasets := set s.datasets f.dataset (c0 + 1) } c0 n1 n2
        exact ⟨⟨fun h => ⟨hs, a.1 h⟩, fun h => a.2 h.2⟩, b, c, k1, k2, k3⟩
  · rw [if_neg hs]
    exact ⟨⟨fun h => (by cases h), fun h => absurd h.1 hs⟩, fun h => (by cases h), fun _ => rfl, rfl, rfl, rfl⟩

theorem processFrame_ub (s : State) (st : Nat) (f : Frame) (n1 n2 : Int)
    (h : (processFrame s st f n1 n2).2.2 = .ub) : (processFrame s st f n1 n2).1 = s := by
  have hd : ∀ (s' : State) (c : Int), (display s' c n1 n2).2 ≠ .ub := by
    intro s' c; unfold display; split <;> exact fun h => by cases h
  unfold processFrame at h ⊢
  by_cases hs : selected s f = true
  · rw [if_pos hs] at h ⊢
    cases hfd : find s.datasets f.dataset with
    | none =>
      rw [hfd] at h
      unfold counted at h ⊢
      by_cases hc : st = 2147483648 ∧ s.freq = -1
      · simp only [if_pos hc]
      · simp only [if_neg hc] at h; exact absurd h (hd _ _)
    | some c =>
      rw [hfd] at h
      unfold counted at h ⊢
      by_cases hc : c = 2147483647
      · simp only [if_pos hc]
      · simp only [if_neg hc] at h; exact absurd h (hd _ _)
  · rw [if_neg hs]

namespace Spec
/-- Plugin `k` displays nothing while the events arrive. -/
def Quiet (k : Nat) (y : Sys) : List Ev → Prop
  | [] => True
  | e :: es => (e.who = k → (step y e).2 ≠ .passed true) ∧ Quiet k (step y e).1 es

/-- A plugin displaying by rate only. -/
def ByRate (s : State) (p : Int) : Prop := s.freq = 0 ∧ s.perSecond = p ∧ s.between = Int.tdiv 1000 p * 1000
end Spec

theorem byRate_step (k : Nat) (p : Int) (hp : p ≠ 0) (y : Sys) (e : Ev) (h : ByRate (y.plugin k) p) :
    ByRate ((step y e).1.plugin k) p ∧
    ((e.who = k → (step y e).2 ≠ .passed true) → ((step y e).1.plugin k).last = (y.plugin k).last) ∧
    (e.who = k → (step y e).2 = .passed true → ((step y e).1.plugin k).last = some e.now2) := by
  simp only [step]
  by_cases hw : k = e.who
  · subst hw
    simp only [if_true, true_implies]
    by_cases hub : (processFrame (y.plugin e.who) y.static e.frame e.now1 e.now2).2.2 = .ub
    · rw [processFrame_ub _ _ _ _ _ hub]
      exact ⟨h, fun _ => rfl, fun h => by rw [hub] at h; cases h⟩
    · obtain ⟨-, b, c, k1, k2, k3⟩ := C23_rate_exact (y.plugin e.who) y.static e.frame e.now1 e.now2 h.1
        (by rw [h.2.1]; exact hp) hub
      exact ⟨⟨k1.trans h.1, k2.trans h.2.1, k3.trans h.2.2⟩, c, b⟩
  · simp only [if_neg hw]
    exact ⟨h, fun _ => trivial, fun h => absurd h.symm hw⟩

theorem byRate_quiet (k : Nat) (p : Int) (hp : p ≠ 0) (es : List Ev) : ∀ y : Sys, ByRate (y.plugin k) p → Quiet k y es →
    ByRate ((after y es).plugin k) p ∧ ((after y es).plugin k).last = (y.plugin k).last := by
  induction es with
  | nil => intro y h _; exact ⟨h, rfl⟩
  | cons e es ih =>
    intro y h hq
    obtain ⟨a, b, -⟩ := byRate_step k p hp y e h
    obtain ⟨c, d⟩ := ih _ a hq.2
    exact ⟨c, d.trans (b hq.1)⟩

/-- C23, rate, full statement: of two frames displayed by rate one after the other, the later arrives at least
1/p seconds after the earlier has been sent. -/
def C23_rate_statement : Prop :=
  ∀ (y : Sys) (k : Nat) (p : Int) (e e' : Ev) (es : List Ev), 0 < p → ByRate (y.plugin k) p →
    e.who = k → e'.who = k → (step y e).2 = .passed true → Quiet k (step y e).1 es →
    (step (after (step y e).1 es) e').2 = .passed true → p * (e'.now1 - e.now2) ≥ 1000000

/-- They are at least the truncated period apart, for every rate. -/
theorem C23_rate_truncated (y : Sys) (k : Nat) (p : Int) (e e' : Ev) (es : List Ev) (hp : 0 < p)
    (h : ByRate (y.plugin k) p) (he : e.who = k) (he' : e'.who = k) (hd : (step y e).2 = .passed true)
    (hq : Quiet k (step y e).1 es) (hd' : (step (after (step y e).1 es) e').2 = .passed true) :
    e'.now1 - e.now2 > Int.tdiv 1000 p * 1000 := by
  obtain ⟨a, -, b⟩ := byRate_step k p (by omega) y e h
  obtain ⟨c, d⟩ := byRate_quiet k p (by omega) es _ a hq
  subst he'
  have hub : (processFrame ((after (step y e).1 es).plugin e'.who) (after (step y e).1 es).static e'.frame e'.now1
      e'.now2).2.2 ≠ .ub := by
    intro hub
    simp only [step] at hd'
    simp only [step] at hub
    rw [hub] at hd'; cases hd'
  have := (C23_rate_exact _ _ e'.frame e'.now1 e'.now2 c.1 (by rw [c.2.1]; omega) hub).1.1 hd'
  have := this.2 e.now2 (by rw [d]; exact b he hd)
  rw [c.2.2] at this
  exact this

/-- C23, rate, proved part: for rates that divide 1000. Missing: others, because the period is cut to whole
milliseconds (`C23_rate_violated`); above 1000 per second there is no limit at all. -/
theorem C23_rate_partial (y : Sys) (k : Nat) (p : Int) (e e' : Ev) (es : List Ev) (hp : 0 < p) (hdiv : p ∣ 1000)
    (h : ByRate (y.plugin k) p) (he : e.who = k) (he' : e'.who = k) (hd : (step y e).2 = .passed true)
    (hq : Quiet k (step y e).1 es) (hd' : (step (after (step y e).1 es) e').2 = .passed true) :
    p * (e'.now1 - e.now2) ≥ 1000000 := by
  have := C23_rate_truncated y k p e e' es hp h he he' hd hq hd'
  obtain ⟨q, hq⟩ := hdiv
  have hq' : Int.tdiv 1000 p = q := by rw [hq]; exact Int.mul_tdiv_cancel_left q (by omega)
  rw [hq'] at this
  have h1 : p * (q * 1000) ≤ p * (e'.now1 - e.now2) := Int.mul_le_mul_of_nonneg_left (by omega) (by omega)
  rw [← Int.mul_assoc, ← hq] at h1
  omega

/-- C23, rate, is false of the code: with 3 per second, frames 0.333001 s apart are displayed. -/
theorem C23_rate_violated : ¬ C23_rate_statement := by
  intro h
  have := h { plugin := fun _ => setPerSecond (setFreq { bound := true } 0) 3 } 0 3 ⟨0, ⟨"d", []⟩, 0, 0⟩
    ⟨0, ⟨"d", []⟩, 333001, 333001⟩ [] (by decide) ⟨rfl, rfl, rfl⟩ rfl rfl (by decide +kernel) trivial (by decide +kernel)
  revert this
  decide

/-- A negative frequency is accepted and acts as its absolute value. -/
theorem C23_negative (s : State) (n : Nat) (count : Int) :
    freqOk (setFreq s (-(n : Int))) count = freqOk (setFreq s n) count ∧ (setFreq s (-(n : Int))).freq = -(n : Int) := by
  refine ⟨?_, rfl⟩
  simp only [freqOk, setFreq, Int.tmod_neg]
  congr 1
  cases n with
  | zero => rfl
  | succ n =>
    have h1 : ((-((n + 1 : Nat) : Int)) != 0) = true := by simp; omega
    have h2 : ((((n + 1 : Nat) : Int)) != 0) = true := by simp; omega
    rw [h1, h2]

example : freqOk (setFreq {} (-3)) 6 = true ∧ freqOk (setFreq {} (-3)) 7 = false := by decide

/-- The configuration calls give the states the theorems are about. -/
theorem C23_configured_rate (s : State) (p : Int) (hp : p ≠ 0) : ByRate (setPerSecond (setFreq s 0) p) p := by
  unfold setPerSecond setFreq; rw [if_neg hp]; exact ⟨rfl, rfl, rfl⟩

/-! Non-vacuity. -/

def exEv (d : String) (t : Int) : Ev := ⟨0, ⟨d, []⟩, t, t⟩

/-- Two filtered datasets with frequency 2, interleaved. -/
example : (fun y => [(step y (exEv "a" 0)).2, (step (after y [exEv "a" 0, exEv "b" 0]) (exEv "a" 0)).2,
      (step (after y [exEv "a" 0]) (exEv "b" 0)).2, (step (after y [exEv "a" 0]) (exEv "c" 0)).2])
    ({ plugin := fun _ => configured ["a", "b"] [] 2 } : Sys)
    = [.passed true, .passed false, .passed true, .passed false] := by decide +kernel

/-- The hypotheses of `C23_rate_partial`, with a frame in between that is not displayed. -/
example : (fun y => ByRate (y.plugin 0) 10 ∧ (step y (exEv "a" 0)).2 = .passed true ∧
      Quiet 0 (step y (exEv "a" 0)).1 [exEv "a" 99999] ∧
      (step (after (step y (exEv "a" 0)).1 [exEv "a" 99999]) (exEv "a" 100001)).2 = .passed true)
    ({ plugin := fun _ => setPerSecond (setFreq { bound := true } 0) 10 } : Sys) :=
  ⟨⟨rfl, rfl, rfl⟩, by decide +kernel, ⟨fun _ => by decide +kernel, trivial⟩, by decide +kernel⟩

end Verif.LiveView
