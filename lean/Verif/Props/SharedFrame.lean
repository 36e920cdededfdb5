import Verif.Model.SharedFrame
/-
C46: a shared frame is released exactly once, after its last user.
-/
namespace Verif.SharedFrame

/-- C46: whatever happens, nothing destroyed is used and no exception ends the thread; every frame ready notification
makes a frame; and a frame has been released exactly once if nobody holds it any more, and not at all otherwise; and each release
names the buffer of its frame. -/
def C46_statement : Prop := ∀ os : List Op, ∃ s, run {} os = .ok s ∧ s.ignored = 0 ∧
  (∀ i f, s.frames[i]? = some f → s.sent.count i = if f.holders = 0 then 1 else 0) ∧
  s.msgs.map some = s.sent.map (fun i => (s.frames[i]?).map (·.buffer))

/-- C46 fails: a frame still held when the endpoints are changed is released through a destroyed channel. -/
theorem C46_violated : ¬ C46_statement := by
  intro h
  obtain ⟨s, h1, _⟩ := h [.setup, .config 4 true, .connect 1, .ready 2, .setup, .drop 0]
  revert h1
  have : run {} [.setup, .config 4 true, .connect 1, .ready 2, .setup, .drop 0] = .ub := by decide +kernel
  rw [this]
  intro h1
  cases h1

/-- And its data are gone when the shared buffer is configured again. -/
theorem C46_unmapped : run {} [.setup, .config 4 true, .connect 1, .ready 2, .config 4 true, .read 0] = .ub := by
  decide +kernel

/-- A frame announced before the shared buffer is configured is never released. -/
theorem C46_ignored : ∃ s, run {} [.setup, .connect 1, .ready 2, .config 4 true] = .ok s ∧ s.ignored = 1 ∧ s.sent = [] ∧
    s.frames = [] := ⟨_, rfl, by decide +kernel⟩

/-- A frame announced with a buffer number out of range ends the thread. -/
theorem C46_crash : run {} [.setup, .config 4 true, .connect 1, .ready 4] = .crash := by decide +kernel

/-- The timer of a shared memory controller outlives it: changing the endpoints twice within a second makes it fire
for a destroyed object. -/
theorem C46_timer : run {} [.setup, .setup, .timer] = .ub := by decide +kernel

/-- The operations for which the property holds: the interface is set up anew, closed or configured only while no frame
is held and the timer has fired, and only with memory that can be opened; frames are announced after that, with buffers that exist. -/
def Fine (s : St) : Op → Prop
  | .setup => (∀ f ∈ s.frames, f.holders = 0) ∧ s.pending = []
  | .close => (∀ f ∈ s.frames, f.holders = 0) ∧ s.pending = []
  | .config _ ok => (∀ f ∈ s.frames, f.holders = 0) ∧ ok = true
  | .ready b => s.smc ≠ 0 → s.sbm ≠ 0 ∧ b < s.buffers
  | _ => True

structure Inv (s : St) : Prop where
  ign : s.ignored = 0
  cnt : ∀ i, s.sent.count i = match s.frames[i]? with
    | some f => if f.holders = 0 then 1 else 0
    | none => 0
  own : ∀ f ∈ s.frames, f.holders ≠ 0 → f.smc = s.smc ∧ f.sbm = s.sbm
  pend : ∀ t ∈ s.pending, t = s.smc
  named : s.msgs.map some = s.sent.map (fun i => (s.frames[i]?).map (·.buffer))

theorem hold_get (s : St) (i j : Nat) (f : Frame) (n : Nat) (h : s.frames[i]? = some f) :
    (hold s i f n).frames[j]? = if i = j then some { f with holders := n } else s.frames[j]? := by
  have hlt : i < s.frames.length := by
    by_cases e : i < s.frames.length
    · exact e
    · rw [List.getElem?_eq_none (by omega)] at h; cases h
  simp only [hold, List.getElem?_set]
  by_cases e : i = j
  · subst e; simp [hlt]
  · simp [e]

/-- Frame `i` has been released only if it exists. -/
theorem sent_lt (s : St) (h : Inv s) (i : Nat) (hi : i ∈ s.sent) : i < s.frames.length := by
  have h1 := h.cnt i
  have h2 := List.count_pos_iff.2 hi
  by_cases e : i < s.frames.length
  · exact e
  · rw [List.getElem?_eq_none (by omega)] at h1
    simp only at h1
    omega

theorem named_hold (s : St) (i : Nat) (f : Frame) (n : Nat) (l : List Nat) (h : s.frames[i]? = some f) :
    l.map (fun j => ((hold s i f n).frames[j]?).map (·.buffer)) = l.map (fun j => (s.frames[j]?).map (·.buffer)) := by
  apply List.map_congr_left
  intro j _
  rw [hold_get s i j f n h]
  by_cases e : i = j
  · subst e; simp [h]
  · simp [e]

theorem named_append (s : St) (h : Inv s) (g : Frame) :
    s.msgs.map some = s.sent.map (fun j => ((s.frames ++ [g])[j]?).map (·.buffer)) := by
  rw [h.named]
  apply List.map_congr_left
  intro j hj
  rw [List.getElem?_append_left (sent_lt s h j hj)]

theorem hold_own (s : St) (i : Nat) (f : Frame) (n : Nat) (h : s.frames[i]? = some f) (hf : f.holders ≠ 0)
    (own : ∀ f ∈ s.frames, f.holders ≠ 0 → f.smc = s.smc ∧ f.sbm = s.sbm) :
    ∀ g ∈ (hold s i f n).frames, g.holders ≠ 0 → g.smc = s.smc ∧ g.sbm = s.sbm := by
  intro g hg hh
  rcases List.mem_or_eq_of_mem_set hg with hg | hg
  · exact own g hg hh
  · rw [hg]
    exact own f (List.mem_of_getElem? h) hf

theorem step_inv (s : St) (o : Op) (h : Inv s) (hf : Fine s o) : ∃ s', step s o = .ok s' ∧ Inv s' := by
  have hI := h
  obtain ⟨ign, cnt, own, pend, named⟩ := h
  cases o with
  | setup =>
    refine ⟨_, rfl, ign, cnt, fun f hm hh => absurd (hf.1 f hm) hh, fun t ht => ?_, named⟩
    simp only [hf.2, List.nil_append, List.mem_singleton] at ht
    exact ht
  | close =>
    refine ⟨_, rfl, ign, cnt, fun f hm hh => absurd (hf.1 f hm) hh, fun t ht => ?_, named⟩
    simp only [hf.2] at ht
    cases ht
  | connect n =>
    simp only [step]
    split
    · exact ⟨_, rfl, ign, cnt, own, pend, named⟩
    · exact ⟨_, rfl, ign, cnt, own, pend, named⟩
  | config n ok =>
    simp only [step]
    split
    · exact ⟨_, rfl, ign, cnt, own, pend, named⟩
    · rw [if_pos hf.2]
      exact ⟨_, rfl, ign, cnt, fun f hm hh => absurd (hf.1 f hm) hh, pend, named⟩
  | ready b =>
    simp only [step, receive]
    split
    · exact ⟨_, rfl, ign, cnt, own, pend, named⟩
    · rename_i h0
      obtain ⟨h1, h2⟩ := hf h0
      rw [if_neg h1, if_pos h2]
      have hlen : s.sent.count s.frames.length = 0 := by
        rw [cnt, List.getElem?_eq_none (Nat.le_refl _)]
      split
      · refine ⟨_, rfl, ign, fun i => ?_, fun f hm hh => ?_, pend, ?_⟩
        rotate_right
        · simp only [List.map_append, List.map_cons, List.map_nil]
          simp
          exact named_append s hI _
        · show (s.sent ++ [s.frames.length]).count i = _
          rw [List.count_append, cnt i]
          simp only [List.getElem?_append]
          by_cases e : i < s.frames.length
          · rw [if_pos e]
            have : s.frames.length ≠ i := by omega
            simp [this]
          · rw [if_neg e, List.getElem?_eq_none (by omega)]
            by_cases e2 : i = s.frames.length
            · subst e2; simp
            · have h3 : i - s.frames.length ≠ 0 := by omega
              have h4 : s.frames.length ≠ i := by omega
              simp [h3, h4]
        · rcases List.mem_append.1 hm with hm | hm
          · exact own f hm hh
          · simp only [List.mem_singleton] at hm
            subst hm
            exact ⟨rfl, rfl⟩
      · rename_i hc
        refine ⟨_, rfl, ign, fun i => ?_, fun f hm hh => ?_, pend, named_append s hI _⟩
        · show s.sent.count i = _
          rw [cnt i]
          simp only [List.getElem?_append]
          by_cases e : i < s.frames.length
          · rw [if_pos e]
          · rw [if_neg e, List.getElem?_eq_none (by omega)]
            by_cases e2 : i = s.frames.length
            · subst e2; simp [hc]
            · have h3 : i - s.frames.length ≠ 0 := by omega
              simp [h3]
        · rcases List.mem_append.1 hm with hm | hm
          · exact own f hm hh
          · simp only [List.mem_singleton] at hm
            subst hm
            exact ⟨rfl, rfl⟩
  | dup i =>
    simp only [step]
    cases hi : s.frames[i]? with
    | none => exact ⟨_, rfl, ign, cnt, own, pend, named⟩
    | some f =>
      simp only
      by_cases h0 : f.holders = 0
      · rw [if_pos h0]; exact ⟨_, rfl, ign, cnt, own, pend, named⟩
      · rw [if_neg h0]
        refine ⟨_, rfl, ign, fun j => ?_, hold_own s i f _ hi h0 own, pend, named.trans (named_hold s i f _ _ hi).symm⟩
        rw [hold_get s i j f _ hi]
        show s.sent.count j = _
        rw [cnt j]
        by_cases e : i = j
        · subst e; simp [hi, h0]
        · simp [e]
  | drop i =>
    simp only [step]
    cases hi : s.frames[i]? with
    | none => exact ⟨_, rfl, ign, cnt, own, pend, named⟩
    | some f =>
      simp only
      by_cases h0 : f.holders = 0
      · rw [if_pos h0]; exact ⟨_, rfl, ign, cnt, own, pend, named⟩
      · rw [if_neg h0]
        by_cases h1 : f.holders = 1
        · rw [if_pos h1]
          have hs := (own f (List.mem_of_getElem? hi) h0).1
          have hr : release (hold s i f 0) i f = .ok { hold s i f 0 with sent := s.sent ++ [i], msgs := s.msgs ++ [f.buffer] } := by
            have hs' : f.smc = (hold s i f 0).smc := hs
            unfold release
            rw [if_pos hs']
            rfl
          rw [hr]
          refine ⟨_, rfl, ign, fun j => ?_, hold_own s i f _ hi h0 own, pend, ?_⟩
          rotate_right
          · show (s.msgs ++ [f.buffer]).map some =
              (s.sent ++ [i]).map (fun j => ((hold s i f 0).frames[j]?).map (·.buffer))
            rw [named_hold s i f 0 _ hi, List.map_append, List.map_append, named]
            simp [hi]
          show (s.sent ++ [i]).count j = match (hold s i f 0).frames[j]? with
            | some f => if f.holders = 0 then 1 else 0
            | none => 0
          rw [hold_get s i j f _ hi, List.count_append, cnt j]
          by_cases e : i = j
          · subst e; simp [hi, h0]
          · simp [e]
        · rw [if_neg h1]
          refine ⟨_, rfl, ign, fun j => ?_, hold_own s i f _ hi h0 own, pend, named.trans (named_hold s i f _ _ hi).symm⟩
          rw [hold_get s i j f _ hi]
          show s.sent.count j = _
          rw [cnt j]
          by_cases e : i = j
          · subst e
            have : f.holders - 1 ≠ 0 := by omega
            simp [hi, h0, this]
          · simp [e]
  | read i =>
    simp only [step]
    cases hi : s.frames[i]? with
    | none => exact ⟨_, rfl, ign, cnt, own, pend, named⟩
    | some f =>
      simp only
      by_cases h0 : f.holders = 0
      · rw [if_pos h0]; exact ⟨_, rfl, ign, cnt, own, pend, named⟩
      · rw [if_neg h0, if_pos (own f (List.mem_of_getElem? hi) h0)]
        exact ⟨_, rfl, ign, cnt, own, pend, named⟩
  | timer =>
    simp only [step]
    cases hp : s.pending with
    | nil => exact ⟨_, rfl, ign, cnt, own, pend, named⟩
    | cons t ts =>
      simp only
      rw [if_pos (pend t (by rw [hp]; simp))]
      exact ⟨_, rfl, ign, cnt, own, fun x hx => pend x (by rw [hp]; simp [hx]), named⟩

/-- All operations of a history are as above. -/
def AllFine (s : St) : List Op → Prop
  | [] => True
  | o :: os => Fine s o ∧
    match step s o with
    | .ok s' => AllFine s' os
    | _ => True

/-- C46, for histories in which the interface to the frame receiver does not change while frames are held, and frames
are announced after the shared buffer is configured: for any number of frames, users and any order of dropping. -/
theorem C46_partial (os : List Op) (hf : AllFine {} os) : ∃ s, run {} os = .ok s ∧ s.ignored = 0 ∧
    (∀ i f, s.frames[i]? = some f → s.sent.count i = if f.holders = 0 then 1 else 0) ∧
    s.msgs.map some = s.sent.map (fun i => (s.frames[i]?).map (·.buffer)) := by
  have key : ∀ (os : List Op) (s : St), Inv s → AllFine s os → ∃ s', run s os = .ok s' ∧ Inv s' := by
    intro os
    induction os with
    | nil => exact fun s h _ => ⟨s, rfl, h⟩
    | cons o os ih =>
      intro s h hf
      obtain ⟨s', h1, h2⟩ := step_inv s o h hf.1
      have h3 := hf.2
      simp only [h1] at h3
      obtain ⟨s'', h4, h5⟩ := ih s' h2 h3
      refine ⟨s'', ?_, h5⟩
      simp only [run, h1]
      exact h4
  obtain ⟨s, h1, h2⟩ := key os {} ⟨rfl, fun i => by simp, fun f hm => (by cases hm), fun t ht => (by cases ht), rfl⟩ hf
  refine ⟨s, h1, h2.ign, fun i f hi => ?_, h2.named⟩
  rw [h2.cnt, hi]

/-- C46: the release is sent by the drop of the last holder, and by nothing else once the frame is made. -/
theorem C46_last (s s' : St) (o : Op) (i : Nat) (f : Frame) (hi : s.frames[i]? = some f) (hs : step s o = .ok s') :
    s'.sent.count i = s.sent.count i + if o = .drop i ∧ f.holders = 1 then 1 else 0 := by
  have hlt : i < s.frames.length := by
    by_cases e : i < s.frames.length
    · exact e
    · rw [List.getElem?_eq_none (by omega)] at hi; cases hi
  cases o with
  | drop j =>
    simp only [step] at hs
    by_cases e : j = i
    · subst e
      rw [hi] at hs
      simp only at hs
      split at hs
      · rename_i h0; cases hs; simp [h0]
      · split at hs
        · rename_i h1
          simp only [release] at hs
          split at hs
          · cases hs
            simp [hold, h1]
          · cases hs
        · rename_i h1
          cases hs
          simp [hold, h1]
    · have : ¬ (Op.drop j = Op.drop i ∧ f.holders = 1) := by rintro ⟨h, _⟩; cases h; exact e rfl
      rw [if_neg this]
      cases hj : s.frames[j]? with
      | none => rw [hj] at hs; cases hs; rfl
      | some g =>
        rw [hj] at hs
        simp only at hs
        split at hs
        · cases hs; rfl
        · split at hs
          · simp only [release] at hs
            split at hs
            · cases hs
              simp [hold, e]
            · cases hs
          · cases hs; rfl
  | ready b =>
    simp only [step, receive] at hs
    split at hs
    · cases hs; rfl
    · split at hs
      · cases hs; rfl
      · split at hs
        · split at hs
          · cases hs
            have : s.frames.length ≠ i := by omega
            simp [this]
          · cases hs; rfl
        · cases hs
  | setup => cases hs; rfl
  | close => cases hs; rfl
  | connect n =>
    simp only [step] at hs
    split at hs <;> cases hs <;> rfl
  | config n ok =>
    simp only [step] at hs
    split at hs
    · cases hs; rfl
    · split at hs <;> cases hs
      rfl
  | dup j =>
    simp only [step] at hs
    cases hj : s.frames[j]? with
    | none => rw [hj] at hs; cases hs; rfl
    | some g =>
      rw [hj] at hs
      simp only at hs
      split at hs <;> cases hs <;> rfl
  | read j =>
    simp only [step] at hs
    cases hj : s.frames[j]? with
    | none => rw [hj] at hs; cases hs; rfl
    | some g =>
      rw [hj] at hs
      simp only at hs
      split at hs
      · cases hs; rfl
      · split at hs <;> cases hs
        rfl
  | timer =>
    simp only [step] at hs
    split at hs
    · split at hs <;> cases hs
      rfl
    · cases hs; rfl

/-- Non-vacuity: two frames given to two plugins, one of which passes the first frame on. -/
def exOps : List Op :=
  [.setup, .config 4 true, .timer, .connect 2, .ready 2, .ready 3, .dup 0, .drop 0, .read 0, .drop 1, .drop 0, .drop 1, .drop 0,
   .config 2 true, .ready 1]

example : AllFine {} exOps := by
  simp only [exOps, AllFine, Fine, step, receive, hold, release]
  simp
example : ∃ s, run {} exOps = .ok s ∧ s.sent = [1, 0] ∧ s.msgs = [3, 2] ∧ s.frames.map (·.holders) = [0, 0, 2] := ⟨_, rfl, by decide +kernel⟩

end Verif.SharedFrame
