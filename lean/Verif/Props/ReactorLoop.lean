import Verif.Props.Reactor

/-!
C42: the loop never sleeps past a due timer; C68: callbacks of removed channels are not called; C69: the loop never hangs.
-/
namespace Verif.Reactor

/-! ## C42 -/

/-- The full claim: the loop computes a timeout, and at its end no timer (also of another thread) is overdue by more than
the time that had passed before. -/
def C42_statement : Prop :=
  ∀ s, Reach Act.Typed Round.Typed s → ∀ now1 now2 : Int, 0 ≤ now1 → now1 ≤ now2 → now2 < 4611686018427387904 →
    ∀ during : List Act, (∀ a ∈ during, a.Typed) →
    ∃ d, timeout s.timers now1 now2 = some d ∧ 0 ≤ d ∧ ∀ t ∈ (acts s during).timers, d = 0 ∨ now2 + d ≤ t.due

theorem earliest_le (l : List Timer) : ∀ m : Int, earliest l m ≤ m ∧ ∀ t ∈ l, earliest l m ≤ t.due := by
  induction l with
  | nil => exact fun m => ⟨Int.le_refl _, by simp⟩
  | cons u l ih =>
    intro m
    have e : earliest (u :: l) m = earliest l (if m > u.due then u.due else m) := rfl
    rw [e]
    obtain ⟨h1, h2⟩ := ih (if m > u.due then u.due else m)
    have h3 : (if m > u.due then u.due else m) ≤ m ∧ (if m > u.due then u.due else m) ≤ u.due := by
      split <;> omega
    refine ⟨by omega, ?_⟩
    intro t ht
    rcases List.mem_cons.1 ht with rfl | ht
    · omega
    · exact h2 t ht

theorem earliest_mem (l : List Timer) : ∀ m : Int, earliest l m = m ∨ ∃ t ∈ l, earliest l m = t.due := by
  induction l with
  | nil => exact fun m => .inl rfl
  | cons u l ih =>
    intro m
    have e : earliest (u :: l) m = earliest l (if m > u.due then u.due else m) := rfl
    rw [e]
    rcases ih (if m > u.due then u.due else m) with h | ⟨t, ht, h⟩
    · by_cases hm : m > u.due
      · rw [if_pos hm] at h ⊢
        exact .inr ⟨u, by simp, h⟩
      · rw [if_neg hm] at h ⊢
        exact .inl h
    · exact .inr ⟨t, by simp [ht], h⟩

/-- The timeout is never longer than the time to any timer registered when it is computed, nor than an hour, and is
exactly the time to the earliest one within the hour. Missing: timers registered by other threads while the loop polls;
values above 2^62. -/
theorem C42_partial (s : St) (h : Reach Act.Small Round.Small s) (now1 now2 : Int) (h0 : 0 ≤ now1) (h1 : now1 ≤ now2)
    (h2 : now2 < 4611686018427387904) :
    ∃ d, timeout s.timers now1 now2 = some d ∧ 0 ≤ d ∧ d ≤ 3600000 ∧ (∀ t ∈ s.timers, d = 0 ∨ now2 + d ≤ t.due) ∧
      (d = 0 ∨ now2 + d = now1 + 3600000 ∨ ∃ t ∈ s.timers, now2 + d = t.due) := by
  obtain ⟨e1, e2⟩ := earliest_le s.timers (now1 + 3600000)
  have hpos : 0 ≤ earliest s.timers (now1 + 3600000) := by
    rcases earliest_mem s.timers (now1 + 3600000) with h' | ⟨t, ht, h'⟩
    · omega
    · obtain ⟨_, _, st, n, g1, g2, _⟩ := (reach_inv s h).ok t ht
      obtain ⟨b1, _, _⟩ := (reach_inv s h).small _ _ _ _ g1
      have : 0 ≤ (((firings t.id s.log).length : Int) + 1) * (t.delay : Int) := Int.mul_nonneg (by omega) (by omega)
      omega
  unfold timeout
  simp only
  rw [if_neg (by omega)]
  refine ⟨_, rfl, ?_, ?_, ?_, ?_⟩
  · split <;> omega
  · split <;> omega
  · intro t ht
    have := e2 t ht
    split
    · exact .inl rfl
    · exact .inr (by omega)
  · split
    · exact .inl rfl
    · rcases earliest_mem s.timers (now1 + 3600000) with h' | ⟨t, ht, h'⟩
      · exact .inr (.inl (by omega))
      · exact .inr (.inr ⟨t, ht, by omega⟩)

/-- A timer registered by another thread while the loop polls does not wake it: here one of 10 ms waits for an hour. -/
theorem C42_violated : ¬ C42_statement := by
  intro h
  obtain ⟨d, hd, _, ht⟩ := h {} .init 0 0 (by decide) (by decide) (by decide) [.regTimer 5 10 1]
    (by simp [Act.Typed])
  have hd' : d = 3600000 := by
    have : timeout ({} : St).timers 0 0 = some 3600000 := by decide +kernel
    rw [this] at hd
    exact (Option.some.inj hd).symm
  subst hd'
  have := ht (create 0 5 10 1) (by decide +kernel)
  revert this
  decide +kernel

/-- A delay of 2^63 ms makes the difference overflow. -/
theorem C42_ub : timeout (act {} (.regTimer 0 9223372036854775808 1)).timers 1 1 = none := by decide +kernel

example : timeout two.timers 100 101 = some 6 ∧ timeout two.timers 200 200 = some 0 := by decide +kernel

/-! ## C68 -/

/-- An observer of the log: the registered channels, those registered when the round began, and whether every call so far
was for a channel registered at the time, and at the beginning of the round. -/
structure Obs where
  cur : Nat → Bool := fun _ => false
  snap : Nat → Bool := fun _ => false
  now : Bool := true
  begin_ : Bool := true

def obs (o : Obs) : Ev → Obs
  | .join c => { o with cur := fun d => d == c || o.cur d }
  | .leave c => { o with cur := fun d => d != c && o.cur d }
  | .turn => { o with snap := o.cur }
  | .call c => { o with now := o.now && o.cur c, begin_ := o.begin_ && o.snap c }
  | _ => o

def observe (log : List Ev) : Obs := log.foldl obs {}

/-- The full claim: callbacks are called for registered channels only. -/
def C68_statement : Prop := ∀ s, Reach Act.Typed Round.Typed s → (observe s.log).now = true

theorem observe_snoc (l : List Ev) (e : Ev) : observe (l ++ [e]) = obs (observe l) e := by
  simp [observe, List.foldl_append]

/-- The observer agrees with the state. -/
structure Seen (poll : List Nat) (s : St) : Prop where
  cur : ∀ c, (observe s.log).cur c = true ↔ c ∈ s.chans
  snap : ∀ c ∈ poll, (observe s.log).snap c = true
  begin_ : (observe s.log).begin_ = true
  fresh : s.rebuild = false → s.poll = s.chans

theorem mem_insertChan (c d : Nat) (l : List Nat) : d ∈ insertChan c l ↔ d = c ∨ d ∈ l := by
  induction l with
  | nil => simp [insertChan]
  | cons x l ih =>
    unfold insertChan
    split
    · simp
    · split
      · next h => subst h; simp
      · simp only [List.mem_cons, ih]
        constructor
        · rintro (h | h | h) <;> simp [h]
        · rintro (h | h | h) <;> simp [h]

theorem act_seen {p : List Nat} {s : St} (a : Act) (h : Seen p s) : Seen p (act s a) := by
  obtain ⟨h1, h2, h3, h4⟩ := h
  cases a with
  | regTimer now d n => exact ⟨by simpa [act, observe_snoc, obs] using h1, by simpa [act, observe_snoc, obs] using h2,
      by simpa [act, observe_snoc, obs] using h3, h4⟩
  | rmTimer i => exact ⟨by simpa [act, observe_snoc, obs] using h1, by simpa [act, observe_snoc, obs] using h2,
      by simpa [act, observe_snoc, obs] using h3, h4⟩
  | regChan c =>
    refine ⟨?_, by simpa [act, observe_snoc, obs] using h2, by simpa [act, observe_snoc, obs] using h3, by simp [act]⟩
    intro d
    simp [act, observe_snoc, obs, mem_insertChan, h1 d]
  | rmChan c =>
    refine ⟨?_, by simpa [act, observe_snoc, obs] using h2, by simpa [act, observe_snoc, obs] using h3, by simp [act]⟩
    intro d
    simp [act, observe_snoc, obs, h1 d, and_comm]
  | stop => exact ⟨h1, h2, h3, h4⟩
  | others n => exact ⟨h1, h2, h3, h4⟩

theorem acts_seen {p : List Nat} (l : List Act) : ∀ s : St, Seen p s → Seen p (acts s l) := by
  induction l with
  | nil => exact fun s h => h
  | cons a l ih => exact fun s h => ih _ (act_seen a h)

theorem channels_seen (p : List Nat) (r : Round) (l : List Nat) (hl : ∀ c ∈ l, c ∈ p) :
    ∀ s : St, Seen p s → Seen p (channels r l s) := by
  induction l with
  | nil => exact fun s h => h
  | cons c l ih =>
    intro s h
    unfold channels
    split
    · refine ih (fun d hd => hl d (by simp [hd])) _ (acts_seen _ _ ?_)
      obtain ⟨h1, h2, h3, h4⟩ := h
      refine ⟨by simpa [observe_snoc, obs] using h1, by simpa [observe_snoc, obs] using h2, ?_, h4⟩
      simp [observe_snoc, obs, h3, h2 c (hl c (by simp))]
    · exact ih (fun d hd => hl d (by simp [hd])) s h

theorem fires_seen (p : List Nat) (r : Round) (l : List Timer) :
    ∀ s w : St, Seen p s → fires r l s = some w → Seen p w := by
  induction l with
  | nil =>
    intro s w h hw
    cases hw
    exact h
  | cons t l ih =>
    have hk : ∀ (t : Timer) (s : St), Seen p s → Seen p (keep t s) := by
      intro t s h
      unfold keep
      split
      · exact h
      · exact ⟨h.cur, h.snap, h.begin_, h.fresh⟩
    intro s w h hw
    unfold fires at hw
    split at hw
    · split at hw
      · cases hw
      · refine ih _ _ (hk _ _ (acts_seen _ _ ?_)) hw
        exact ⟨by simpa [observe_snoc, obs] using h.cur, by simpa [observe_snoc, obs] using h.snap,
          by simpa [observe_snoc, obs] using h.begin_, h.fresh⟩
    · exact ih _ _ (hk _ _ h) hw

theorem round_seen (r : Round) (s t : St) (h : Seen [] s) (ht : round r s = .again t) : Seen [] t := by
  unfold round at ht
  split at ht
  · cases ht
  · split at ht
    · cases ht
    · have hp : (rebuilt { s with log := s.log ++ [.turn] }).poll = s.chans := by
        unfold rebuilt
        split
        · rfl
        · next hb => exact h.fresh (by simpa using hb)
      have h1 : Seen s.chans (rebuilt { s with log := s.log ++ [.turn] }) := by
        have hc : (rebuilt { s with log := s.log ++ [.turn] }).chans = s.chans := by unfold rebuilt; split <;> rfl
        have hlg : (rebuilt { s with log := s.log ++ [.turn] }).log = s.log ++ [.turn] := by unfold rebuilt; split <;> rfl
        refine ⟨?_, ?_, ?_, fun _ => hp.trans hc.symm⟩
        · intro c
          rw [hc, hlg, observe_snoc]
          exact h.cur c
        · intro c hcm
          rw [hlg, observe_snoc]
          exact (h.cur c).2 hcm
        · rw [hlg, observe_snoc]
          exact h.begin_
      have h2 := channels_seen s.chans r (rebuilt { s with log := s.log ++ [.turn] }).poll (by rw [hp]; exact fun c hc => hc)
        _ (acts_seen r.during _ h1)
      simp only at ht
      split at ht
      · cases ht
      · next w hw =>
        cases ht
        have h3 := fires_seen s.chans r _ _ _ (by exact ⟨h2.cur, h2.snap, h2.begin_, h2.fresh⟩) hw
        exact ⟨h3.cur, by simp, h3.begin_, h3.fresh⟩

theorem reach_seen {P : Act → Prop} {Q : Round → Prop} (s : St) (h : Reach P Q s) : Seen [] s := by
  induction h with
  | init => exact ⟨by simp [observe], by simp, rfl, by simp⟩
  | act s a _ _ ih => exact act_seen a ih
  | round s t r _ _ ht ih => exact round_seen r s t ih ht

/-- Callbacks are called for channels that were registered when the round began. Missing: removals in the same round. -/
theorem C68_partial {P : Act → Prop} {Q : Round → Prop} (s : St) (h : Reach P Q s) : (observe s.log).begin_ = true :=
  (reach_seen s h).begin_

/-- The callback of one channel removes the other, which is called nevertheless. -/
theorem C68_violated : ¬ C68_statement := by
  intro h
  have := h _ (.round _ _ { ready := fun _ => true, chan := fun c => if c = 1 then [.rmChan 2] else [], clock := fun _ => 0 }
    (.act _ (.regChan 2) (.act _ (.regChan 1) .init trivial) trivial)
    ⟨by simp, by intro c a ha; by_cases hc : c = 1 <;> simp_all [Act.Typed], by simp⟩ (by rfl))
  revert this
  decide +kernel

/-- The calls in a log. -/
def calls (log : List Ev) : List Nat :=
  log.filterMap fun e => match e with
    | .call c => some c
    | _ => none

theorem calls_append (a b : List Ev) : calls (a ++ b) = calls a ++ calls b := List.filterMap_append

theorem acts_calls (l : List Act) : ∀ s : St, calls (acts s l).log = calls s.log := by
  induction l with
  | nil => exact fun s => rfl
  | cons a l ih =>
    intro s
    show calls (acts (act s a) l).log = _
    rw [ih]
    cases a <;> simp [act, calls]

theorem channels_calls (r : Round) (l : List Nat) :
    ∀ s : St, calls (channels r l s).log = calls s.log ++ l.filter r.ready := by
  induction l with
  | nil => exact fun s => by simp [channels]
  | cons c l ih =>
    intro s
    unfold channels
    split
    · next h =>
      rw [ih, acts_calls, calls_append, List.filter_cons_of_pos h]
      simp [calls]
    · next h => rw [ih, List.filter_cons_of_neg h]

theorem fires_calls (r : Round) (l : List Timer) :
    ∀ s w : St, fires r l s = some w → calls w.log = calls s.log := by
  induction l with
  | nil =>
    intro s w h
    cases h
    rfl
  | cons t l ih =>
    intro s w h
    unfold fires at h
    split at h
    · split at h
      · cases h
      · rw [ih _ _ h, keep_log, acts_calls, calls_append]
        simp [calls]
    · rw [ih _ _ h, keep_log]

/-- Each round calls back exactly the channels with input that were registered when it began, each once and in order. -/
theorem C68_called {P : Act → Prop} {Q : Round → Prop} (s t : St) (r : Round) (h : Reach P Q s)
    (ht : round r s = .again t) : calls t.log = calls s.log ++ s.chans.filter r.ready := by
  have hs := reach_seen s h
  unfold round at ht
  split at ht
  · cases ht
  · split at ht
    · cases ht
    · have hp : (rebuilt { s with log := s.log ++ [.turn] }).poll = s.chans := by
        unfold rebuilt
        split
        · rfl
        · next hb => exact hs.fresh (by simpa using hb)
      have hlg : (rebuilt { s with log := s.log ++ [.turn] }).log = s.log ++ [.turn] := by unfold rebuilt; split <;> rfl
      simp only at ht
      split at ht
      · cases ht
      · next w hw =>
        cases ht
        rw [fires_calls r _ _ _ hw]
        simp only
        rw [channels_calls, acts_calls, hp, hlg, calls_append]
        simp [calls]

/-! ## C69 -/

/-- The full claim: no round hangs. -/
def C69_statement : Prop := ∀ s, Reach Act.Typed Round.Typed s → ∀ r : Round, r.Typed → round r s ≠ .hang

theorem fires_some (r : Round) (h : ∀ i, (r.timer i).any Act.locks = false) (l : List Timer) :
    ∀ s : St, ∃ w, fires r l s = some w := by
  induction l with
  | nil => exact fun s => ⟨s, rfl⟩
  | cons t l ih =>
    intro s
    unfold fires
    split
    · rw [if_neg (by rw [h]; simp)]
      exact ih _
    · exact ih _

/-- No round hangs if the callbacks of timers neither register nor remove timers. -/
theorem C69_partial (s : St) (r : Round) (h : ∀ i, (r.timer i).any Act.locks = false) : round r s ≠ .hang := by
  unfold round
  split
  · simp
  · split
    · simp
    · obtain ⟨w, hw⟩ := fires_some r h
        (channels r (rebuilt { s with log := s.log ++ [.turn] }).poll
          (acts (rebuilt { s with log := s.log ++ [.turn] }) r.during)).timers
        { channels r (rebuilt { s with log := s.log ++ [.turn] }).poll
          (acts (rebuilt { s with log := s.log ++ [.turn] }) r.during) with timers := [] }
      simp only [hw]
      simp

/-- A timer whose callback removes it (or registers another one) waits for the mutex its own thread holds. -/
theorem C69_violated : ¬ C69_statement := by
  intro h
  refine h _ (.act _ (.regTimer 0 10 0) .init ⟨by decide, by decide, by decide, by decide⟩)
    { clock := fun _ => 10, timer := fun _ => [.rmTimer 0] } ⟨by simp, by simp, by simp⟩ ?_
  rfl

/-- A stopped loop begins no further round. -/
theorem C69_stop (s : St) (r : Round) (h : s.stopped = true) : round r s = .left s := by
  unfold round
  rw [if_pos h]

theorem act_stopped (s : St) (a : Act) : (act s a).stopped = (s.stopped || decide (a = .stop)) := by
  cases a <;> simp [act]

theorem acts_stopped (l : List Act) : ∀ s : St, (acts s l).stopped = (s.stopped || decide (.stop ∈ l)) := by
  induction l with
  | nil => exact fun s => by simp [acts]
  | cons a l ih =>
    intro s
    show (acts (act s a) l).stopped = _
    rw [ih, act_stopped]
    cases a <;> simp

theorem channels_stopped (r : Round) (l : List Nat) :
    ∀ s : St, (channels r l s).stopped = true ↔ s.stopped = true ∨ ∃ c ∈ l, r.ready c = true ∧ .stop ∈ r.chan c := by
  induction l with
  | nil => exact fun s => by simp [channels]
  | cons c l ih =>
    intro s
    unfold channels
    split
    · next h =>
      rw [ih, acts_stopped]
      simp only [Bool.or_eq_true, decide_eq_true_eq, List.mem_cons, exists_eq_or_imp, h, true_and]
      constructor
      · rintro ((h | h) | h)
        · exact .inl h
        · exact .inr (.inl h)
        · exact .inr (.inr h)
      · rintro (h | h | h)
        · exact .inl (.inl h)
        · exact .inl (.inr h)
        · exact .inr h
    · next h =>
      rw [ih]
      simp only [List.mem_cons, exists_eq_or_imp, h, false_and, false_or, Bool.false_eq_true]

theorem keep_stopped (t : Timer) (s : St) : (keep t s).stopped = s.stopped := by
  unfold keep
  split <;> rfl

theorem fires_stopped (r : Round) (l : List Timer) :
    ∀ s w : St, fires r l s = some w → s.stopped = true → w.stopped = true := by
  induction l with
  | nil =>
    intro s w h hs
    cases h
    exact hs
  | cons t l ih =>
    intro s w h hs
    unfold fires at h
    split at h
    · split at h
      · cases h
      · refine ih _ _ h ?_
        rw [keep_stopped, acts_stopped]
        simp [hs]
    · refine ih _ _ h ?_
      rw [keep_stopped]
      exact hs

/-- A stop request, of another thread or of the callback of a channel, ends the loop after the round. -/
theorem C69_stop_request (s t : St) (r r' : Round) (ht : round r s = .again t)
    (h : .stop ∈ r.during ∨ ∃ c ∈ (rebuilt s).poll, r.ready c = true ∧ .stop ∈ r.chan c) : round r' t = .left t := by
  apply C69_stop
  unfold round at ht
  split at ht
  · cases ht
  · split at ht
    · cases ht
    · have hp : (rebuilt { s with log := s.log ++ [.turn] }).poll = (rebuilt s).poll := by
        unfold rebuilt
        cases s.rebuild <;> rfl
      simp only at ht
      split at ht
      · cases ht
      · next w hw =>
        cases ht
        refine fires_stopped r _ _ _ hw ?_
        show (channels r (rebuilt { s with log := s.log ++ [.turn] }).poll
          (acts (rebuilt { s with log := s.log ++ [.turn] }) r.during)).stopped = true
        rw [channels_stopped, acts_stopped, hp]
        rcases h with h | h
        · exact .inl (by simp [h])
        · exact .inr h

/-- The loop is left only if stopped or if nothing is left to wait for. -/
theorem C69_left {P : Act → Prop} {Q : Round → Prop} (s t : St) (r : Round) (hr : Reach P Q s) (h : round r s = .left t) :
    s.stopped = true ∨ (s.chans = [] ∧ s.timers = []) := by
  have hs := reach_seen s hr
  unfold round at h
  split at h
  · next hst => exact .inl hst
  · split at h
    · next he =>
      unfold rebuilt at he
      split at he
      · exact .inr he
      · next hb => exact .inr ⟨(hs.fresh (by simpa using hb)).symm.trans he.1, he.2⟩
    · simp only at h
      split at h <;> cases h

end Verif.Reactor
