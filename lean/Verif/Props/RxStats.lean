import Verif.Model.RxStats
namespace Verif.RxStats

/-- C176, full statement: the status tells at most what has happened since the last reset, and not more frames released than
received. -/
def C176_statement : Prop :=
  ∀ es, shown (run {} es) ≤ (run {} es).count ∧ (run {} es).released ≤ (run {} es).received

/-- A reset is acknowledged, and the status still shows the old values: those of the last message of the receiver thread. -/
theorem C176_stale : shown (run {} [.load, .store, .monitor, .deliver, .reset]) = 1 ∧
    (run {} [.load, .store, .monitor, .deliver, .reset]).count = 0 := by decide

/-- A message that is on its way when the statistics are reset brings old values back. -/
theorem C176_on_the_way : shown (run {} [.load, .store, .monitor, .reset]) = 0 ∧
    shown (run {} [.load, .store, .monitor, .reset, .deliver]) = 1 := by decide

/-- A reset in the middle of an increment is lost: the counter keeps its old value. -/
theorem C176_lost : (run {} [.load, .store, .load, .store, .load, .reset, .store]).counter = 3 ∧
    (run {} [.load, .store, .load, .store, .load, .reset, .store]).count = 1 := by decide

/-- A frame received before the reset and released after it. -/
theorem C176_released : (run {} [.ready, .reset, .release]).released = 1 ∧ (run {} [.ready, .reset, .release]).received = 0 := by decide

/-- C176 is false of the code. -/
theorem C176_violated : ¬ C176_statement := by
  intro h
  have h1 := (h [.load, .store, .monitor, .deliver, .reset]).1
  rw [C176_stale.1, C176_stale.2] at h1
  exact absurd h1 (by decide)

/-- A message tells the count of its time, unless the reset before it came in the middle of an increment. -/
def Honest (m : Msg) : Prop := m.mixed = false → m.value = m.count % 4294967296

structure Inv (s : St) : Prop where
  counter : s.mixed = false → s.counter = s.count % 4294967296
  busy : s.mixed = false → ∀ v, s.busy = some v → v = s.counter
  queue : ∀ m ∈ s.queue, Honest m ∧ m.epoch ≤ s.epoch ∧ (m.epoch = s.epoch → m.count ≤ s.count ∧ m.mixed = s.mixed)
  stored : ∀ m, s.stored = some m → Honest m ∧ m.epoch ≤ s.epoch ∧ (m.epoch = s.epoch → m.count ≤ s.count ∧ m.mixed = s.mixed)

theorem inv_init : Inv {} := ⟨fun _ => rfl, fun _ _ h => (by cases h), fun _ h => (by cases h), fun _ h => (by cases h)⟩

theorem inv_step (s : St) (e : Ev) (h : Inv s) : Inv (step s e) := by
  cases e with
  | load =>
    simp only [step]
    split
    · exact ⟨h.counter, fun _ v hv => (by cases hv; rfl), h.queue, h.stored⟩
    · exact h
  | store =>
    simp only [step]
    cases hb : s.busy with
    | none => exact h
    | some v =>
      refine ⟨?_, fun _ _ hv => (by cases hv), ?_, ?_⟩
      · intro hm
        show (v + 1) % 4294967296 = (s.count + 1) % 4294967296
        rw [h.busy hm v hb, h.counter hm]
        omega
      · intro m hm
        obtain ⟨h1, h2, h3⟩ := h.queue m hm
        exact ⟨h1, h2, fun he => ⟨Nat.le_succ_of_le (h3 he).1, (h3 he).2⟩⟩
      · intro m hm
        obtain ⟨h1, h2, h3⟩ := h.stored m hm
        exact ⟨h1, h2, fun he => ⟨Nat.le_succ_of_le (h3 he).1, (h3 he).2⟩⟩
  | monitor =>
    simp only [step]
    split
    · refine ⟨h.counter, h.busy, ?_, h.stored⟩
      intro m hm
      rcases List.mem_append.mp hm with hm | hm
      · exact h.queue m hm
      · rw [List.mem_singleton] at hm
        subst hm
        exact ⟨h.counter, Nat.le_refl _, fun _ => ⟨Nat.le_refl _, rfl⟩⟩
    · exact h
  | deliver =>
    simp only [step]
    cases hq : s.queue with
    | nil => exact h
    | cons m l =>
      refine ⟨h.counter, h.busy, ?_, ?_⟩
      · intro x hx; exact h.queue x (by rw [hq]; exact List.mem_cons_of_mem _ hx)
      · intro x hx; cases hx; exact h.queue m (by rw [hq]; exact List.mem_cons_self)
  | ready => exact ⟨h.counter, h.busy, h.queue, h.stored⟩
  | release =>
    simp only [step]
    split
    · exact h
    · exact ⟨h.counter, h.busy, h.queue, h.stored⟩
  | reset =>
    refine ⟨fun _ => rfl, ?_, ?_, ?_⟩
    · intro hm v hv
      replace hm : s.busy.isSome = false := hm
      replace hv : s.busy = some v := hv
      rw [hv] at hm; cases hm
    · intro m hm
      obtain ⟨h1, h2, _⟩ := h.queue m hm
      exact ⟨h1, Nat.le_succ_of_le h2, fun he => absurd (show m.epoch = s.epoch + 1 from he) (by omega)⟩
    · intro m hm
      obtain ⟨h1, h2, _⟩ := h.stored m hm
      exact ⟨h1, Nat.le_succ_of_le h2, fun he => absurd (show m.epoch = s.epoch + 1 from he) (by omega)⟩

theorem inv_run (es : List Ev) : ∀ s, Inv s → Inv (run s es) := by
  induction es with
  | nil => intro s h; exact h
  | cons e es ih => intro s h; exact ih _ (inv_step s e h)

/-- C176, proved part: if the last reset did not come in the middle of an increment, and the receiver thread has sent a status since then
that has arrived, the status tells the number of increments between the reset and that message, exactly (modulo 2^32). -/
theorem C176_partial (es : List Ev) (m : Msg) (hm : (run {} es).stored = some m) (he : m.epoch = (run {} es).epoch)
    (hx : (run {} es).mixed = false) : shown (run {} es) = m.count % 4294967296 ∧ m.count ≤ (run {} es).count := by
  have h := inv_run es {} inv_init
  obtain ⟨h1, _, h3⟩ := h.stored m hm
  refine ⟨?_, (h3 he).1⟩
  unfold shown
  rw [hm]
  exact h1 (by rw [(h3 he).2]; exact hx)

/-- Non-vacuity: three before the reset, two after it, one of them after the message. -/
def exRun : List Ev := [.load, .store, .load, .store, .load, .store, .monitor, .reset, .load, .store, .monitor, .deliver, .deliver, .load, .store]
example : (run {} exRun).stored = some ⟨1, 1, 1, false⟩ ∧ (run {} exRun).epoch = 1 ∧ (run {} exRun).mixed = false ∧
    (run {} exRun).count = 2 := by decide

/-- As long as the statistics are not reset, the frames received are those released and those that are still out. -/
theorem C176_frames (es : List Ev) (h : ∀ e ∈ es, e ≠ .reset) :
    (run {} es).received = ((run {} es).released + (run {} es).out) % 4294967296 := by
  have key : ∀ es s, (∀ e ∈ es, e ≠ .reset) → s.received = (s.released + s.out) % 4294967296 →
      (run s es).received = ((run s es).released + (run s es).out) % 4294967296 := by
    intro es
    induction es with
    | nil => intro s _ h; exact h
    | cons e es ih =>
      intro s hn h
      refine ih _ (fun x hx => hn x (List.mem_cons_of_mem _ hx)) ?_
      have he := hn e List.mem_cons_self
      cases e with
      | reset => exact absurd rfl he
      | load => simp only [step]; split <;> exact h
      | store => simp only [step]; cases s.busy <;> exact h
      | monitor => simp only [step]; split <;> exact h
      | deliver => simp only [step]; cases s.queue <;> exact h
      | ready =>
        show (s.received + 1) % 4294967296 = (s.released + (s.out + 1)) % 4294967296
        omega
      | release =>
        simp only [step]
        split
        · exact h
        · show s.received = ((s.released + 1) % 4294967296 + (s.out - 1)) % 4294967296
          omega
  exact key es {} h rfl

example : (run {} [.ready, .ready, .release]).received = 2 ∧ (run {} [.ready, .ready, .release]).released = 1 := by decide

/-- After a reset the frames received are those of that time; those released are these and the ones that were out when the reset came,
without those still out. -/
theorem C176_since (a b : List Ev) (h : ∀ e ∈ b, e ≠ .reset) :
    (run {} (a ++ .reset :: b)).received = b.count .ready % 4294967296 ∧
    ((run {} (a ++ .reset :: b)).received + (run {} a).out) % 4294967296 =
      ((run {} (a ++ .reset :: b)).released + (run {} (a ++ .reset :: b)).out) % 4294967296 := by
  have key : ∀ b s k n, (∀ e ∈ b, e ≠ .reset) → s.received = n % 4294967296 →
      (s.received + k) % 4294967296 = (s.released + s.out) % 4294967296 →
      (run s b).received = (n + b.count .ready) % 4294967296 ∧
      ((run s b).received + k) % 4294967296 = ((run s b).released + (run s b).out) % 4294967296 := by
    intro b
    induction b with
    | nil => intro s k n _ h1 h2; exact ⟨h1, h2⟩
    | cons e es ih =>
      intro s k n hn h1 h2
      have hn' : ∀ x ∈ es, x ≠ .reset := fun x hx => hn x (List.mem_cons_of_mem _ hx)
      have he := hn e List.mem_cons_self
      cases e with
      | reset => exact absurd rfl he
      | load => exact ih _ k n hn' (by simp only [step]; split <;> exact h1) (by simp only [step]; split <;> exact h2)
      | store => exact ih _ k n hn' (by simp only [step]; cases s.busy <;> exact h1) (by simp only [step]; cases s.busy <;> exact h2)
      | monitor => exact ih _ k n hn' (by simp only [step]; split <;> exact h1) (by simp only [step]; split <;> exact h2)
      | deliver => exact ih _ k n hn' (by simp only [step]; cases s.queue <;> exact h1) (by simp only [step]; cases s.queue <;> exact h2)
      | ready =>
        have hc : n + (Ev.ready :: es).count .ready = (n + 1) + es.count .ready := by
          rw [List.count_cons_self]; omega
        rw [hc]
        refine ih (step s .ready) k (n + 1) hn' ?_ ?_
        · show (s.received + 1) % 4294967296 = (n + 1) % 4294967296
          omega
        · show ((s.received + 1) % 4294967296 + k) % 4294967296 = (s.released + (s.out + 1)) % 4294967296
          omega
      | release =>
        refine ih _ k n hn' ?_ ?_
        · simp only [step]; split <;> exact h1
        · simp only [step]
          split
          · exact h2
          · show (s.received + k) % 4294967296 = ((s.released + 1) % 4294967296 + (s.out - 1)) % 4294967296
            omega
  have hr : run {} (a ++ .reset :: b) = run (step (run {} a) .reset) b := by
    unfold run; rw [List.foldl_append]; rfl
  rw [hr]
  have := key b (step (run {} a) .reset) (run {} a).out 0 h rfl (by show (0 + _) % _ = (0 + _) % _; rfl)
  simpa using this

example : (run {} [.ready, .ready, .release, .reset, .ready, .release, .release]).received = 1 ∧
    (run {} [.ready, .ready, .release, .reset, .ready, .release, .release]).released = 2 := by decide

end Verif.RxStats
