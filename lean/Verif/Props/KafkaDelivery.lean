import Verif.Model.KafkaDelivery
/-! Properties C167 and C168: the handles of the Kafka plugin, and what becomes of its messages. -/
namespace Verif.KafkaDelivery

/-! ## C167 -/

/-- C167, full statement: the library is never called with a null pointer. -/
def C167_statement : Prop := ∀ es : List Event, (run {} es).isSome = true

/-- There is no topic without a producer. -/
def Sound (s : State) : Prop := s.topic = true → s.producer = true

theorem report_handles (s : State) (r : Report) :
    (report s r).topic = s.topic ∧ (report s r).producer = s.producer ∧ (report s r).seen = s.seen := ⟨rfl, rfl, rfl⟩

theorem destroy_handles (s : State) (r : Report) (h : Sound s) :
    (destroy s r).topic = false ∧ (destroy s r).producer = false ∧ (destroy s r).seen = s.seen := by
  obtain ⟨p, t, q, n, a, b, c⟩ := s
  unfold Sound at h
  cases p <;> cases t <;> simp_all [destroy, report]

theorem setTopic_handles (s : State) (ok : Bool) :
    (setTopic s ok).topic = (s.producer && ok) ∧ (setTopic s ok).producer = s.producer ∧ (setTopic s ok).seen = s.seen := by
  unfold setTopic
  cases s.producer <;> simp

theorem step_sound (s s' : State) (e : Event) (h : Sound s) (hs : step s e = some s') : Sound s' := by
  cases e with
  | look => cases hs; exact h
  | enqueue ok r =>
    simp only [step] at hs
    split at hs
    · split at hs
      · split at hs
        · cases hs
          rename_i hp
          intro _
          cases ok <;> exact hp
        · cases hs
      · cases hs
    · cases hs; exact h
  | servers r ok tok =>
    cases hs
    unfold Sound
    rw [(setTopic_handles _ _).1, (setTopic_handles _ _).2.1]
    intro k
    rw [Bool.and_eq_true] at k
    exact k.1
  | topic ok =>
    cases hs
    unfold Sound
    rw [(setTopic_handles _ _).1, (setTopic_handles _ _).2.1]
    intro k
    rw [Bool.and_eq_true] at k
    exact k.1
  | status r =>
    simp only [step] at hs
    split at hs <;> cases hs
    · exact h
    · exact h
  | reset => cases hs; exact h

theorem run_sound (es : List Event) : ∀ s s', Sound s → run s es = some s' → Sound s' := by
  induction es with
  | nil => intro s s' h hr; cases hr; exact h
  | cons e es ih =>
    intro s s' h hr
    obtain ⟨t, ht, hr⟩ := Option.bind_eq_some_iff.1 hr
    exact ih t s' (step_sound s t e h ht) hr

/-- Exactly when it happens: the topic the worker saw is gone when it has the mutex. -/
theorem C167_when (es : List Event) (s : State) (e : Event) (hr : run {} es = some s) :
    step s e = none ↔ (∃ ok r, e = .enqueue ok r) ∧ s.seen = true ∧ s.topic = false := by
  have hsd := run_sound es _ _ (by intro h; cases h) hr
  cases e with
  | enqueue ok r =>
    simp only [step]
    cases hse : s.seen <;> cases ht : s.topic <;> simp
    rw [hsd ht]
  | status r => simp only [step]; split <;> simp
  | _ => simp [step]

/-- The configuration is taken by the library. -/
def Spec.Taken : Event → Prop
  | .servers _ ok tok => ok = true ∧ tok = true
  | .topic ok => ok = true
  | _ => True

/-- A configuration the library does not take comes when no frame is between the look at the topic and the mutex. -/
def Spec.Quiet (s : State) : List Event → Prop
  | [] => True
  | e :: es => (Spec.Taken e ∨ s.seen = false) ∧ ∀ t, step s e = some t → Quiet t es

def Kept (s : State) : Prop := Sound s ∧ (s.seen = true → s.topic = true)

theorem step_kept (s : State) (e : Event) (h : Kept s) (hq : Spec.Taken e ∨ s.seen = false) : ∃ t, step s e = some t ∧ Kept t := by
  obtain ⟨h1, h2⟩ := h
  have key : ∀ t, step s e = some t → (t.seen = true → t.topic = true) → ∃ t, step s e = some t ∧ Kept t :=
    fun t ht hk => ⟨t, ht, step_sound s t e h1 ht, hk⟩
  cases e with
  | look => exact key _ rfl (fun k => k)
  | enqueue ok r =>
    by_cases hs : s.seen = true
    · have ht := h2 hs
      refine key _ (by simp only [step]; rw [if_pos hs, if_pos ht, if_pos (h1 ht)]) ?_
      intro k
      cases ok <;> cases k
    · exact key s (by simp only [step]; rw [if_neg hs]) h2
  | servers r ok tok =>
    refine key _ rfl ?_
    rw [(setTopic_handles _ _).1, (setTopic_handles _ _).2.2]
    obtain ⟨d1, d2, d3⟩ := destroy_handles s r h1
    rcases hq with ⟨rfl, rfl⟩ | hq
    · intro _; rfl
    · intro k
      have : (setServers (destroy s r) ok).seen = s.seen := by unfold setServers; split <;> exact d3
      rw [this, hq] at k
      cases k
  | topic ok =>
    refine key _ rfl ?_
    rw [(setTopic_handles _ _).1, (setTopic_handles _ _).2.2]
    intro k
    rcases hq with hq | hq
    · cases hq
      rw [h1 (h2 k)]
      rfl
    · rw [hq] at k; cases k
  | status r =>
    by_cases hp : s.producer = true
    · exact key (report s r) (by simp only [step]; rw [if_pos hp]) h2
    · exact key s (by simp only [step]; rw [if_neg hp]) h2
  | reset => exact key _ rfl h2

theorem quiet_run (es : List Event) : ∀ s, Kept s → Spec.Quiet s es → (run s es).isSome = true := by
  induction es with
  | nil => intro s _ _; rfl
  | cons e es ih =>
    intro s h hq
    obtain ⟨t, ht, hk⟩ := step_kept s e h hq.1
    show ((step s e).bind _).isSome = true
    rw [ht]
    exact ih t hk (hq.2 t ht)

/-- C167, proved part: for histories in which a configuration that the library does not take comes when no frame is between the
look at the topic and the mutex. Missing: the others (`C167_violated`). -/
theorem C167_partial (es : List Event) (h : Spec.Quiet {} es) : (run {} es).isSome = true :=
  quiet_run es {} ⟨fun h => (by cases h), fun h => (by cases h)⟩ h

/-- C167 is false of the code: the worker sees a topic, the plugin is configured with servers the library refuses, which destroys
the topic, and the worker hands the null pointer to the library. -/
theorem C167_violated : ¬ C167_statement := by
  intro h
  exact absurd (h [.servers {} true true, .look, .servers {} false true, .enqueue true {}]) (by decide)

/-- Non-vacuity of `C167_partial`: the same, one step later. -/
example : Spec.Quiet {} [.servers {} true true, .look, .enqueue true {}, .servers {} false true, .look, .enqueue true {}] := by
  refine ⟨Or.inl ⟨rfl, rfl⟩, fun t h => ?_⟩
  cases h
  refine ⟨Or.inl trivial, fun t h => ?_⟩
  cases h
  refine ⟨Or.inl trivial, fun t h => ?_⟩
  cases h
  refine ⟨Or.inr rfl, fun t h => ?_⟩
  cases h
  refine ⟨Or.inl trivial, fun t h => ?_⟩
  cases h
  exact ⟨Or.inl trivial, fun _ _ => trivial⟩

/-! ## C168 -/

/-- C168, full statement: when the library has no message left, every message it took has been counted as acknowledged. -/
def C168_statement : Prop :=
  ∀ (es : List Event) (s : State), run {} es = some s → s.flight = 0 → s.ack = s.sent

/-- Messages that a report says have failed: those it names, as far as there are so many besides those delivered. -/
def Spec.failed (n : Nat) (r : Report) : Nat := if n ≤ r.good then 0 else if n - r.good ≤ r.bad then n - r.good else r.bad

/-- Messages delivered according to a report. -/
def Spec.delivered (n : Nat) (r : Report) : Nat := if n ≤ r.good then n else r.good

/-- Messages that leave the library in an event without being counted: failed ones, and those dropped with the producer. -/
def Spec.vanish (s : State) : Event → Nat
  | .enqueue ok r => if s.seen && s.topic then Spec.failed (s.flight + (if ok then 1 else 0)) r else 0
  | .servers r _ _ => if s.topic then s.flight - Spec.delivered s.flight r else if s.producer then s.flight else 0
  | .status r => if s.producer then Spec.failed s.flight r else 0
  | _ => 0

/-- The same, over a history. -/
def Spec.vanished (s : State) : List Event → Nat
  | [] => 0
  | e :: es => Spec.vanish s e + (match step s e with | some t => Spec.vanished t es | none => 0)

theorem report_counts (s : State) (r : Report) : (report s r).flight = s.flight - Spec.delivered s.flight r - Spec.failed s.flight r ∧
    (report s r).ack = (s.ack + Spec.delivered s.flight r) % 4294967296 ∧ (report s r).sent = s.sent ∧
    Spec.delivered s.flight r + Spec.failed s.flight r ≤ s.flight := by
  unfold Spec.delivered Spec.failed report
  dsimp only
  rw [Nat.min_def, Nat.min_def]
  refine ⟨?_, ?_, rfl, ?_⟩
  · split <;> split <;> (try split) <;> (try split) <;> omega
  · split <;> split <;> omega
  · split <;> (try split) <;> omega

theorem step_counts (s s' : State) (e : Event) (h : Sound s) (hn : e ≠ .reset) (hs : step s e = some s') (v : Nat)
    (hv : s.sent = (s.ack + s.flight + v) % 4294967296) :
    s'.sent = (s'.ack + s'.flight + (v + Spec.vanish s e)) % 4294967296 := by
  cases e with
  | look => cases hs; exact hv
  | enqueue ok r =>
    simp only [step] at hs
    split at hs
    · split at hs
      · rename_i h1 h2
        rw [if_pos (h h2)] at hs
        cases hs
        have hvan : Spec.vanish s (.enqueue ok r) = Spec.failed (s.flight + (if ok then 1 else 0)) r := by
          simp [Spec.vanish, h1, h2]
        rw [hvan]
        cases ok
        · obtain ⟨c1, c2, c3, c4⟩ := report_counts { s with seen := false, lost := (s.lost + 1) % 4294967296 } r
          simp only [Bool.false_eq_true, if_false, Nat.add_zero] at *
          rw [c1, c2, c3, hv]
          omega
        · obtain ⟨c1, c2, c3, c4⟩ :=
            report_counts { s with seen := false, sent := (s.sent + 1) % 4294967296, flight := s.flight + 1 } r
          simp only [if_true] at *
          rw [c1, c2, c3, hv]
          omega
      · cases hs
    · rename_i h1
      cases hs
      simp [Spec.vanish, h1, hv]
  | servers r ok tok =>
    cases hs
    have e1 : ∀ t : State, (setTopic t tok).sent = t.sent ∧ (setTopic t tok).ack = t.ack ∧ (setTopic t tok).flight = t.flight := by
      intro t; unfold setTopic; split <;> exact ⟨rfl, rfl, rfl⟩
    have e2 : ∀ t : State, (setServers t ok).sent = t.sent ∧ (setServers t ok).ack = t.ack ∧ (setServers t ok).flight = t.flight := by
      intro t; unfold setServers; split <;> exact ⟨rfl, rfl, rfl⟩
    rw [(e1 _).1, (e1 _).2.1, (e1 _).2.2, (e2 _).1, (e2 _).2.1, (e2 _).2.2]
    unfold destroy Spec.vanish
    cases ht : s.topic with
    | true =>
      obtain ⟨c1, c2, c3, c4⟩ := report_counts s r
      have hp : (report s r).producer = true := h ht
      dsimp only
      rw [if_pos rfl, if_pos rfl]
      dsimp only
      rw [if_pos hp]
      dsimp only
      rw [c2, c3, hv]
      omega
    | false =>
      simp only [Bool.false_eq_true, if_false]
      cases hp : s.producer with
      | true => simp only [if_true]; rw [hv]; omega
      | false => simp only [Bool.false_eq_true, if_false, Nat.add_zero]; exact hv
  | topic ok =>
    cases hs
    have e1 : (setTopic s ok).sent = s.sent ∧ (setTopic s ok).ack = s.ack ∧ (setTopic s ok).flight = s.flight := by
      unfold setTopic; split <;> exact ⟨rfl, rfl, rfl⟩
    rw [e1.1, e1.2.1, e1.2.2]
    exact hv
  | status r =>
    simp only [step] at hs
    split at hs
    · rename_i hp
      cases hs
      obtain ⟨c1, c2, c3, c4⟩ := report_counts s r
      simp only [Spec.vanish, hp, if_true]
      rw [c1, c2, c3, hv]
      omega
    · rename_i hp
      cases hs
      simp [Spec.vanish, hp, hv]
  | reset => exact absurd rfl hn

/-- What the counters say, for every history without a reset: messages taken are those acknowledged, those still in the library, and
those that failed or were dropped. -/
theorem C168_ledger (es : List Event) : ∀ (s s' : State) (v : Nat), Sound s → Event.reset ∉ es → run s es = some s' →
    s.sent = (s.ack + s.flight + v) % 4294967296 →
    s'.sent = (s'.ack + s'.flight + (v + Spec.vanished s es)) % 4294967296 := by
  induction es with
  | nil => intro s s' v _ _ hr hv; cases hr; exact hv
  | cons e es ih =>
    intro s s' v h hn hr hv
    obtain ⟨t, ht, hr⟩ := Option.bind_eq_some_iff.1 hr
    have h1 := step_counts s t e h (fun k => hn (by rw [k]; simp)) ht v hv
    have h2 := ih t s' _ (step_sound s t e h ht) (fun k => hn (List.mem_cons_of_mem _ k)) hr h1
    rw [Spec.vanished, ht]
    rw [Nat.add_assoc v] at h2
    exact h2

theorem step_ack (s s' : State) (e : Event) (h : s.ack < 4294967296) (hs : step s e = some s') : s'.ack < 4294967296 := by
  have hm : ∀ (t : State) (r : Report), (report t r).ack < 4294967296 := fun t r => Nat.mod_lt _ (by decide)
  cases e with
  | look => cases hs; exact h
  | enqueue ok r =>
    simp only [step] at hs
    split at hs
    · split at hs
      · split at hs
        · cases hs; exact hm _ _
        · cases hs
      · cases hs
    · cases hs; exact h
  | servers r ok tok =>
    cases hs
    have e1 : ∀ t : State, (setTopic t tok).ack = t.ack := by intro t; unfold setTopic; split <;> rfl
    have e2 : ∀ t : State, (setServers t ok).ack = t.ack := by intro t; unfold setServers; split <;> rfl
    rw [e1, e2]
    unfold destroy
    dsimp only
    split <;> split
    · exact hm _ _
    · exact hm _ _
    · exact h
    · exact h
  | topic ok =>
    cases hs
    have e1 : (setTopic s ok).ack = s.ack := by unfold setTopic; split <;> rfl
    rw [e1]; exact h
  | status r =>
    simp only [step] at hs
    split at hs <;> cases hs
    · exact hm _ _
    · exact h
  | reset => cases hs; show (0 : Nat) < 4294967296; decide

theorem run_ack (es : List Event) : ∀ s s', s.ack < 4294967296 → run s es = some s' → s'.ack < 4294967296 := by
  induction es with
  | nil => intro s s' h hr; cases hr; exact h
  | cons e es ih =>
    intro s s' h hr
    obtain ⟨t, ht, hr⟩ := Option.bind_eq_some_iff.1 hr
    exact ih t s' (step_ack s t e h ht) hr

/-- C168, proved part: without a reset of the statistics, and if no message fails or is dropped. Missing: these (`C168_violated`,
`C168_dropped`, `C168_reset`). -/
theorem C168_partial (es : List Event) (s : State) (hr : run {} es = some s) (hn : Event.reset ∉ es) (hv : Spec.vanished {} es = 0)
    (hf : s.flight = 0) : s.ack = s.sent := by
  have h1 := C168_ledger es {} s 0 (fun h => (by cases h)) hn hr rfl
  rw [hv, hf] at h1
  have h2 := run_ack es {} s (by decide) hr
  rw [h1]
  simp only [Nat.add_zero]
  exact (Nat.mod_eq_of_lt h2).symm

/-- C168 is false of the code: a failed delivery is written to the log and counted nowhere. -/
theorem C168_violated : ¬ C168_statement := by
  intro h
  exact absurd (h [.servers {} true true, .look, .enqueue true {}, .status { bad := 1 }] _ rfl rfl) (by decide)

/-- Nor are the messages that the flush does not deliver in its second when the servers are set again. -/
theorem C168_dropped : (run {} [.servers {} true true, .look, .enqueue true {}, .servers {} true true]).map
    (fun s => (s.sent, s.lost, s.ack, s.flight)) = some (1, 0, 0, 0) := by decide

/-- A message acknowledged after a reset is counted, though it was not counted as sent. -/
theorem C168_reset : (run {} [.servers {} true true, .look, .enqueue true {}, .reset, .status { good := 1 }]).map
    (fun s => (s.sent, s.lost, s.ack, s.flight)) = some (0, 0, 1, 0) := by decide

/-- Non-vacuity: three messages, one refused, the others acknowledged by a poll and a flush. -/
example : (run {} [.servers {} true true, .look, .enqueue true {}, .look, .enqueue false { good := 1 }, .look, .enqueue true {},
    .servers { good := 7 } true true]).map (fun s => (s.sent, s.lost, s.ack, s.flight)) = some (2, 1, 2, 0) ∧
    Spec.vanished {} [.servers {} true true, .look, .enqueue true {}, .look, .enqueue false { good := 1 }, .look, .enqueue true {},
    .servers { good := 7 } true true] = 0 := by decide

end Verif.KafkaDelivery
