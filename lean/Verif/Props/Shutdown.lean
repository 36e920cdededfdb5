import Verif.Model.Shutdown
/-
C50: a shutdown request is not lost. C76: a plugin is not destroyed while its thread runs. C77: a shutdown completes.
-/
namespace Verif.Shutdown

/-- C50: the main thread goes on to the shutdown exactly if it has come to the wait and a shutdown was requested. -/
def C50_statement : Prop := ∀ es : List Ev,
  es.foldl await .before = .woken ↔ Ev.wait ∈ es ∧ Ev.request ∈ es

/-- C50 fails: a request before the main thread waits is lost. -/
theorem C50_violated : ¬ C50_statement := by
  intro h
  exact absurd ((h [.request, .wait]).2 (by decide)) (by decide)

/-- C50 fails as well when the wait returns spuriously. -/
theorem C50_spurious : [Ev.wait, .spurious].foldl await .before = .woken := by decide

theorem woken_stays (es : List Ev) : es.foldl await .woken = .woken := by
  induction es with
  | nil => rfl
  | cons e es ih =>
    rw [List.foldl_cons]
    have : await .woken e = .woken := by cases e <;> rfl
    rw [this, ih]

theorem waiting_iff (es : List Ev) : es.foldl await .waiting = .woken ↔ Ev.request ∈ es ∨ Ev.spurious ∈ es := by
  induction es with
  | nil => simp
  | cons e es ih =>
    rw [List.foldl_cons]
    cases e with
    | wait =>
      have : await .waiting .wait = .waiting := rfl
      rw [this, ih]; simp
    | request =>
      have : await .waiting .request = .woken := rfl
      rw [this]; simp [woken_stays]
    | spurious =>
      have : await .waiting .spurious = .woken := rfl
      rw [this]; simp [woken_stays]

theorem before_stays (es : List Ev) (h : Ev.wait ∉ es) : es.foldl await .before = .before := by
  induction es with
  | nil => rfl
  | cons e es ih =>
    simp only [List.mem_cons, not_or] at h
    rw [List.foldl_cons]
    have : await .before e = .before := by cases e <;> first | rfl | exact absurd rfl h.1
    rw [this, ih h.2]

/-- C50, from the moment the main thread waits: it goes on exactly if a request (or a spurious return) follows; and
everything before is lost. -/
theorem C50_partial (before after : List Ev) (h : Ev.wait ∉ before) :
    (before ++ Ev.wait :: after).foldl await .before = .woken ↔ Ev.request ∈ after ∨ Ev.spurious ∈ after := by
  rw [List.foldl_append, before_stays before h, List.foldl_cons]
  exact waiting_iff after

example : ([Ev.request] ++ Ev.wait :: [.wait, .request]).foldl await .before = .woken := by decide

/-! The plugins -/

/-- At the beginning of a shutdown the thread of a plugin runs exactly if the plugin is working. -/
def Start (ps : List Plugin) : Prop := ∀ p ∈ ps, p.working = true ↔ p.worker ≠ .ended

/-- C77: whatever the threads have done, the shutdown is completed or can still be completed. -/
def C77_statement : Prop := ∀ (ps : List Plugin) (as : List Act) (s : St), Start ps → run { plugins := ps } as = some s →
  s.main = .over ∨ ∃ as' s', run s as' = some s' ∧ s'.main = .over

/-- The main thread is in the `add` of a plugin whose queue is full and whose thread has ended. -/
def Stuck (s : St) (k : Nat) : Prop := s.main = .add k ∧ s.sent = false ∧
  ∃ p, s.plugins[k]? = some p ∧ maxQueue ≤ p.queue.length ∧ (p.worker = .ended ∨ p.worker = .spin)

theorem set_get {α} (l : List α) (i j : Nat) (a b : α) (h : l[i]? = some b) :
    (l.set i a)[j]? = if i = j then some a else l[j]? := by
  have hlt : i < l.length := by
    by_cases e : i < l.length
    · exact e
    · rw [List.getElem?_eq_none (by omega)] at h; cases h
  rw [List.getElem?_set]
  by_cases e : i = j
  · subst e; simp [hlt]
  · simp [e]

theorem stuck_step (s s' : St) (k : Nat) (a : Act) (h : Stuck s k) (hs : step s a = some s') : Stuck s' k := by
  obtain ⟨h1, h2, p, h3, h4, h5⟩ := h
  cases a with
  | main =>
    simp only [step, mainStep, h1, h3] at hs
    rw [if_neg (by omega)] at hs
    cases hs
  | worker i hit =>
    simp only [step] at hs
    cases hi : s.plugins[i]? with
    | none => rw [hi] at hs; cases hs
    | some q =>
      rw [hi] at hs
      simp only at hs
      cases hw : workerStep s.sent q hit with
      | none => rw [hw] at hs; cases hs
      | some q' =>
        rw [hw] at hs
        simp only [Option.some.injEq] at hs
        subst hs
        refine ⟨h1, h2, p, ?_, h4, h5⟩
        rw [set_get _ i k _ _ hi]
        by_cases e : i = k
        · subst e
          rw [h3] at hi
          cases hi
          rcases h5 with h5 | h5 <;> simp [workerStep, h5, h2] at hw
        · rw [if_neg e, h3]
  | feed i =>
    simp only [step] at hs
    cases hi : s.plugins[i]? with
    | none => rw [hi] at hs; cases hs
    | some q =>
      rw [hi] at hs
      simp only [Option.some.injEq] at hs
      subst hs
      by_cases e : i = k
      · subst e
        rw [h3] at hi
        cases hi
        refine ⟨h1, h2, { p with queue := p.queue ++ [true] }, ?_, ?_, h5⟩
        · rw [set_get _ i i _ _ h3, if_pos rfl]
        · simp only [List.length_append]; omega
      · refine ⟨h1, h2, p, ?_, h4, h5⟩
        rw [set_get _ i k _ _ hi, if_neg e, h3]

/-- C77: once the thread of a plugin with a full queue has ended, or waits for the main thread, while the main thread is
stopping it, the shutdown never completes, whatever happens. -/
theorem C77_stuck (s s' : St) (k : Nat) (as : List Act) (h : Stuck s k) (hr : run s as = some s') : s'.main = .add k := by
  induction as generalizing s with
  | nil => cases hr; exact h.1
  | cons a as ih =>
    simp only [run] at hr
    cases hs : step s a with
    | none => rw [hs] at hr; cases hr
    | some t => rw [hs] at hr; exact ih t (stuck_step s t k a h hs) hr

def full : List Bool := List.replicate 8 true

/-- C77 fails: a plugin busy with a frame, eight more in its queue. -/
theorem C77_violated : ¬ C77_statement := by
  intro h
  have hr : run { plugins := [{ queue := full, worker := .busy }] } [.main, .worker 0 false, .worker 0 false] =
    some { plugins := [{ working := false, queue := full, worker := .ended }], main := .add 0 } := by decide +kernel
  rcases h _ _ _ (by intro p hp; simp only [List.mem_singleton] at hp; subst hp; decide) hr with h | ⟨as, s', h1, h2⟩
  · cases h
  · have := C77_stuck _ s' 0 as ⟨rfl, rfl, _, rfl, by decide, Or.inl rfl⟩ h1
    rw [this] at h2
    cases h2

/-- And when the shutdown is due to the number of frames: the plugin's thread waits for the main thread, which waits for
room in the plugin's queue. -/
theorem C77_deadlock : ∃ s, run { plugins := [{ queue := full, worker := .spin }] } [.main] = some s ∧ Stuck s 0 := by
  refine ⟨_, rfl, rfl, rfl, _, rfl, ?_, Or.inr rfl⟩
  decide

/-! Without a backlog -/

/-- Plugin `j` has not got its null pointer yet. -/
def notYet (m : Main) (j : Nat) : Prop :=
  match m with
  | .stop k => k ≤ j
  | .add k => k ≤ j
  | _ => False

/-- The flag of plugin `j` is down. -/
def flagged (m : Main) (j : Nat) : Prop :=
  match m with
  | .stop k => j < k
  | .add k => j ≤ k
  | _ => True

/-- The `stop` of plugin `j` has returned. -/
def stopped (m : Main) (j : Nat) : Prop :=
  match m with
  | .stop k => j < k
  | .add k => j < k
  | _ => True

structure Inv (n : Nat) (s : St) : Prop where
  len : s.plugins.length = n
  small : ∀ j p, s.plugins[j]? = some p → notYet s.main j → p.queue.length < maxQueue
  down : ∀ j p, s.plugins[j]? = some p → flagged s.main j → p.working = false
  inside : ∀ k, s.main = .add k → k < n

def noFeed : Act → Bool
  | .feed _ => false
  | _ => true

def isMain : Act → Bool
  | .main => true
  | _ => false

/-- How many steps the main thread has left, at most. -/
def left (n : Nat) : Main → Nat
  | .stop k => 2 * (n - k) + n + 4
  | .add k => 2 * (n - k) + n + 3
  | .flag => n + 3
  | .wait k => (n - k) + 2
  | .clear => 1
  | .over => 0

theorem worker_facts (sent : Bool) (p p' : Plugin) (hit : Bool) (h : workerStep sent p hit = some p') :
    p'.working = p.working ∧ p'.queue.length ≤ p.queue.length := by
  unfold workerStep at h
  split at h
  · cases h; exact ⟨rfl, Nat.le_refl _⟩
  · split at h
    · cases h
    · rename_i q hq; cases h; rw [hq]; exact ⟨rfl, by simp⟩
    · rename_i q hq; cases h; rw [hq]; exact ⟨rfl, by simp⟩
  · cases h; exact ⟨rfl, Nat.le_refl _⟩
  · split at h
    · cases h; exact ⟨rfl, Nat.le_refl _⟩
    · cases h
  · cases h

theorem get_lt {α} (l : List α) (k : Nat) (a : α) (h : l[k]? = some a) : k < l.length := by
  by_cases e : k < l.length
  · exact e
  · rw [List.getElem?_eq_none (by omega)] at h; cases h

theorem get_none {α} (l : List α) (k : Nat) (h : l[k]? = none) : l.length ≤ k := List.getElem?_eq_none_iff.1 h

theorem main_inv (n : Nat) (s : St) (h : Inv n s) (ho : s.main ≠ .over) :
    ∃ s', mainStep s = some s' ∧ Inv n s' ∧ left n s'.main < left n s.main := by
  obtain ⟨len, small, down, inside⟩ := h
  cases hm : s.main with
  | over => exact absurd hm ho
  | flag =>
    refine ⟨{ s with main := .wait 0, sent := true }, by simp only [mainStep, hm], ⟨len, fun j p _ hn => hn.elim, fun j p hj _ => down j p hj (by rw [hm]; trivial), fun k hk => by cases hk⟩, ?_⟩
    simp only [left]; omega
  | clear =>
    exact ⟨{ s with main := .over }, by simp only [mainStep, hm], ⟨len, fun j p _ hn => hn.elim, fun j p hj _ => down j p hj (by rw [hm]; trivial), fun k hk => by cases hk⟩, by simp [left]⟩
  | wait k =>
    cases hk : s.plugins[k]? with
    | none =>
      refine ⟨{ s with main := .clear }, by simp only [mainStep, hm, hk], ⟨len, fun j p _ hn => hn.elim, fun j p hj _ => down j p hj (by rw [hm]; trivial), fun k hk => by cases hk⟩, ?_⟩
      simp only [left]; omega
    | some p =>
      have hw : p.working = false := down k p hk (by rw [hm]; trivial)
      have := get_lt _ _ _ hk
      refine ⟨{ s with main := .wait (k + 1) }, by simp [mainStep, hm, hk, hw], ⟨len, fun j p _ hn => hn.elim, fun j p hj _ => down j p hj (by rw [hm]; trivial), fun k hk => by cases hk⟩, ?_⟩
      simp only [left]; omega
  | stop k =>
    cases hk : s.plugins[k]? with
    | none =>
      have hle := get_none _ _ hk
      refine ⟨{ s with main := .flag }, by simp only [mainStep, hm, hk], ⟨len, fun j p _ hn => hn.elim, fun j p hj _ => ?_, fun k hk => by cases hk⟩, ?_⟩
      · have hjl : j < s.plugins.length := get_lt _ _ _ hj
        exact down j p hj (by rw [hm]; show j < k; omega)
      · simp only [left]; omega
    | some p =>
      have hlt := get_lt _ _ _ hk
      by_cases hw : p.working = true
      · refine ⟨{ s with plugins := s.plugins.set k { p with working := false }, main := .add k }, by simp [mainStep, hm, hk, hw], ⟨by simpa using len, fun j q hj hn => ?_, fun j q hj hf => ?_, fun k' hk' => ?_⟩, ?_⟩
        · replace hj : (s.plugins.set k { p with working := false })[j]? = some q := hj
          rw [set_get _ k j _ _ hk] at hj
          by_cases e : k = j
          · subst e
            rw [if_pos rfl] at hj
            cases hj
            exact small k p hk (by rw [hm]; exact Nat.le_refl _)
          · rw [if_neg e] at hj
            exact small j q hj (by rw [hm]; exact hn)
        · replace hj : (s.plugins.set k { p with working := false })[j]? = some q := hj
          rw [set_get _ k j _ _ hk] at hj
          by_cases e : k = j
          · subst e
            rw [if_pos rfl] at hj
            cases hj
            rfl
          · rw [if_neg e] at hj
            refine down j q hj ?_
            rw [hm]
            replace hf : j ≤ k := hf
            show j < k
            omega
        · cases hk'; omega
        · simp only [left]; omega
      · refine ⟨{ s with main := .stop (k + 1) }, by simp [mainStep, hm, hk, hw], ⟨len, fun j q hj hn => ?_, fun j q hj hf => ?_, fun k hk => by cases hk⟩, ?_⟩
        · replace hn : k + 1 ≤ j := hn
          exact small j q hj (by rw [hm]; show k ≤ j; omega)
        · replace hf : j < k + 1 := hf
          by_cases e : j = k
          · subst e
            rw [hk] at hj
            cases hj
            simpa using hw
          · exact down j q hj (by rw [hm]; show j < k; omega)
        · simp only [left]; omega
  | add k =>
    have hlt := inside k hm
    cases hk : s.plugins[k]? with
    | none => have := get_none _ _ hk; omega
    | some p =>
      have hq := small k p hk (by rw [hm]; exact Nat.le_refl _)
      refine ⟨{ s with plugins := s.plugins.set k { p with queue := p.queue ++ [false] }, main := .stop (k + 1) }, by simp [mainStep, hm, hk, hq], ⟨by simpa using len, fun j q hj hn => ?_, fun j q hj hf => ?_, fun k hk => by cases hk⟩, ?_⟩
      · replace hj : (s.plugins.set k { p with queue := p.queue ++ [false] })[j]? = some q := hj
        replace hn : k + 1 ≤ j := hn
        rw [set_get _ k j _ _ hk, if_neg (by omega)] at hj
        exact small j q hj (by rw [hm]; show k ≤ j; omega)
      · replace hj : (s.plugins.set k { p with queue := p.queue ++ [false] })[j]? = some q := hj
        replace hf : j < k + 1 := hf
        rw [set_get _ k j _ _ hk] at hj
        by_cases e : k = j
        · subst e
          rw [if_pos rfl] at hj
          cases hj
          exact down k p hk (by rw [hm]; exact Nat.le_refl _)
        · rw [if_neg e] at hj
          exact down j q hj (by rw [hm]; show j ≤ k; omega)
      · simp only [left]; omega

theorem worker_inv (n : Nat) (s s' : St) (i : Nat) (hit : Bool) (h : Inv n s) (hs : step s (.worker i hit) = some s') :
    Inv n s' ∧ s'.main = s.main := by
  obtain ⟨len, small, down, inside⟩ := h
  simp only [step] at hs
  cases hi : s.plugins[i]? with
  | none => rw [hi] at hs; cases hs
  | some p =>
    rw [hi] at hs
    simp only at hs
    cases hw : workerStep s.sent p hit with
    | none => rw [hw] at hs; cases hs
    | some p' =>
      rw [hw] at hs
      simp only [Option.some.injEq] at hs
      subst hs
      obtain ⟨f1, f2⟩ := worker_facts _ _ _ _ hw
      refine ⟨⟨by simpa using len, fun j q hj hn => ?_, fun j q hj hf => ?_, inside⟩, rfl⟩
      · replace hj : (s.plugins.set i p')[j]? = some q := hj
        rw [set_get _ i j _ _ hi] at hj
        by_cases e : i = j
        · subst e
          rw [if_pos rfl] at hj
          cases hj
          have := small i p hi hn
          omega
        · rw [if_neg e] at hj
          exact small j q hj hn
      · replace hj : (s.plugins.set i p')[j]? = some q := hj
        rw [set_get _ i j _ _ hi] at hj
        by_cases e : i = j
        · subst e
          rw [if_pos rfl] at hj
          cases hj
          rw [f1]
          exact down i p hi hf
        · rw [if_neg e] at hj
          exact down j q hj hf

/-- C77, if no queue holds eight frames and no frames come in any more: in every schedule the main thread is never
blocked, and it completes the shutdown after at most `3 n + 4` steps of its own. -/
theorem C77_partial (ps : List Plugin) (hq : ∀ p ∈ ps, p.queue.length < 8) (as : List Act)
    (ha : ∀ a ∈ as, noFeed a = true) (s : St) (hr : run { plugins := ps } as = some s) :
    (s.main = .over ∨ ∃ s', step s .main = some s') ∧ (as.filter isMain).length ≤ 3 * ps.length + 4 ∧
    ((as.filter isMain).length = 3 * ps.length + 4 → s.main = .over) := by
  have key : ∀ (as : List Act) (s0 s : St), (∀ a ∈ as, noFeed a = true) → Inv ps.length s0 → run s0 as = some s →
      Inv ps.length s ∧ left ps.length s.main + (as.filter isMain).length ≤ left ps.length s0.main := by
    intro as
    induction as with
    | nil => intro s0 s _ h hr; cases hr; exact ⟨h, by simp⟩
    | cons a as ih =>
      intro s0 s ha h hr
      simp only [run] at hr
      cases hs : step s0 a with
      | none => rw [hs] at hr; cases hr
      | some t =>
        rw [hs] at hr
        have hta : ∀ b ∈ as, noFeed b = true := fun b hb => ha b (List.mem_cons_of_mem _ hb)
        cases a with
        | feed i => have := ha (.feed i) (by simp); simp [noFeed] at this
        | main =>
          have ho : s0.main ≠ .over := by
            intro e
            simp [step, mainStep, e] at hs
          obtain ⟨s', h1, h2, h3⟩ := main_inv _ s0 h ho
          replace hs : mainStep s0 = some t := hs
          rw [h1] at hs
          cases hs
          obtain ⟨i1, i2⟩ := ih _ s hta h2 hr
          refine ⟨i1, ?_⟩
          have : (Act.main :: as).filter isMain = Act.main :: as.filter isMain := rfl
          rw [this, List.length_cons]
          omega
        | worker i hit =>
          obtain ⟨h1, h2⟩ := worker_inv _ s0 t i hit h hs
          obtain ⟨i1, i2⟩ := ih _ s hta h1 hr
          refine ⟨i1, ?_⟩
          have : (Act.worker i hit :: as).filter isMain = as.filter isMain := rfl
          rw [this, ← h2]
          exact i2
  have h0 : Inv ps.length { plugins := ps } :=
    ⟨rfl, fun j p hj _ => hq p (List.mem_of_getElem? hj), fun j p _ hf => (by replace hf : j < 0 := hf; omega), fun k hk => (by cases hk)⟩
  obtain ⟨h1, h2⟩ := key as _ s ha h0 hr
  have hl : left ps.length (.stop 0) = 3 * ps.length + 4 := by simp only [left]; omega
  replace h2 : left ps.length s.main + (as.filter isMain).length ≤ left ps.length (.stop 0) := h2
  rw [hl] at h2
  have hzero : left ps.length s.main = 0 → s.main = .over := by
    intro e
    cases hm : s.main <;> rw [hm] at e <;> simp only [left] at e <;> first | rfl | omega
  refine ⟨?_, by omega, fun e => hzero (by omega)⟩
  by_cases ho : s.main = .over
  · exact Or.inl ho
  · obtain ⟨s', h3, _⟩ := main_inv _ s h1 ho
    exact Or.inr ⟨s', h3⟩

/-! Destroying the plugins -/

/-- C76: when the plugins have been destroyed no thread of a plugin is left. -/
def C76_statement : Prop := ∀ (ps : List Plugin) (as : List Act) (s : St), Start ps → run { plugins := ps } as = some s →
  s.main = .over → ∀ p ∈ s.plugins, p.worker = .ended

/-- C76 fails: `isWorking` is false as soon as the plugin has been told to stop, so a plugin busy with a frame is
destroyed. -/
theorem C76_violated : ¬ C76_statement := by
  intro h
  have hr : run { plugins := [{ worker := .busy }] } [.main, .main, .main, .main, .main, .main, .main] =
    some { plugins := [{ working := false, queue := [false], worker := .busy }], main := .over, sent := true } := by
    decide +kernel
  have := h _ _ _ (by intro p hp; simp only [List.mem_singleton] at hp; subst hp; decide) hr rfl _ (List.mem_singleton.2 rfl)
  cases this

/-- Even the idle thread of a plugin outlives it, if it is slow to take its null pointer. -/
theorem C76_idle : ∃ s, run { plugins := [{}] } [.main, .main, .main, .main, .main, .main, .main] = some s ∧
    s.main = .over ∧ s.plugins.map (·.worker) = [.take] := ⟨_, rfl, by decide +kernel⟩

/-- What holds of a plugin whose `stop` has returned: its thread will come to its end. -/
def Ending (p : Plugin) : Prop := p.working = false ∧ (p.worker = .take → p.queue ≠ [])

/-- Steps left to its end. -/
def rank : Worker → Nat
  | .take => 4 | .busy => 3 | .spin => 2 | .test => 1 | .ended => 0

/-- C76, what waiting for the threads would achieve: a plugin that has been stopped, once all have been told so, ends its
thread by itself, never blocked, after at most four steps. -/
theorem C76_partial (p : Plugin) (hit : Bool) (h : Ending p) :
    (p.worker ≠ .ended → ∃ p', workerStep true p hit = some p') ∧
    (∀ sent p', workerStep sent p hit = some p' → Ending p' ∧ rank p'.worker < rank p.worker) := by
  obtain ⟨h1, h2⟩ := h
  obtain ⟨w, q, wk⟩ := p
  simp only at h1 h2
  subst h1
  constructor
  · intro hne
    cases wk <;> simp only [workerStep] <;> first | exact ⟨_, rfl⟩ | skip
    · cases q with
      | nil => exact absurd rfl (h2 rfl)
      | cons b q => cases b <;> exact ⟨_, rfl⟩
    · exact absurd rfl hne
  · intro sent p' hs
    cases wk <;> simp only [workerStep] at hs
    · cases hs; simp [Ending, rank]
    · cases q with
      | nil => exact absurd rfl (h2 rfl)
      | cons b q => cases b <;> (cases hs; simp [Ending, rank])
    · cases hs; cases hit <;> simp [Ending, rank]
    · split at hs
      · cases hs; simp [Ending, rank]
      · cases hs
    · cases hs

/-- The plugins whose threads can be waited for: those stopped, in every reachable state. A thread that has not ended is
not blocked in its `remove`. -/
structure Inv2 (s : St) : Prop where
  down : ∀ j p, s.plugins[j]? = some p → flagged s.main j → p.working = false
  ending : ∀ j p, s.plugins[j]? = some p → stopped s.main j → Ending p
  run : ∀ j p, s.plugins[j]? = some p → p.working = false → flagged s.main j ∨ p.worker = .ended

theorem worker_ended (sent : Bool) (p p' : Plugin) (hit : Bool) (h : workerStep sent p hit = some p') : p.worker ≠ .ended := by
  intro e
  simp [workerStep, e] at h

theorem stopped_flagged (m : Main) (j : Nat) (h : stopped m j) : flagged m j := by
  cases m <;> simp only [stopped, flagged] at * <;> omega

theorem step_inv2 (s s' : St) (a : Act) (h : Inv2 s) (hs : step s a = some s') : Inv2 s' := by
  obtain ⟨down, ending, hrun⟩ := h
  cases a with
  | worker i hit =>
    simp only [step] at hs
    cases hi : s.plugins[i]? with
    | none => rw [hi] at hs; cases hs
    | some p =>
      rw [hi] at hs
      simp only at hs
      cases hw : workerStep s.sent p hit with
      | none => rw [hw] at hs; cases hs
      | some p' =>
        rw [hw] at hs
        simp only [Option.some.injEq] at hs
        subst hs
        have f1 := (worker_facts _ _ _ _ hw).1
        refine ⟨fun j q hj hf => ?_, fun j q hj hf => ?_, fun j q hj hf => ?_⟩ <;>
        · replace hj : (s.plugins.set i p')[j]? = some q := hj
          rw [set_get _ i j _ _ hi] at hj
          by_cases e : i = j
          · subst e
            rw [if_pos rfl] at hj
            cases hj
            first
              | (rw [f1]; exact down i p hi hf)
              | exact ((C76_partial p hit (ending i p hi hf)).2 _ _ hw).1
              | (rw [f1] at hf
                 rcases hrun i p hi hf with h | h
                 · exact Or.inl h
                 · exact absurd h (worker_ended _ _ _ _ hw))
          · rw [if_neg e] at hj
            first
              | exact down j q hj hf
              | exact ending j q hj hf
              | exact hrun j q hj hf
  | feed i =>
    simp only [step] at hs
    cases hi : s.plugins[i]? with
    | none => rw [hi] at hs; cases hs
    | some p =>
      rw [hi] at hs
      simp only [Option.some.injEq] at hs
      subst hs
      refine ⟨fun j q hj hf => ?_, fun j q hj hf => ?_, fun j q hj hf => ?_⟩ <;>
      · replace hj : (s.plugins.set i { p with queue := p.queue ++ [true] })[j]? = some q := hj
        rw [set_get _ i j _ _ hi] at hj
        by_cases e : i = j
        · subst e
          rw [if_pos rfl] at hj
          cases hj
          first
            | exact down i p hi hf
            | exact ⟨(ending i p hi hf).1, fun _ => by simp⟩
            | exact hrun i p hi hf
        · rw [if_neg e] at hj
          first
            | exact down j q hj hf
            | exact ending j q hj hf
            | exact hrun j q hj hf
  | main =>
    replace hs : mainStep s = some s' := hs
    unfold mainStep at hs
    split at hs
    · rename_i k hm
      split at hs
      · rename_i p hk
        split at hs
        · cases hs
          refine ⟨fun j q hj hf => ?_, fun j q hj hf => ?_, fun j q hj hf => ?_⟩ <;>
          · replace hj : (s.plugins.set k { p with working := false })[j]? = some q := hj
            rw [set_get _ k j _ _ hk] at hj
            by_cases e : k = j
            · subst e
              rw [if_pos rfl] at hj
              cases hj
              first
                | rfl
                | (replace hf : k < k := hf; omega)
                | exact Or.inl (Nat.le_refl k)
            · rw [if_neg e] at hj
              first
                | (refine down j q hj ?_; rw [hm]; replace hf : j ≤ k := hf; show j < k; omega)
                | (refine ending j q hj ?_; rw [hm]; exact hf)
                | (rcases hrun j q hj hf with h | h
                   · rw [hm] at h; replace h : j < k := h; exact Or.inl (Nat.le_of_lt h)
                   · exact Or.inr h)
        · rename_i hw
          have hw' : p.working = false := by simpa using hw
          have hend : p.worker = .ended := by
            rcases hrun k p hk hw' with h | h
            · rw [hm] at h; replace h : k < k := h; omega
            · exact h
          cases hs
          refine ⟨fun j q hj hf => ?_, fun j q hj hf => ?_, fun j q hj hf => ?_⟩
          · replace hf : j < k + 1 := hf
            by_cases e : j = k
            · subst e
              replace hj : s.plugins[j]? = some q := hj
              rw [hk] at hj
              cases hj
              exact hw'
            · exact down j q hj (by rw [hm]; show j < k; omega)
          · replace hf : j < k + 1 := hf
            by_cases e : j = k
            · subst e
              replace hj : s.plugins[j]? = some q := hj
              rw [hk] at hj
              cases hj
              exact ⟨hw', fun h => by rw [hend] at h; cases h⟩
            · exact ending j q hj (by rw [hm]; show j < k; omega)
          · rcases hrun j q hj hf with h | h
            · rw [hm] at h
              replace h : j < k := h
              exact Or.inl (Nat.lt_succ_of_lt h)
            · exact Or.inr h
      · rename_i hk
        cases hs
        have hle := get_none _ _ hk
        refine ⟨fun j q hj hf => ?_, fun j q hj hf => ?_, fun j q hj hf => Or.inl trivial⟩
        · have hjl : j < s.plugins.length := get_lt _ _ _ hj
          exact down j q hj (by rw [hm]; show j < k; omega)
        · have hjl : j < s.plugins.length := get_lt _ _ _ hj
          exact ending j q hj (by rw [hm]; show j < k; omega)
    · rename_i k hm
      split at hs
      · rename_i p hk
        split at hs
        · cases hs
          have hp := down k p hk (by rw [hm]; exact Nat.le_refl k)
          refine ⟨fun j q hj hf => ?_, fun j q hj hf => ?_, fun j q hj hf => ?_⟩ <;>
          · replace hj : (s.plugins.set k { p with queue := p.queue ++ [false] })[j]? = some q := hj
            rw [set_get _ k j _ _ hk] at hj
            by_cases e : k = j
            · subst e
              rw [if_pos rfl] at hj
              cases hj
              first
                | exact hp
                | exact ⟨hp, fun _ => by simp⟩
                | exact Or.inl (Nat.lt_succ_self k)
            · rw [if_neg e] at hj
              first
                | (refine down j q hj ?_; rw [hm]; replace hf : j < k + 1 := hf; show j ≤ k; omega)
                | (refine ending j q hj ?_; rw [hm]; replace hf : j < k + 1 := hf; show j < k; omega)
                | (rcases hrun j q hj hf with h | h
                   · rw [hm] at h; replace h : j ≤ k := h; exact Or.inl (Nat.lt_succ_of_le h)
                   · exact Or.inr h)
        · cases hs
      · cases hs
    · rename_i hm
      cases hs
      exact ⟨fun j q hj _ => down j q hj (by rw [hm]; trivial), fun j q hj _ => ending j q hj (by rw [hm]; trivial), fun j q _ _ => Or.inl trivial⟩
    · rename_i k hm
      split at hs
      · split at hs
        · cases hs
        · cases hs
          exact ⟨fun j q hj _ => down j q hj (by rw [hm]; trivial), fun j q hj _ => ending j q hj (by rw [hm]; trivial), fun j q _ _ => Or.inl trivial⟩
      · cases hs
        exact ⟨fun j q hj _ => down j q hj (by rw [hm]; trivial), fun j q hj _ => ending j q hj (by rw [hm]; trivial), fun j q _ _ => Or.inl trivial⟩
    · rename_i hm
      cases hs
      exact ⟨fun j q hj _ => down j q hj (by rw [hm]; trivial), fun j q hj _ => ending j q hj (by rw [hm]; trivial), fun j q _ _ => Or.inl trivial⟩
    · cases hs

/-- C76, for every history: when the main thread has passed the `stop` of plugin `j`, the thread of that plugin is
`Ending`, so that by `C76_partial` it ends by itself. -/
theorem C76_ends_partial (ps : List Plugin) (as : List Act) (s : St) (h : Start ps) (hr : run { plugins := ps } as = some s)
    (j : Nat) (p : Plugin) (hj : s.plugins[j]? = some p) (hst : stopped s.main j) : Ending p := by
  have key : ∀ (as : List Act) (s0 : St), Inv2 s0 → run s0 as = some s → Inv2 s := by
    intro as
    induction as with
    | nil => intro s0 h hr; cases hr; exact h
    | cons a as ih =>
      intro s0 h hr
      simp only [run] at hr
      cases hs : step s0 a with
      | none => rw [hs] at hr; cases hr
      | some t => rw [hs] at hr; exact ih t (step_inv2 s0 t a h hs) hr
  refine (key as { plugins := ps } ⟨fun j p _ hf => ?_, fun j p _ hf => ?_, fun j p hj hw => Or.inr ?_⟩ hr).ending j p hj hst
  · replace hf : j < 0 := hf; omega
  · replace hf : j < 0 := hf; omega
  · have := h p (List.mem_of_getElem? hj)
    by_cases e : p.worker = .ended
    · exact e
    · rw [this.2 e] at hw; cases hw

/-- Non-vacuity: two plugins, one busy; the main thread completes, and then both threads end. -/
example : Start [{ queue := [true], worker := .busy }, {}] := by
  intro p hp
  simp only [List.mem_cons, List.not_mem_nil, or_false] at hp
  rcases hp with rfl | rfl <;> decide
example : (run { plugins := [{ queue := [true], worker := .busy }, {}] }
    (List.replicate 10 .main ++ [.worker 0 false, .worker 0 false, .worker 1 false, .worker 1 false])).map
    (fun s => (s.main, s.plugins.map (·.worker))) = some (.over, [.ended, .ended]) := by decide +kernel

/-- C76: no thread of a plugin ends before the plugin has been told to stop, and a plugin is told so only by the shutdown. -/
theorem C76_alive (ps : List Plugin) (as : List Act) (s : St) (h : Start ps) (hr : run { plugins := ps } as = some s)
    (j : Nat) (p : Plugin) (hj : s.plugins[j]? = some p) : p.worker = .ended → p.working = false := by
  have step1 : ∀ (s0 s1 : St) (a : Act), (∀ (j : Nat) (p : Plugin), s0.plugins[j]? = some p → p.worker = .ended → p.working = false) →
      step s0 a = some s1 → ∀ (j : Nat) (p : Plugin), s1.plugins[j]? = some p → p.worker = .ended → p.working = false := by
    intro s0 s1 a hi hs j p hj hw
    have put : ∀ (k : Nat) (q q' : Plugin), s0.plugins[k]? = some q → (q'.worker = .ended → q'.working = false) →
        (s0.plugins.set k q')[j]? = some p → p.working = false := by
      intro k q q' _ hq' hj
      by_cases e : k = j
      · subst e
        rw [List.getElem?_set] at hj
        split at hj
        · split at hj
          · simp only [Option.some.injEq] at hj
            subst hj
            exact hq' hw
          · cases hj
        · contradiction
      · rw [List.getElem?_set_ne e] at hj
        exact hi j p hj hw
    cases a with
    | main =>
      simp only [step, mainStep] at hs
      split at hs
      · split at hs
        · rename_i k _ _ q hq
          split at hs
          · cases hs; exact put k q { q with working := false } hq (fun _ => rfl) hj
          · cases hs; exact hi j p hj hw
        · cases hs; exact hi j p hj hw
      · split at hs
        · rename_i k _ _ q hq
          split at hs
          · cases hs; exact put k q { q with queue := q.queue ++ [false] } hq (fun e => hi k q hq e) hj
          · cases hs
        · cases hs
      · cases hs; exact hi j p hj hw
      · split at hs
        · split at hs
          · cases hs
          · cases hs; exact hi j p hj hw
        · cases hs; exact hi j p hj hw
      · cases hs; exact hi j p hj hw
      · cases hs
    | worker i hit =>
      simp only [step] at hs
      split at hs
      · rename_i q hq
        split at hs
        · rename_i q' hw'
          cases hs
          refine put i q q' hq ?_ hj
          intro he
          unfold workerStep at hw'
          split at hw'
          · cases hw'
            simp only at he ⊢
            cases hq2 : q.working with
            | true => simp [hq2] at he
            | false => rfl
          · split at hw' <;> cases hw' <;> cases he
          · cases hw'; simp only at he; split at he <;> cases he
          · split at hw'
            · cases hw'; cases he
            · cases hw'
          · cases hw'
        · cases hs
      · cases hs
    | feed i =>
      simp only [step] at hs
      split at hs
      · rename_i q hq
        cases hs
        exact put i q { q with queue := q.queue ++ [true] } hq (fun e => hi i q hq e) hj
      · cases hs
  have key : ∀ (as : List Act) (s0 : St), (∀ (j : Nat) (p : Plugin), s0.plugins[j]? = some p → p.worker = .ended → p.working = false) →
      run s0 as = some s → ∀ (j : Nat) (p : Plugin), s.plugins[j]? = some p → p.worker = .ended → p.working = false := by
    intro as
    induction as with
    | nil => intro s0 hi hr; cases hr; exact hi
    | cons a as ih =>
      intro s0 hi hr
      simp only [run] at hr
      cases hs : step s0 a with
      | none => rw [hs] at hr; cases hr
      | some s1 => rw [hs] at hr; exact ih s1 (step1 s0 s1 a hi hs) hr
  refine key as _ ?_ hr j p hj
  intro j p hj hw
  have hm : p ∈ ps := List.mem_of_getElem? hj
  cases hb : p.working with
  | false => rfl
  | true => exact absurd hw ((h p hm).1 hb)

end Verif.Shutdown
