import Verif.Props.ReactorLoop
import Verif.Model.Watchdog

/-!
C70: constructing a watchdog returns; C71: the watchdog watches every call; C72: timers of a reactor have different ids.
-/
namespace Verif.Watchdog
open Verif.Reactor

/-! ## C70 -/

/-- The full claim: no schedule uses an object before its construction, and from every point the constructor can still
return. -/
def C70_statement : Prop :=
  ∀ l, (boot l {}).ub = false ∧ ∃ m, (boot m (boot l {})).pc = .done

/-- What never changes again once the flag has been set too early. -/
def Lost (b : Boot) : Prop := b.pc = .wait ∧ b.running = false ∧ (b.wc = .register ∨ b.wc = .loop)

theorem lost_step (b : Boot) (x : Bool) (h : Lost b) : Lost (if x then stepC b else stepW b) := by
  obtain ⟨h1, h2, h3⟩ := h
  cases x with
  | true => simp [stepC, h1, h2, Lost, h3]
  | false => rcases h3 with h3 | h3 <;> simp [stepW, h3, Lost, h1, h2]

theorem lost_boot (m : List Bool) : ∀ b : Boot, Lost b → Lost (boot m b) := by
  induction m with
  | nil => exact fun b h => h
  | cons x m ih => exact fun b h => ih _ (lost_step b x h)

/-- The worker sets the flag before the constructor clears it: the constructor waits for ever. -/
theorem C70_violated : ¬ C70_statement := by
  intro h
  obtain ⟨_, m, hm⟩ := h [true, false, true, true]
  have := (lost_boot m (boot [true, false, true, true] {}) (by unfold Lost; decide)).1
  rw [hm] at this
  cases this

/-- The worker uses the reactor before it has been constructed. -/
theorem C70_ub : (boot [true, false, false] {}).ub = true := by decide

/-- If the worker runs only after the members have been initialised, nothing is used too early and the constructor
returns. Missing: all other schedules. -/
theorem C70_partial (l : List Bool) :
    (boot l (boot [true, true, true] {})).ub = false ∧ ∃ m, (boot m (boot l (boot [true, true, true] {}))).pc = .done := by
  have key : ∀ l : List Bool, ∀ b : Boot,
      (b.ub = false ∧ b.reactor = true ∧ (b.pc = .done ∨ (b.pc = .wait ∧ (b.wc = .flag ∨ b.running = true)))) →
      ((boot l b).ub = false ∧ (boot l b).reactor = true ∧
        ((boot l b).pc = .done ∨ ((boot l b).pc = .wait ∧ ((boot l b).wc = .flag ∨ (boot l b).running = true)))) := by
    intro l
    induction l with
    | nil => exact fun b h => h
    | cons x l ih =>
      intro b h
      refine ih _ ?_
      obtain ⟨pc, wc, running, reactor, ub⟩ := b
      obtain ⟨h1, h2, h3⟩ := h
      simp only at h1 h2 h3
      subst h1 h2
      cases x <;> cases pc <;> cases wc <;> cases running <;> simp_all [stepC, stepW]
  obtain ⟨h1, h2, h3⟩ := key l (boot [true, true, true] {}) (by decide)
  refine ⟨h1, ?_⟩
  generalize boot l (boot [true, true, true] {}) = b at h1 h2 h3
  rcases h3 with h3 | ⟨h3, h4 | h4⟩
  · exact ⟨[], h3⟩
  · exact ⟨[false, true], by simp [boot, stepC, stepW, h3, h4]⟩
  · exact ⟨[true], by simp [boot, stepC, h3, h4]⟩

/-! ## C71 -/

/-- The full claim: whatever calls are timed, the identifier of the timer has been written when it is used, and the
worker goes on until it is stopped. -/
def C71_statement : Prop :=
  ∀ w, Run w → ∀ now ms, finish (start w now ms) ≠ none

/-- The default durations are 0: the first call removes a timer whose identifier has never been written. -/
theorem C71_violated : ¬ C71_statement := by
  intro h
  exact h (begin_ 0 0) (.begin_ 0 0 (by decide) (by decide)) 0 0 (by rfl)

/-- If the value found there is the identifier of the heartbeat, the loop of the worker ends, and no later call is
watched. -/
theorem C71_dead : round { clock := fun _ => 0 } (act (begin_ 0 0).r (.rmTimer 0)) =
    .left (rebuilt (act (begin_ 0 0).r (.rmTimer 0))) ∧ (begin_ 0 0).r.stopped = false := by decide +kernel

/-- The identifier of the heartbeat and what protects it. -/
structure Beats (hb : Nat) (w : W) : Prop where
  reach : Reach Act.Small Round.Small w.r
  reg : ∃ now, .reg hb now 1 0 ∈ w.r.log
  kept : .rm hb ∉ w.r.log
  other : ∀ i, w.id = some i → i ≠ hb
  fresh : hb < w.r.next
  none_ : w.r.chans = []

theorem worker_small {r : Round} (h : Worker r) : r.Small := by
  obtain ⟨h1, h2, h3, h4⟩ := h
  refine ⟨?_, ?_, h4⟩
  · intro a ha
    rcases h1 a ha with rfl | ⟨n, rfl⟩ <;> trivial
  · intro c a ha
    rw [h2 c] at ha
    simp at ha

/-- What the operations of the worker leave alone. -/
structure Same (s t : St) : Prop where
  rm : ∀ i, .rm i ∈ t.log → .rm i ∈ s.log
  log : ∀ e ∈ s.log, e ∈ t.log
  next : s.next ≤ t.next
  chans : t.chans = s.chans

theorem Same.refl (s : St) : Same s s := ⟨fun _ h => h, fun _ h => h, Nat.le_refl _, rfl⟩

theorem Same.trans {s t u : St} (h : Same s t) (k : Same t u) : Same s u :=
  ⟨fun i x => h.rm i (k.rm i x), fun e x => k.log e (h.log e x), Nat.le_trans h.next k.next, k.chans.trans h.chans⟩

theorem same_acts (l : List Act) (h : ∀ a ∈ l, a = .stop ∨ ∃ n, a = .others n) : ∀ s : St, Same s (acts s l) := by
  induction l with
  | nil => exact fun s => .refl s
  | cons a l ih =>
    intro s
    have h1 : Same s (act s a) := by
      rcases h a (by simp) with rfl | ⟨n, rfl⟩
      · exact ⟨fun _ h => h, fun _ h => h, Nat.le_refl _, rfl⟩
      · exact ⟨fun _ h => h, fun _ h => h, Nat.le_add_right _ _, rfl⟩
    exact h1.trans (ih (fun b hb => h b (by simp [hb])) _)

theorem same_log (s : St) (e : Ev) (he : ∀ i, e ≠ .rm i) : Same s { s with log := s.log ++ [e] } := by
  refine ⟨?_, fun x hx => List.mem_append_left _ hx, Nat.le_refl _, rfl⟩
  intro i hi
  rcases List.mem_append.1 hi with hi | hi
  · exact hi
  · exact absurd (List.mem_singleton.1 hi).symm (he i)

theorem same_channels (r : Round) (h : ∀ c, r.chan c = []) (l : List Nat) : ∀ s : St, Same s (channels r l s) := by
  induction l with
  | nil => exact fun s => .refl s
  | cons c l ih =>
    intro s
    unfold channels
    split
    · rw [h c]
      exact (same_log s (.call c) (by simp)).trans (ih _)
    · exact ih s

theorem same_keep (t : Timer) (s : St) : Same s (keep t s) := by
  unfold keep
  split
  · exact .refl s
  · exact ⟨fun _ h => h, fun _ h => h, Nat.le_refl _, rfl⟩

theorem same_fires (r : Round) (h : ∀ i, ∀ a ∈ r.timer i, a = .stop) (l : List Timer) :
    ∀ s w : St, fires r l s = some w → Same s w := by
  induction l with
  | nil =>
    intro s w hw
    cases hw
    exact .refl s
  | cons t l ih =>
    intro s w hw
    unfold fires at hw
    split at hw
    · split at hw
      · cases hw
      · refine ((same_log s (.fire t.id (r.clock t.id)) (by simp)).trans ?_).trans (ih _ _ hw)
        exact (same_acts (r.timer t.id) (fun a ha => .inl (h t.id a ha)) _).trans (same_keep _ _)
    · exact (same_keep t s).trans (ih _ _ hw)

theorem same_round {r : Round} (h : Worker r) {s t : St} (ht : round r s = .again t) : Same s t := by
  obtain ⟨h1, h2, h3, _⟩ := h
  unfold round at ht
  split at ht
  · cases ht
  · split at ht
    · cases ht
    · have hb : Same s (rebuilt { s with log := s.log ++ [.turn] }) := by
        refine (same_log s .turn (by simp)).trans ?_
        unfold rebuilt
        split
        · exact ⟨fun _ h => h, fun _ h => h, Nat.le_refl _, rfl⟩
        · exact .refl _
      simp only at ht
      split at ht
      · cases ht
      · next w hw =>
        cases ht
        have k := (hb.trans (same_acts r.during h1 _)).trans
          (same_channels r h2 (rebuilt { s with log := s.log ++ [.turn] }).poll _)
        have k2 := same_fires r h3 _ _ _ hw
        exact k.trans ⟨k2.rm, k2.log, k2.next, k2.chans⟩

theorem Beats.same {hb : Nat} {w : W} {t : St} (h : Beats hb w) (hs : Same w.r t) (hr : Reach Act.Small Round.Small t) :
    Beats hb { w with r := t } := by
  obtain ⟨_, ⟨now, hg⟩, h2, h3, h4, h5⟩ := h
  exact ⟨hr, ⟨now, hs.log _ hg⟩, fun x => h2 (hs.rm _ x), h3, Nat.lt_of_lt_of_le h4 hs.next, hs.chans.trans h5⟩

theorem run_beats (w : W) (h : Run w) : ∃ hb, Beats hb w := by
  induction h with
  | begin_ k now h0 h1 =>
    have hr : Reach Act.Small Round.Small (begin_ k now).r :=
      .act _ (.regTimer now 1 0) (.act _ (.others k) .init trivial) ⟨h0, h1, by decide⟩
    refine ⟨k, hr, ⟨now, ?_⟩, ?_, by simp [begin_], ?_, rfl⟩
    · simp [begin_, act]
    · simp [begin_, act]
    · simp [begin_, act]
  | start w now ms _ h0 h1 h2 ih =>
    obtain ⟨hb, h⟩ := ih
    refine ⟨hb, ?_⟩
    unfold start
    split
    · exact h
    · obtain ⟨k1, ⟨n, k2⟩, k3, _, k5, k6⟩ := h
      refine ⟨.act _ (.regTimer now ms 1) k1 ⟨h0, h1, by omega⟩, ⟨n, List.mem_append_left _ k2⟩, ?_, ?_, Nat.lt_succ_of_lt k5, k6⟩
      · intro x
        rcases List.mem_append.1 x with x | x
        · exact k3 x
        · simp at x
      · intro i hi
        cases hi
        exact Nat.ne_of_gt k5
  | finish w v _ hv ih =>
    obtain ⟨hb, k1, ⟨n, k2⟩, k3, k4, k5, k6⟩ := ih
    refine ⟨hb, ?_⟩
    unfold finish at hv
    cases hi : w.id with
    | none => simp [hi] at hv
    | some i =>
      simp only [hi, Option.map_some, Option.some.injEq] at hv
      subst hv
      refine ⟨.act _ (.rmTimer i) k1 trivial, ⟨n, List.mem_append_left _ k2⟩, ?_, fun j hj => k4 j (hi.trans hj), k5, k6⟩
      intro x
      rcases List.mem_append.1 x with x | x
      · exact k3 x
      · have : hb = i := by simpa using x
        exact k4 i hi this.symm
  | round w r t _ hw ht ih =>
    obtain ⟨hb, h⟩ := ih
    exact ⟨hb, h.same (same_round hw ht) (.round _ _ r h.reach (worker_small hw) ht)⟩
  | others w n _ ih =>
    obtain ⟨hb, h⟩ := ih
    exact ⟨hb, h.same ⟨fun _ h => h, fun _ h => h, Nat.le_add_right _ _, rfl⟩ (.act _ (.others n) h.reach trivial)⟩

/-- As long as no identifier is read before it is written, the worker goes on until it is stopped, and never hangs.
Missing: calls without timeout before the first one with a timeout. -/
theorem C71_alive_partial (w : W) (h : Run w) (r : Round) (hw : Worker r) :
    round r w.r ≠ .hang ∧ ∀ t, round r w.r = .left t → w.r.stopped = true := by
  obtain ⟨hb, k1, ⟨n, k2⟩, k3, _, _, _⟩ := run_beats w h
  constructor
  · refine C69_partial _ _ fun i => ?_
    rw [List.any_eq_false]
    intro a ha
    rw [hw.2.2.1 i a ha]
    simp [Act.locks]
  · intro t ht
    rcases C69_left _ _ _ k1 ht with hs | ⟨_, he⟩
    · exact hs
    · obtain ⟨u, hu, _⟩ := (reach_inv _ k1).present hb n 1 0 k2
        (fun ⟨a, b, hl, _⟩ => k3 (by rw [hl]; simp)) (.inl rfl)
      rw [he] at hu
      simp at hu

/-- The identifier is written from the first call with a timeout on. -/
theorem C71_written (w : W) (now : Int) (ms : Nat) (h : ms ≠ 0 ∨ w.id ≠ none) : finish (start w now ms) ≠ none := by
  unfold start finish
  by_cases hm : ms = 0
  · rcases h with h | h
    · exact absurd hm h
    · simpa [hm] using h
  · simp [hm]

/-- A call is reported at most once, never before its timeout and never after it has finished. -/
theorem C71_reported (w : W) (h : Run w) (id : Nat) (start : Int) (ms : Nat) (hg : .reg id start ms 1 ∈ w.r.log) :
    (firings id w.r.log).length ≤ 1 ∧ (∀ t ∈ firings id w.r.log, start + ms ≤ t) ∧
    (∀ a b, w.r.log = a ++ .rm id :: b → a.any (Ev.registers id) = true → ∀ t, .fire id t ∉ b) := by
  obtain ⟨_, hb⟩ := run_beats w h
  obtain ⟨hc, hs⟩ := C41_partial _ hb.reach
  obtain ⟨h1, h2⟩ := hc _ _ _ _ hg
  refine ⟨h2 (by decide), ?_, hs id⟩
  intro t ht
  obtain ⟨k, hk, rfl⟩ := List.mem_iff_getElem.1 ht
  have := h1 k hk
  have hle := h2 (by decide)
  have hk0 : k = 0 := by omega
  subst hk0
  simpa using this

/-- A call that lasts longer is reported by the first round after its timeout. -/
theorem C71_watched (w : W) (h : Run w) (r : Round) (hw : Worker r) (t : St) (ht : round r w.r = .again t) (id : Nat)
    (start : Int) (ms : Nat) (hg : .reg id start ms 1 ∈ w.r.log) (hm : .rm id ∉ w.r.log) (hf : firings id w.r.log = [])
    (hc : start + ms ≤ r.clock id) : firings id t.log = [r.clock id] := by
  obtain ⟨_, hb⟩ := run_beats w h
  have := C41_round_partial _ _ r hb.reach (worker_small hw) ht id start ms 1 hg
    (fun ⟨a, b, hl, _⟩ => hm ((same_round hw ht).rm id (by rw [hl]; simp))) (.inr (by rw [hf]; decide))
  rw [this, hf]
  simp [hc]

/-- Non-vacuity: a call of 5 ms started at 10 that is seen at 16. -/
example : firings 1 (after (start (begin_ 0 0) 10 5).r 16).log = [16] ∧
    firings 1 (after (start (begin_ 0 0) 10 5).r 14).log = [] := by decide +kernel

/-! ## C72 -/

/-- The full claim. -/
def C72_statement : Prop := ∀ l k, ((idRun l).given k).Nodup

/-- Two timers of reactor 1 get the same identifier while reactor 0 registers a timer: the map keeps only one. -/
theorem C72_violated : ¬ C72_statement := by
  intro h
  have := h [.read 0, .read 1, .write 1, .read 1, .write 1, .write 0, .read 1, .write 1] 1
  revert this
  decide

/-- Timer 1 of reactor 1 is lost. -/
theorem C72_same : (idRun [.read 0, .read 1, .write 1, .read 1, .write 1, .write 0, .read 1, .write 1]).given 1 = [0, 1, 1] := by
  decide

/-- The reactor of a step. -/
def IdStep.of : IdStep → Nat
  | .read k => k
  | .write k => k

theorem idStep_one (k : Nat) (s : Ids) (x : IdStep) (hx : x.of = k)
    (h : (∀ v, s.pending k = some v → v = s.last) ∧ (∀ v ∈ s.given k, v < s.last) ∧ (s.given k).Nodup) :
    (∀ v, (idStep s x).pending k = some v → v = (idStep s x).last) ∧
      (∀ v ∈ (idStep s x).given k, v < (idStep s x).last) ∧ ((idStep s x).given k).Nodup := by
  obtain ⟨h1, h2, h3⟩ := h
  cases x with
  | read j =>
    simp only [IdStep.of] at hx
    subst hx
    cases hp : s.pending j with
    | none => simp only [idStep, hp]; exact ⟨by simp, h2, h3⟩
    | some v => simp only [idStep, hp]; exact ⟨fun u hu => h1 u (hp.trans hu), h2, h3⟩
  | write j =>
    simp only [IdStep.of] at hx
    subst hx
    cases hp : s.pending j with
    | none => simp only [idStep, hp]; exact ⟨by simp [hp], h2, h3⟩
    | some v =>
      have hv := h1 v hp
      simp only [idStep, hp, if_true]
      refine ⟨by simp, ?_, ?_⟩
      · intro u hu
        rcases List.mem_append.1 hu with hu | hu
        · have := h2 u hu
          omega
        · have : u = v := by simpa using hu
          omega
      · rw [List.nodup_append]
        refine ⟨h3, by simp, ?_⟩
        intro a ha b hb
        have := h2 a ha
        have : b = v := by simpa using hb
        omega

/-- The identifiers differ if only one reactor registers timers. Missing: several reactors, as in the frame processor. -/
theorem C72_partial (l : List IdStep) (k : Nat) (h : ∀ x ∈ l, x.of = k) : ((idRun l).given k).Nodup := by
  have key : ∀ l : List IdStep, (∀ x ∈ l, x.of = k) → ∀ s : Ids,
      ((∀ v, s.pending k = some v → v = s.last) ∧ (∀ v ∈ s.given k, v < s.last) ∧ (s.given k).Nodup) →
      ((l.foldl idStep s).given k).Nodup := by
    intro l
    induction l with
    | nil => exact fun _ s h => h.2.2
    | cons x l ih =>
      intro hl s hs
      exact ih (fun y hy => hl y (by simp [hy])) _ (idStep_one k s x (hl x (by simp)) hs)
  exact key l h {} ⟨by simp, by simp, by simp⟩

end Verif.Watchdog
