import Verif.Model.Stops
/-
C144: acquisitions are started and stopped one after the other.
-/
namespace Verif.Stops

/-- What a log says: how many acquisitions may have been started (all started ones have smaller numbers), and which one is
running. `none`: an acquisition was started while one was running, or again, or one that was not running was stopped. -/
def play (x : Option (Nat × Option Nat)) (e : Ev) : Option (Nat × Option Nat) :=
  match x, e with
  | some (k, none), .started n => if k ≤ n then some (n + 1, some n) else none
  | some (k, some m), .stopped n => if m = n then some (k, none) else none
  | _, _ => none

/-- Acquisitions are started one after the other, each once, and each is stopped once before the next is started. -/
def Orderly (log : List Ev) : Prop := log.foldl play (some (0, none)) ≠ none

instance (log : List Ev) : Decidable (Orderly log) := inferInstanceAs (Decidable (_ ≠ _))

/-- C144 in full. -/
def C144_statement : Prop := ∀ (l : List Act) (s : St), run {} l = some s → Orderly s.log

/-- The log after a schedule. -/
def logOf (l : List Act) : Option (List Ev) := (run {} l).map St.log

def go (t n : Nat) : List Act := List.replicate n (.step t false true)

/-- The command to start, then the end of the acquisition and the command to stop at the same time. -/
def exTwice : List Act :=
  .config 0 :: .start 0 :: go 0 4 ++ [.eoa 1] ++ go 1 2 ++ [.stop 0] ++ go 0 1 ++ go 1 1 ++ go 0 2 ++ go 1 3

/-- The same acquisition is stopped twice. -/
theorem exTwice_log : logOf exTwice = some [.started 1, .stopped 1, .stopped 1] := by decide

theorem C144_violated : ¬ C144_statement := by
  intro h
  cases hr : run {} exTwice with
  | none => have := exTwice_log; rw [logOf, hr] at this; cases this
  | some s =>
    have hl : s.log = [.started 1, .stopped 1, .stopped 1] := by
      have := exTwice_log; rw [logOf, hr] at this; exact Option.some.inj this
    have := h exTwice s hr
    rw [hl] at this
    exact absurd this (by decide)

/-- The end of the acquisition arrives while its timeout is over: both find it running, and the second stops the
acquisition that the first has started. -/
theorem C144_next_violated :
    logOf (.config 0 :: .start 0 :: go 0 4 ++ [.config 0, .eoa 1] ++ go 1 1 ++ [.timer 2] ++ go 2 10 ++ go 1 5) =
      some [.started 1, .stopped 1, .started 2, .stopped 2] := by decide

/-- The end of one acquisition and the command to start the next: the one that was configured is never started, another one
without a name is started twice. -/
theorem C144_lost_violated :
    logOf (.config 0 :: .start 0 :: go 0 4 ++ [.config 0, .eoa 1] ++ go 1 6 ++ [.start 0] ++ go 0 1 ++ go 1 2 ++ go 0 3 ++ go 1 2) =
      some [.started 1, .stopped 1, .started 3, .started 3] := by decide

/-! What holds: methods that do not overlap. -/

/-- What the members say about the log while a thread is somewhere in a method. -/
def Agree (s : St) (k : Nat) (r : Option Nat) : Pc → Prop
  | .clear _ => s.writing = true ∧ r = some s.cur ∧ k ≤ s.next
  | .finish _ => s.writing = false ∧ r = some s.cur ∧ k ≤ s.next
  | .swap => s.writing = false ∧ r = none ∧ k ≤ s.next
  | .launch => s.writing = false ∧ r = none ∧ k ≤ s.cur
  | .set => s.writing = false ∧ r = some s.cur ∧ k ≤ s.next
  | .choose _ => s.writing = false ∧ r = none ∧ k ≤ s.next
  | _ => (s.writing = true ∧ r = some s.cur ∨ s.writing = false ∧ r = none) ∧ k ≤ s.next

/-- Of all threads at most one, `b`, is in a method. -/
structure Inv (s : St) (b : Option Nat) : Prop where
  idle : ∀ t, b ≠ some t → s.pc t = .idle
  fresh : s.next < s.fresh
  cur : s.cur < s.next
  agree : ∃ k r, s.log.foldl play (some (0, none)) = some (k, r) ∧
    Agree s k r (match b with | none => .idle | some t => s.pc t)

theorem Inv.orderly {s : St} {b : Option Nat} (h : Inv s b) : Orderly s.log := by
  obtain ⟨k, r, hk, _⟩ := h.agree
  rw [Orderly, hk]
  simp

theorem Inv.init : Inv {} none := ⟨fun _ _ => rfl, by decide, by decide, 0, none, rfl, Or.inr ⟨rfl, rfl⟩, by decide⟩

/-- A thread comes to another place; the members that matter are given. -/
theorem Inv.move {s s' : St} {t : Nat} {p : Pc} (h : Inv s (some t)) (hp : s'.pc = (s.go t p).pc) (hf : s'.next < s'.fresh)
    (hc : s'.cur < s'.next)
    (ha : ∀ k r, s.log.foldl play (some (0, none)) = some (k, r) → Agree s k r (s.pc t) →
      ∃ k r, s'.log.foldl play (some (0, none)) = some (k, r) ∧ Agree s' k r p) : Inv s' (some t) := by
  refine ⟨fun u hu => ?_, hf, hc, ?_⟩
  · rw [hp]
    have hne : u ≠ t := fun he => hu (by rw [he])
    simp only [St.go, if_neg hne]
    exact h.idle u hu
  · obtain ⟨k, r, hk, hag⟩ := h.agree
    obtain ⟨k', r', h1, h2⟩ := ha k r hk hag
    refine ⟨k', r', h1, ?_⟩
    simp only [hp, St.go, if_true]
    exact h2

/-- A thread leaves. -/
theorem Inv.done {s s' : St} {t : Nat} (h : Inv s (some t)) (hp : s'.pc = (s.go t .idle).pc) (hf : s'.next < s'.fresh)
    (hc : s'.cur < s'.next)
    (ha : ∀ k r, s.log.foldl play (some (0, none)) = some (k, r) → Agree s k r (s.pc t) →
      ∃ k r, s'.log.foldl play (some (0, none)) = some (k, r) ∧ Agree s' k r .idle) : Inv s' none := by
  refine ⟨fun u _ => ?_, hf, hc, ?_⟩
  · rw [hp]
    by_cases hu : u = t
    · simp only [St.go, hu, if_true]
    · simp only [St.go, if_neg hu]
      exact h.idle u (fun he => hu (Option.some.inj he).symm)
  · obtain ⟨k, r, hk, hag⟩ := h.agree
    exact ha k r hk hag

theorem advance_inv (s s' : St) (t : Nat) (same ok : Bool) (h : Inv s (some t)) (hs : advance s t same ok = some s') :
    Inv s' (some t) ∨ Inv s' none := by
  have hf := h.fresh
  have hc := h.cur
  cases hp : s.pc t with
  | idle => simp [advance, hp] at hs
  | check =>
    simp only [advance, hp, Option.some.injEq] at hs
    split at hs
    · subst hs
      exact Or.inl (h.move rfl hf hc fun k r hk ha => by rw [hp] at ha; exact ⟨k, r, hk, ha⟩)
    · subst hs
      exact Or.inr (h.done rfl hf hc fun k r hk ha => by rw [hp] at ha; exact ⟨k, r, hk, ha⟩)
  | decide =>
    simp only [advance, hp, Option.some.injEq] at hs
    subst hs
    exact Or.inl (h.move rfl hf hc fun k r hk ha => by rw [hp] at ha; exact ⟨k, r, hk, ha⟩)
  | halt q =>
    simp only [advance, hp, Option.some.injEq] at hs
    split at hs
    · next hw =>
      subst hs
      refine Or.inl (h.move rfl hf hc fun k r hk ha => ?_)
      rw [hp] at ha
      rcases ha with ⟨⟨_, hr⟩ | ⟨hw', _⟩, hn⟩
      · exact ⟨k, r, hk, hw, hr, hn⟩
      · rw [hw] at hw'; cases hw'
    · next hw =>
      have hw : s.writing = false := by simpa using hw
      subst hs
      cases q with
      | nothing => exact Or.inr (h.done rfl hf hc fun k r hk ha => by rw [hp] at ha; exact ⟨k, r, hk, ha⟩)
      | rest b =>
        refine Or.inl (h.move rfl hf hc fun k r hk ha => ?_)
        rw [hp] at ha
        rcases ha with ⟨⟨hw', _⟩ | ⟨_, hr⟩, hn⟩
        · rw [hw] at hw'; cases hw'
        · exact ⟨k, r, hk, hw, hr, hn⟩
      | start => exact Or.inl (h.move rfl hf hc fun k r hk ha => by rw [hp] at ha; exact ⟨k, r, hk, ha⟩)
  | clear q =>
    simp only [advance, hp, Option.some.injEq] at hs
    subst hs
    refine Or.inl (h.move rfl hf hc fun k r hk ha => ?_)
    rw [hp] at ha
    exact ⟨k, r, hk, rfl, ha.2.1, ha.2.2⟩
  | finish q =>
    simp only [advance, hp, Option.some.injEq] at hs
    subst hs
    have key : ∀ k r, s.log.foldl play (some (0, none)) = some (k, r) → Agree s k r (.finish q) →
        (s.log ++ [Ev.stopped s.cur]).foldl play (some (0, none)) = some (k, none) := by
      intro k r hk ha
      rw [List.foldl_append, hk, ha.2.1]
      simp [play]
    cases q with
    | nothing =>
      refine Or.inr (h.done rfl hf hc fun k r hk ha => ?_)
      rw [hp] at ha
      exact ⟨k, none, key k r hk ha, Or.inr ⟨ha.1, rfl⟩, ha.2.2⟩
    | rest b =>
      refine Or.inl (h.move rfl hf hc fun k r hk ha => ?_)
      rw [hp] at ha
      exact ⟨k, none, key k r hk ha, ha.1, rfl, ha.2.2⟩
    | start =>
      refine Or.inl (h.move rfl hf hc fun k r hk ha => ?_)
      rw [hp] at ha
      exact ⟨k, none, key k r hk ha, Or.inr ⟨ha.1, rfl⟩, ha.2.2⟩
  | choose b =>
    simp only [advance, hp, Option.some.injEq] at hs
    split at hs
    · subst hs
      refine Or.inl (h.move rfl hf hc fun k r hk ha => ?_)
      rw [hp] at ha
      exact ⟨k, r, hk, Or.inr ⟨ha.1, ha.2.1⟩, ha.2.2⟩
    · subst hs
      refine Or.inr (h.done rfl hf hc fun k r hk ha => ?_)
      rw [hp] at ha
      exact ⟨k, r, hk, Or.inr ⟨ha.1, ha.2.1⟩, ha.2.2⟩
  | test =>
    simp only [advance, hp, Option.some.injEq] at hs
    split at hs
    · subst hs
      exact Or.inr (h.done rfl hf hc fun k r hk ha => by rw [hp] at ha; exact ⟨k, r, hk, ha⟩)
    · next hw =>
      have hw : s.writing = false := by simpa using hw
      subst hs
      refine Or.inl (h.move rfl hf hc fun k r hk ha => ?_)
      rw [hp] at ha
      rcases ha with ⟨⟨hw', _⟩ | ⟨_, hr⟩, hn⟩
      · rw [hw] at hw'; cases hw'
      · exact ⟨k, r, hk, hw, hr, hn⟩
  | swap =>
    simp only [advance, hp, Option.some.injEq] at hs
    subst hs
    refine Or.inl (h.move rfl (Nat.lt_succ_self _) hf fun k r hk ha => ?_)
    rw [hp] at ha
    exact ⟨k, r, hk, ha⟩
  | launch =>
    simp only [advance, hp, Option.some.injEq] at hs
    split at hs
    · subst hs
      refine Or.inl (h.move rfl hf hc fun k r hk ha => ?_)
      rw [hp] at ha
      refine ⟨s.cur + 1, some s.cur, ?_, ha.1, rfl, hc⟩
      show (s.log ++ [Ev.started s.cur]).foldl play (some (0, none)) = _
      rw [List.foldl_append, hk, ha.2.1]
      simp [play, ha.2.2]
    · subst hs
      refine Or.inr (h.done rfl hf hc fun k r hk ha => ?_)
      rw [hp] at ha
      exact ⟨k, r, hk, Or.inr ⟨rfl, ha.2.1⟩, Nat.le_trans ha.2.2 (Nat.le_of_lt hc)⟩
  | set =>
    simp only [advance, hp, Option.some.injEq] at hs
    subst hs
    refine Or.inr (h.done rfl hf hc fun k r hk ha => ?_)
    rw [hp] at ha
    exact ⟨k, r, hk, Or.inl ⟨rfl, ha.2.1⟩, ha.2.2⟩

/-- A method is begun while no other is under way. -/
theorem begin_inv (s s' : St) (t : Nat) (p : Pc) (h : Inv s none) (hp : p = .check ∨ p = .decide ∨ p = .test ∨ ∃ r, p = .halt r)
    (h1 : s'.pc = (s.go t p).pc) (h2 : s'.writing = s.writing ∧ s'.cur = s.cur ∧ s'.next = s.next ∧ s'.fresh = s.fresh ∧ s'.log = s.log) :
    Inv s' (some t) := by
  obtain ⟨k, r, hk, ha⟩ := h.agree
  obtain ⟨e1, e2, e3, e4, e5⟩ := h2
  refine ⟨fun u hu => ?_, by rw [e3, e4]; exact h.fresh, by rw [e2, e3]; exact h.cur, k, r, by rw [e5]; exact hk, ?_⟩
  · rw [h1]
    have hne : u ≠ t := fun he => hu (by rw [he])
    simp only [St.go, if_neg hne]
    exact h.idle u (by simp)
  · simp only [h1, St.go, if_true]
    rcases hp with rfl | rfl | rfl | ⟨q, rfl⟩ <;> (simp only [Agree, e1, e2, e3]; exact ha)

/-- Methods do not overlap: each is begun while all threads are outside. -/
def Apart (s : St) : List Act → Prop
  | [] => True
  | a :: l => (match a with
      | .step _ _ _ => True
      | .config _ => True
      | _ => ∀ t, s.pc t = .idle) ∧ ∀ s', step s a = some s' → Apart s' l

theorem config_inv (s s' : St) (t : Nat) (b : Option Nat) (h : Inv s b) (hs : step s (.config t) = some s') : Inv s' b := by
  simp only [step] at hs
  split at hs
  · injection hs with hs; subst hs
    obtain ⟨h1, h2, h3, k, r, hk, ha⟩ := h
    refine ⟨h1, h2, h3, k, r, hk, ?_⟩
    cases b with
    | none => exact ha
    | some u =>
      simp only at ha ⊢
      cases hp : s.pc u <;> (rw [hp] at ha; exact ha)
  · cases hs

theorem alone_inv (s : St) (b : Option Nat) (h : Inv s b) (hi : ∀ t, s.pc t = .idle) : Inv s none := by
  obtain ⟨h1, h2, h3, k, r, hk, ha⟩ := h
  refine ⟨fun t _ => hi t, h2, h3, k, r, hk, ?_⟩
  cases b with
  | none => exact ha
  | some u => simp only [hi u] at ha; exact ha

theorem step_apart (s s' : St) (b : Option Nat) (t : Nat) (same ok : Bool) (h : Inv s b)
    (hs : step s (.step t same ok) = some s') : ∃ b', Inv s' b' := by
  by_cases hb : b = some t
  · subst hb
    rcases advance_inv s s' t same ok h hs with h' | h'
    · exact ⟨_, h'⟩
    · exact ⟨_, h'⟩
  · have := h.idle t hb
    simp [step, advance, this] at hs

theorem enter_inv (s s' : St) (t : Nat) (p : Pc) (h : Inv s none) (hp : p = .check ∨ p = .decide ∨ p = .test ∨ ∃ r, p = .halt r)
    (hs : enter s t p = some s') : Inv s' (some t) := by
  simp only [enter] at hs
  split at hs
  · injection hs with hs; subst hs
    exact begin_inv s _ t p h hp rfl ⟨rfl, rfl, rfl, rfl, rfl⟩
  · cases hs

theorem lock_inv (s s' : St) (t : Nat) (p : Pc) (h : Inv s none) (hp : p = .check ∨ p = .decide ∨ p = .test ∨ ∃ r, p = .halt r)
    (hs : lock s t p = some s') : Inv s' (some t) := by
  simp only [lock] at hs
  split at hs
  · injection hs with hs; subst hs
    exact begin_inv s _ t p h hp rfl ⟨rfl, rfl, rfl, rfl, rfl⟩
  · cases hs

theorem any_apart (s s' : St) (b : Option Nat) (a : Act) (h : Inv s b) (ha : Apart s [a]) (hs : step s a = some s') : ∃ b', Inv s' b' := by
  cases a with
  | step t same ok => exact step_apart s s' b t same ok h hs
  | config t => exact ⟨b, config_inv s s' t b h hs⟩
  | eoa t => exact ⟨_, enter_inv s s' t _ (alone_inv s b h ha.1) (Or.inl rfl) hs⟩
  | stop t => exact ⟨_, enter_inv s s' t _ (alone_inv s b h ha.1) (Or.inr (Or.inr (Or.inr ⟨_, rfl⟩))) hs⟩
  | start t => exact ⟨_, enter_inv s s' t _ (alone_inv s b h ha.1) (Or.inr (Or.inr (Or.inl rfl))) hs⟩
  | complete t =>
    simp only [step] at hs
    split at hs
    · exact ⟨_, lock_inv s s' t _ (alone_inv s b h ha.1) (Or.inr (Or.inl rfl)) hs⟩
    · cases hs
  | timer t => exact ⟨_, lock_inv s s' t _ (alone_inv s b h ha.1) (Or.inl rfl) hs⟩
  | switch t => exact ⟨_, lock_inv s s' t _ (alone_inv s b h ha.1) (Or.inr (Or.inr (Or.inr ⟨_, rfl⟩))) hs⟩

theorem run_apart (l : List Act) : ∀ (s s' : St) (b : Option Nat), Inv s b → Apart s l → run s l = some s' → ∃ b', Inv s' b' := by
  induction l with
  | nil => intro s s' b h _ hr; injection hr with hr; subst hr; exact ⟨b, h⟩
  | cons a l ih =>
    intro s s' b h ha hr
    cases hs : step s a with
    | none => simp [run, hs] at hr
    | some s1 =>
      simp only [run, hs, Option.bind_some] at hr
      obtain ⟨b1, h1⟩ := any_apart s s1 b a h ⟨ha.1, fun _ _ => trivial⟩ hs
      exact ih s1 s' b1 h1 (ha.2 s1 hs) hr

/-- Acquisitions are started and stopped one after the other if the methods do not overlap. -/
theorem C144_partial (l : List Act) (s : St) (hr : run {} l = some s) (ha : Apart {} l) : Orderly s.log := by
  obtain ⟨b, h⟩ := run_apart l {} s none Inv.init ha hr
  exact h.orderly

/-! The methods that hold the mutex do not overlap. -/

/-- Frames, the timeout and configuration messages, but no end of acquisition and no command. -/
def Held : Act → Prop
  | .eoa _ => False
  | .stop _ => False
  | .start _ => False
  | _ => True

/-- Only the owner of the mutex is in a method. -/
def Owned (s : St) : Prop := ∀ t, s.pc t ≠ .idle → s.owner = some t

theorem owned_go (s : St) (t : Nat) (p : Pc) (h : Owned s) (ht : s.owner = some t) : Owned (s.go t p) := by
  intro u hu
  simp only [St.go] at hu ⊢
  by_cases e : u = t
  · rw [e]; exact ht
  · simp only [if_neg e] at hu; exact h u hu

theorem owned_leave (s : St) (t : Nat) (h : Owned s) (ht : s.owner = some t) : Owned (s.leave t) := by
  intro u hu
  simp only [St.leave, St.go] at hu ⊢
  by_cases e : u = t
  · simp [e] at hu
  · simp only [if_neg e] at hu
    have := h u hu
    rw [ht] at this
    exact absurd (Option.some.inj this).symm e

theorem owned_advance (s s' : St) (t : Nat) (same ok : Bool) (h : Owned s) (hs : advance s t same ok = some s') : Owned s' := by
  have ht : s.owner = some t := by
    refine h t ?_
    intro hp
    simp [advance, hp] at hs
  cases hp : s.pc t <;> simp only [advance, hp, Option.some.injEq, reduceCtorEq] at hs
  case decide => subst hs; exact owned_go s t _ h ht
  case clear => subst hs; exact owned_go _ t _ (by exact h) ht
  case finish q => subst hs; cases q <;> first | exact owned_leave _ t (by exact h) ht | exact owned_go _ t _ (by exact h) ht
  case swap => subst hs; exact owned_go _ t _ (by exact h) ht
  case set => subst hs; exact owned_leave _ t (by exact h) ht
  case halt q =>
    split at hs
    · subst hs; exact owned_go s t _ h ht
    · subst hs; cases q <;> first | exact owned_leave s t h ht | exact owned_go s t _ h ht
  case check => split at hs <;> subst hs <;> first | exact owned_go s t _ h ht | exact owned_leave s t h ht
  case choose => split at hs <;> subst hs <;> first | exact owned_go s t _ h ht | exact owned_leave s t h ht
  case test => split at hs <;> subst hs <;> first | exact owned_leave s t h ht | exact owned_go s t _ h ht
  case launch =>
    split at hs <;> subst hs <;> first | exact owned_go _ t _ (by exact h) ht | exact owned_leave _ t (by exact h) ht

theorem owned_lock (s s' : St) (t : Nat) (p : Pc) (h : Owned s) (hs : lock s t p = some s') : Owned s' := by
  simp only [lock] at hs
  split at hs
  · next hc =>
    injection hs with hs; subst hs
    intro u hu
    simp only [St.go] at hu ⊢
    by_cases e : u = t
    · rw [e]
    · simp only [if_neg e] at hu
      have := h u hu
      rw [hc.2] at this; cases this
  · cases hs

theorem owned_step (s s' : St) (a : Act) (h : Owned s) (ha : Held a) (hs : step s a = some s') : Owned s' := by
  cases a with
  | eoa t => exact absurd ha id
  | stop t => exact absurd ha id
  | start t => exact absurd ha id
  | complete t =>
    simp only [step] at hs
    split at hs
    · exact owned_lock s s' t _ h hs
    · cases hs
  | timer t => exact owned_lock s s' t _ h hs
  | switch t => exact owned_lock s s' t _ h hs
  | config t =>
    simp only [step] at hs
    split at hs
    · injection hs with hs; subst hs; exact h
    · cases hs
  | step t same ok => exact owned_advance s s' t same ok h hs

theorem owned_idle (s : St) (h : Owned s) (ho : s.owner = none) : ∀ t, s.pc t = .idle := by
  intro t
  by_cases hp : s.pc t = .idle
  · exact hp
  · have := h t hp
    rw [ho] at this; cases this

theorem lock_free (s s' : St) (t : Nat) (p : Pc) (hs : lock s t p = some s') : s.owner = none := by
  simp only [lock] at hs
  split at hs
  · next h => exact h.2
  · cases hs

theorem held_run (l : List Act) : ∀ (s s' : St) (b : Option Nat), Inv s b → Owned s → (∀ a ∈ l, Held a) → run s l = some s' →
    ∃ b', Inv s' b' := by
  induction l with
  | nil => intro s s' b h _ _ hr; injection hr with hr; subst hr; exact ⟨b, h⟩
  | cons a l ih =>
    intro s s' b h ho hl hr
    cases hs : step s a with
    | none => simp [run, hs] at hr
    | some s1 =>
      simp only [run, hs, Option.bind_some] at hr
      have ha := hl a List.mem_cons_self
      have hap : Apart s [a] := by
        refine ⟨?_, fun _ _ => trivial⟩
        cases a with
        | eoa t => exact absurd ha id
        | stop t => exact absurd ha id
        | start t => exact absurd ha id
        | complete t =>
          simp only [step] at hs
          split at hs
          · exact owned_idle s ho (lock_free s s1 t _ hs)
          · cases hs
        | timer t => exact owned_idle s ho (lock_free s s1 t _ hs)
        | switch t => exact owned_idle s ho (lock_free s s1 t _ hs)
        | config t => trivial
        | step t same ok => trivial
      obtain ⟨b1, h1⟩ := any_apart s s1 b a h hap hs
      exact ih s1 s' b1 h1 (owned_step s s1 a ho ha hs) (fun x hx => hl x (List.mem_cons_of_mem _ hx)) hr

/-- Frames, the timeout and configuration messages of any number of threads alone do no harm. -/
theorem C144_held (l : List Act) (s : St) (hr : run {} l = some s) (h : ∀ a ∈ l, Held a) : Orderly s.log := by
  obtain ⟨b, hi⟩ := held_run l {} s none Inv.init (fun t ht => absurd rfl ht) h hr
  exact hi.orderly

/-- While nothing is written, the end of an acquisition and the timeout start and stop nothing, however the next acquisition is
configured. -/
theorem C144_idle (s : St) (t : Nat) (same ok : Bool) (hi : s.pc t = .idle) (hw : s.writing = false) :
    (run s [.eoa t, .step t same ok]).map (fun u => (u.pc t, u.log, u.cur, u.next)) = some (.idle, s.log, s.cur, s.next) ∧
    (s.owner = none → (run s [.timer t, .step t same ok]).map (fun u => (u.pc t, u.log, u.cur, u.next, u.owner)) =
      some (.idle, s.log, s.cur, s.next, none)) := by
  constructor
  · simp [run, step, enter, hi, advance, St.go, hw, St.leave]
  · intro ho
    simp [run, step, lock, hi, ho, advance, St.go, hw, St.leave]

/-- The end of an acquisition that nothing interrupts stops it; the next one is started exactly if it is configured and has another name. -/
theorem C144_end (s : St) (t : Nat) (same : Bool) (hi : s.pc t = .idle) (hw : s.writing = true) :
    (same = true ∨ s.named = false →
      (run s (.eoa t :: List.replicate 6 (.step t same true))).map (fun u => (u.pc t, u.writing, u.log, u.cur, u.next)) =
        some (.idle, false, s.log ++ [.stopped s.cur], s.cur, s.next)) ∧
    (same = false → s.named = true →
      (run s (.eoa t :: List.replicate 10 (.step t same true))).map (fun u => (u.pc t, u.writing, u.log, u.cur, u.next)) =
        some (.idle, true, s.log ++ [.stopped s.cur, .started s.next], s.next, s.fresh)) := by
  refine ⟨fun h => ?_, fun h1 h2 => ?_⟩
  · have hc : (!same && s.named) = false := by rcases h with h | h <;> simp [h]
    simp [List.replicate, run, step, enter, hi, advance, St.go, hw, St.leave, St.after, St.write, St.note]
    split
    · next h' => rcases h with h | h <;> simp [h] at h'
    · simp
  · subst h1
    simp [List.replicate, run, step, enter, hi, advance, St.go, hw, St.leave, St.after, St.write, St.note, h2, St.renew]

/-- A command to stop starts nothing, whatever is configured. -/
theorem C144_stop (s : St) (t : Nat) (same ok : Bool) (hi : s.pc t = .idle) (hw : s.writing = true) :
    (run s (.stop t :: List.replicate 3 (.step t same ok))).map (fun u => (u.pc t, u.writing, u.log, u.cur, u.next)) =
      some (.idle, false, s.log ++ [.stopped s.cur], s.cur, s.next) := by
  simp [List.replicate, run, step, enter, hi, advance, St.go, hw, St.leave, St.after, St.write, St.note]

/-- Both cases occur. -/
example : logOf (.config 0 :: .start 0 :: go 0 4 ++ [.config 0, .eoa 1] ++ List.replicate 6 (.step 1 true true)) =
      some [.started 1, .stopped 1] ∧
    logOf (.config 0 :: .start 0 :: go 0 4 ++ [.config 0, .eoa 1] ++ go 1 10) = some [.started 1, .stopped 1, .started 2] := by
  decide

/-- A configured next acquisition is not started by an end of acquisition that comes twice. -/
example : logOf (.config 0 :: .start 0 :: go 0 4 ++ [.eoa 1] ++ go 1 6 ++ [.config 0, .eoa 1] ++ go 1 1) =
    some [.started 1, .stopped 1] := by decide

/-! The mutex keeps the methods that take it apart, whatever else happens. -/

/-- The thread that begins a method which takes the mutex. -/
def Act.locker : Act → Option Nat
  | .complete t => some t
  | .timer t => some t
  | .switch t => some t
  | _ => none

/-- Which threads are in such a method: those that have begun one and have not come to its end. -/
def inside (h : Nat → Bool) (a : Act) (s : St) : Nat → Bool := fun t => (h t || decide (a.locker = some t)) && decide (s.pc t ≠ .idle)

def track (s : St) (h : Nat → Bool) : List Act → Option (St × (Nat → Bool))
  | [] => some (s, h)
  | a :: l => (step s a).bind fun u => track u (inside h a u) l

theorem leave_owner (s : St) (t u : Nat) (h : s.owner = some t) : (s.leave u).owner = some t ∨ t = u := by
  by_cases e : t = u
  · exact Or.inr e
  · left
    simp only [St.leave, h, Option.some.injEq, if_neg e]

theorem after_owner (s : St) (t u : Nat) (q : Then) (h : s.owner = some t) :
    (s.after u q).owner = some t ∨ t = u ∧ (s.after u q).pc u = .idle := by
  cases q with
  | nothing =>
    rcases leave_owner s t u h with e | e
    · exact Or.inl e
    · exact Or.inr ⟨e, by simp [St.after, St.leave, St.go]⟩
  | rest r => exact Or.inl h
  | start => exact Or.inl h

theorem leave_or (s : St) (t u : Nat) (h : s.owner = some t) : (s.leave u).owner = some t ∨ t = u ∧ (s.leave u).pc u = .idle :=
  after_owner s t u .nothing h

theorem advance_owner (s s' : St) (t u : Nat) (same ok : Bool) (h : s.owner = some t) (hs : advance s u same ok = some s') :
    s'.owner = some t ∨ t = u ∧ s'.pc u = .idle := by
  cases hp : s.pc u <;> simp only [advance, hp, Option.some.injEq, reduceCtorEq] at hs
  case decide => subst hs; exact Or.inl h
  case clear => subst hs; exact Or.inl h
  case finish q => subst hs; exact after_owner _ t u q h
  case swap => subst hs; exact Or.inl h
  case set => subst hs; exact leave_or _ t u h
  case halt q =>
    split at hs <;> subst hs
    · exact Or.inl h
    · exact after_owner s t u q h
  case check => split at hs <;> subst hs <;> first | exact Or.inl h | exact leave_or s t u h
  case choose => split at hs <;> subst hs <;> first | exact Or.inl h | exact leave_or s t u h
  case test => split at hs <;> subst hs <;> first | exact leave_or s t u h | exact Or.inl h
  case launch => split at hs <;> subst hs <;> first | exact Or.inl h | exact leave_or _ t u h

theorem enter_owner (s s' : St) (u : Nat) (p : Pc) (hs : enter s u p = some s') : s'.owner = s.owner := by
  simp only [enter] at hs
  split at hs
  · injection hs with hs; subst hs; rfl
  · cases hs

theorem lock_owner (s s' : St) (u : Nat) (p : Pc) (hs : lock s u p = some s') : s.owner = none ∧ s'.owner = some u := by
  simp only [lock] at hs
  split at hs
  · next hc => injection hs with hs; subst hs; exact ⟨hc.2, rfl⟩
  · cases hs

theorem inside_owner (s s' : St) (h : Nat → Bool) (a : Act) (hi : ∀ t, h t = true → s.owner = some t) (hs : step s a = some s') :
    ∀ t, inside h a s' t = true → s'.owner = some t := by
  intro t ht
  simp only [inside, Bool.and_eq_true, Bool.or_eq_true, decide_eq_true_eq] at ht
  obtain ⟨ht, hp⟩ := ht
  have lk : ∀ u p, lock s u p = some s' → a.locker = some u → s'.owner = some t := by
    intro u p hl ha
    obtain ⟨h1, h2⟩ := lock_owner s s' u p hl
    rcases ht with ht | ht
    · have := hi t ht; rw [h1] at this; cases this
    · rw [h2, ← ha]; exact ht
  cases a with
  | step u same ok =>
    rcases ht with ht | ht
    · rcases advance_owner s s' t u same ok (hi t ht) hs with e | ⟨e, ei⟩
      · exact e
      · rw [e] at hp; exact absurd ei hp
    · cases ht
  | eoa u => rcases ht with ht | ht; · rw [enter_owner s s' u _ hs]; exact hi t ht
             · cases ht
  | stop u => rcases ht with ht | ht; · rw [enter_owner s s' u _ hs]; exact hi t ht
              · cases ht
  | start u => rcases ht with ht | ht; · rw [enter_owner s s' u _ hs]; exact hi t ht
               · cases ht
  | config u =>
    rcases ht with ht | ht
    · simp only [step] at hs
      split at hs
      · injection hs with hs; subst hs; exact hi t ht
      · cases hs
    · cases ht
  | complete u =>
    simp only [step] at hs
    split at hs
    · exact lk u _ hs rfl
    · cases hs
  | timer u => exact lk u _ hs rfl
  | switch u => exact lk u _ hs rfl

/-- At no time are two threads in methods that take the mutex, also if ends of acquisition and commands arrive. -/
theorem C144_mutex (l : List Act) (s : St) (h : Nat → Bool) (hr : track {} (fun _ => false) l = some (s, h)) (t u : Nat)
    (ht : h t = true) (hu : h u = true) : t = u := by
  have key : ∀ (l : List Act) (s : St) (h : Nat → Bool), (∀ t, h t = true → s.owner = some t) → ∀ s' h', track s h l = some (s', h') →
      ∀ t, h' t = true → s'.owner = some t := by
    intro l
    induction l with
    | nil => intro s h hi s' h' hr; injection hr with hr; injection hr with h1 h2; subst h1; subst h2; exact hi
    | cons a l ih =>
      intro s h hi s' h' hr
      cases hs : step s a with
      | none => simp [track, hs] at hr
      | some v =>
        simp only [track, hs, Option.bind_some] at hr
        exact ih v _ (inside_owner s v h a hi hs) s' h' hr
  have k := key l {} _ (fun t ht => by cases ht) s h hr
  have h1 := k t ht
  have h2 := k u hu
  rw [h1] at h2
  exact Option.some.inj h2

/-- An end of acquisition comes and goes while a frame is being processed; a second frame then has to wait. -/
example : (track {} (fun _ => false) (.config 0 :: .start 0 :: go 0 4 ++ [.switch 1, .eoa 2] ++ go 2 1)).map (fun r => (r.2 1, r.2 2, r.1.owner)) =
    some (true, false, some 1) ∧
    logOf (.config 0 :: .start 0 :: go 0 4 ++ [.switch 1, .eoa 2] ++ go 2 1 ++ [.switch 3]) = none := by decide

/-- A start by a frame, the end by a complete acquisition that starts the next, and its timeout. -/
example : logOf (.config 0 :: .switch 1 :: go 1 5 ++ [.config 0, .complete 1] ++ go 1 9 ++ [.timer 2] ++ go 2 6) =
    some [.started 1, .stopped 1, .started 2, .stopped 2] := by decide

example : Orderly [.started 1, .stopped 1, .started 2] ∧ ¬ Orderly [.started 1, .started 2] ∧ ¬ Orderly [.stopped 0] ∧
    ¬ Orderly [.started 1, .stopped 1, .started 1] := by decide

end Verif.Stops
