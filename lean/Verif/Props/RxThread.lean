import Verif.Model.RxThread
/-!
C89: starting the receiver thread is answered correctly. C90: the sockets of a receiver thread are closed when it has stopped.
-/
namespace Verif.RxThread

/-! ## C89 -/

/-- The answer expected: wait until the thread is up or has failed, at most 1000 times. -/
def answer : List Seen → Nat → Option Out
  | _, 0 => some .failed
  | [], _ => none
  | o :: l, n + 1 => if o.running then some .up else if o.error then some .failed else answer l n

/-- C89, full statement: `start` waits up to one second for the thread. -/
def C89_statement : Prop := ∀ l : List Seen, start l = answer l 1000

/-- C89, proved part: a thread that is up, or has failed, when it is first looked at. -/
theorem C89_partial (o : Seen) (l : List Seen) (h : o.running = true ∨ o.error = true) : start (o :: l) = answer (o :: l) 1000 := by
  simp only [start, wait, answer]
  rcases h with h | h
  · simp [h]
  · simp [h]

/-- Otherwise the code evaluates a shift by 1000, which is undefined. -/
theorem C89_ub (o : Seen) (l : List Seen) (h : o.running = false ∧ o.error = false) : start (o :: l) = some .ub := by
  simp [start, wait, h.1, h.2, timeout]

/-- In general: the wait is undefined exactly for shifts from the width on, if the thread is not up at once. -/
theorem C89_width (shift : Nat) (o : Seen) (l : List Seen) (k : Nat) (h : o.running = false ∧ o.error = false) :
    wait shift (o :: l) k = some .ub ↔ 32 ≤ shift := by
  have hno : ∀ (l : List Seen) (k : Nat), shift < 32 → wait shift l k ≠ some .ub := by
    intro l
    induction l with
    | nil => intro k _ h; cases h
    | cons o l ih =>
      intro k hs
      have ht : timeout 32 (k + 1) shift = some (decide ((k + 1) >>> shift ≠ 0)) := if_neg (by omega)
      simp only [wait, ht]
      split
      · intro h; cases h
      · split
        · intro h; cases h
        · cases decide ((k + 1) >>> shift ≠ 0)
          · exact ih _ hs
          · intro h; cases h
  constructor
  · intro hw
    rcases Nat.lt_or_ge shift 32 with hs | hs
    · exact absurd hw (hno _ _ hs)
    · exact hs
  · intro hs
    simp [wait, h.1, h.2, timeout, hs]

example : wait 32 [⟨false, false⟩] 0 = some .ub ∧ wait 31 [⟨false, false⟩] 0 = none := by decide +kernel

theorem C89_violated : ¬ C89_statement := by
  intro h
  have := h [⟨false, false⟩, ⟨true, false⟩]
  revert this
  decide +kernel

theorem wait_quiet (shift : Nat) (hs : shift < 32) (l : List Seen) (hl : ∀ o ∈ l, o.running = false ∧ o.error = false) (k : Nat)
    (hk : k + l.length < 2 ^ shift) : wait shift l k = none := by
  induction l generalizing k with
  | nil => rfl
  | cons o l ih =>
    have ho := hl o List.mem_cons_self
    simp only [List.length_cons] at hk
    simp only [wait, ho.1, ho.2, Bool.false_eq_true, if_false, timeout]
    rw [if_neg (by omega)]
    have hz : (k + 1) >>> shift = 0 := by
      rw [Nat.shiftRight_eq_div_pow]
      exact Nat.div_eq_of_lt (by omega)
    simp only [hz]
    exact ih (fun o ho => hl o (List.mem_cons_of_mem _ ho)) (k + 1) (by omega)

/-- On a processor that takes the shift modulo 32, which makes it 8, the wait ends after 256 attempts instead of 1000. -/
theorem C89_masked (l : List Seen) (hl : ∀ o ∈ l, o.running = false ∧ o.error = false) (r : List Seen) (h : l.length = 255)
    (hr : r ≠ []) (hq : ∀ o ∈ r, o.running = false ∧ o.error = false) : wait (1000 % 32) (l ++ r) 0 = some .failed := by
  have key : ∀ (l : List Seen) (k : Nat), (∀ o ∈ l, o.running = false ∧ o.error = false) → k + l.length = 255 →
      wait 8 (l ++ r) k = some .failed := by
    intro l
    induction l with
    | nil =>
      intro k _ hk
      obtain ⟨o, r', rfl⟩ := List.exists_cons_of_ne_nil hr
      have ho := hq o List.mem_cons_self
      simp only [List.length_nil, Nat.add_zero] at hk
      subst hk
      simp [wait, ho.1, ho.2, timeout]
    | cons o l ih =>
      intro k hl hk
      have ho := hl o List.mem_cons_self
      simp only [List.length_cons] at hk
      have hz : (k + 1) >>> 8 = 0 := by
        rw [Nat.shiftRight_eq_div_pow]
        exact Nat.div_eq_of_lt (by omega)
      simp only [List.cons_append, wait, ho.1, ho.2, Bool.false_eq_true, if_false, timeout, hz]
      exact ih (k + 1) (fun o ho => hl o (List.mem_cons_of_mem _ ho)) (by omega)
  exact key l 0 hl (by omega)

example : start [⟨true, false⟩] = some .up ∧ start [⟨false, true⟩] = some .failed ∧ start [⟨false, false⟩, ⟨true, false⟩] = some .ub := by
  decide +kernel

/-! ## C90 -/

/-- C90, full statement: a thread that has been started and stopped leaves the open sockets as they were. -/
def C90_statement : Prop :=
  ∀ (fault : Nat → Option Fault) (ports : List Nat) (os : Os), (session fault ports os).1 = os

theorem openPorts_bound (fault : Nat → Option Fault) (ports : List Nat) (os : Os) :
    ∃ l, (openPorts fault ports os).1.bound = l ++ os.bound ∧ (∀ p ∈ l, p ∉ os.bound) ∧
      (∀ p, p ∈ l ↔ p ∈ (openPorts fault ports os).2.1) := by
  induction ports generalizing os with
  | nil => exact ⟨[], rfl, by simp, by simp [openPorts]⟩
  | cons p ports ih =>
    unfold openPorts
    split
    · exact ⟨[], rfl, by simp, by simp⟩
    · exact ⟨[], rfl, by simp, by simp⟩
    · split
      · exact ⟨[], rfl, by simp, by simp⟩
      · rename_i hp
        obtain ⟨l, h1, h2, h3⟩ := ih { os with bound := p :: os.bound }
        generalize openPorts fault ports { os with bound := p :: os.bound } = r at *
        obtain ⟨os', reg, e⟩ := r
        simp only at h1 h2 h3 ⊢
        refine ⟨l ++ [p], by rw [h1]; simp, ?_, ?_⟩
        · intro q hq
          rcases List.mem_append.1 hq with hq | hq
          · exact fun h => h2 q hq (List.mem_cons_of_mem _ h)
          · rw [List.mem_singleton.1 hq]; exact hp
        · intro q
          rw [List.mem_append, List.mem_singleton, h3 q, List.mem_cons]
          exact Or.comm

theorem openPorts_loose (fault : Nat → Option Fault) (ports : List Nat) (os : Os) (h : (openPorts fault ports os).2.2 = false) :
    (openPorts fault ports os).1.loose = os.loose := by
  induction ports generalizing os with
  | nil => rfl
  | cons p ports ih =>
    unfold openPorts at h ⊢
    split
    · rename_i hf; simp only [hf] at h; cases h
    · rename_i hf; simp only [hf] at h; cases h
    · rename_i hf
      simp only [hf] at h
      split
      · rename_i hp; rw [if_pos hp] at h; cases h
      · rename_i hp
        rw [if_neg hp] at h
        have := ih { os with bound := p :: os.bound }
        generalize openPorts fault ports { os with bound := p :: os.bound } = r at *
        obtain ⟨os', reg, e⟩ := r
        exact this h

/-- A thread that does not come up leaves one more socket without a port, unless the system gives none. -/
theorem openPorts_left (fault : Nat → Option Fault) (ports : List Nat) (os : Os) (hc : ∀ p ∈ ports, fault p ≠ some .create)
    (h : (openPorts fault ports os).2.2 = true) : (openPorts fault ports os).1.loose = os.loose + 1 := by
  induction ports generalizing os with
  | nil => cases h
  | cons p ports ih =>
    unfold openPorts at h ⊢
    split
    · rename_i hf; exact absurd hf (hc p (List.mem_cons_self ..))
    · rfl
    · rename_i hf
      simp only [hf] at h
      split
      · rfl
      · rename_i hp
        rw [if_neg hp] at h
        have := ih { os with bound := p :: os.bound } (fun q hq => hc q (List.mem_cons_of_mem _ hq))
        generalize openPorts fault ports { os with bound := p :: os.bound } = r at *
        obtain ⟨os', reg, e⟩ := r
        exact this h

/-- The same for a thread from start to stop. -/
theorem C90_left (fault : Nat → Option Fault) (ports : List Nat) (os : Os) (hc : ∀ p ∈ ports, fault p ≠ some .create)
    (h : (session fault ports os).2 = false) : (session fault ports os).1.loose = os.loose + 1 := by
  have := openPorts_left fault ports os hc
  unfold session at h ⊢
  generalize openPorts fault ports os = r at *
  obtain ⟨os', reg, e⟩ := r
  cases e with
  | true => exact this rfl
  | false => cases h

example : (session (fun p => if p = 2 then some .other else none) [1, 2] {}).1 = { bound := [1], loose := 1 } := by decide

/-- C90, proved part: when the thread came up. Missing: threads that fail to start (`C90_violated`). -/
theorem C90_partial (fault : Nat → Option Fault) (ports : List Nat) (os : Os) (h : (session fault ports os).2 = true) :
    (session fault ports os).1 = os := by
  obtain ⟨l, h1, h2, h3⟩ := openPorts_bound fault ports os
  have hl := openPorts_loose fault ports os
  unfold session at h ⊢
  generalize openPorts fault ports os = r at *
  obtain ⟨os', reg, e⟩ := r
  cases e with
  | true => simp at h
  | false =>
    simp only at h1 h3 hl ⊢
    have hb : (os'.bound.filter fun p => decide (p ∉ reg)) = os.bound := by
      rw [h1, List.filter_append]
      rw [List.filter_eq_nil_iff.2 (fun p hp => by simp [(h3 p).1 hp]), List.nil_append]
      exact List.filter_eq_self.2 fun p hp => by
        simp only [decide_eq_true_eq]
        exact fun hr => h2 p ((h3 p).2 hr) hp
    cases os
    cases os'
    simp only [closePorts] at *
    simp only [decide_not] at hb
    simp [hb, hl]

/-- Ports 1 and 2, of which 2 fails. -/
def second : Nat → Option Fault := fun p => if p = 2 then some .other else none

theorem C90_violated : ¬ C90_statement := by
  intro h
  have := h second [1, 2] {}
  revert this
  decide +kernel

/-- A port left bound stays so for the life of the process … -/
theorem C90_kept (fault : Nat → Option Fault) (ports : List Nat) (os : Os) (p : Nat) (h : p ∈ os.bound) :
    p ∈ (session fault ports os).1.bound := by
  obtain ⟨l, h1, h2, h3⟩ := openPorts_bound fault ports os
  unfold session
  generalize openPorts fault ports os = r at *
  obtain ⟨os', reg, e⟩ := r
  simp only at h1 h3
  cases e with
  | true => show p ∈ os'.bound; rw [h1]; exact List.mem_append_right _ h
  | false =>
    show p ∈ os'.bound.filter fun p => decide (p ∉ reg)
    refine List.mem_filter.2 ⟨by rw [h1]; exact List.mem_append_right _ h, ?_⟩
    simp only [decide_eq_true_eq]
    exact fun hr => h2 p ((h3 p).2 hr) h

/-- … and no receiver thread with that port comes up again. -/
theorem C90_blocked (fault : Nat → Option Fault) (ports : List Nat) (os : Os) (p : Nat) (h : p ∈ os.bound) (hp : p ∈ ports) :
    (session fault ports os).2 = false := by
  have key : ∀ (ports : List Nat) (os : Os), p ∈ os.bound → p ∈ ports → (openPorts fault ports os).2.2 = true := by
    intro ports
    induction ports with
    | nil => intro os _ h; cases h
    | cons q ports ih =>
      intro os h hp
      unfold openPorts
      split
      · rfl
      · rfl
      · split
        · rfl
        · rename_i hq
          have := ih { os with bound := q :: os.bound } (List.mem_cons_of_mem _ h) (by
            rcases List.mem_cons.1 hp with hp | hp
            · rw [hp] at h; exact absurd h hq
            · exact hp)
          generalize openPorts fault ports { os with bound := q :: os.bound } = r at *
          obtain ⟨os', reg, e⟩ := r
          exact this
  unfold session
  have := key ports os h hp
  generalize openPorts fault ports os = r at *
  obtain ⟨os', reg, e⟩ := r
  simp only at this
  rw [this]

/-- So after one failure on port 2 a receiver with port 1 cannot be configured, even without any further fault. -/
theorem C90_retry (ports : List Nat) (h : 1 ∈ ports) :
    (session (fun _ => none) ports (session second [1, 2] {}).1).2 = false :=
  C90_blocked _ _ _ 1 (by decide +kernel) h

example : (session (fun _ => none) [1, 2] {}).2 = true ∧ (openPorts (fun _ => none) [1, 2] {}).1.bound = [2, 1] ∧
    (session second [1, 2] {}).1.bound = [1] := by decide +kernel

end Verif.RxThread
