import Verif.Model.WorkQueue
/-! Properties C28 (work queues are FIFO and bounded) and C29 (no lost wake-up). -/
namespace Verif.WorkQueue

/-! ## Steps by their effect -/

/-- An invariant is kept by every step if it is kept by these changes. -/
theorem step_induct (M n nc : Nat) (P : State → Prop)
    (hadd : ∀ s a, P s → s.pr.length + s.pw.length < n → P { s with pr := s.pr ++ [a], asked := s.asked ++ [a.item] })
    (hrem : ∀ s, P s → s.cr + s.cw < nc → P { s with cr := s.cr + 1 })
    (hwaitP : ∀ s i a, P s → s.pr[i]? = some a → a.ignore = false → s.queue.length ≥ M →
      P { s with pr := s.pr.eraseIdx i, pw := s.pw ++ [a] })
    (hpush : ∀ s i a w s', P s → s.pr[i]? = some a → (a.ignore = false → s.queue.length < M) →
      signal { s with pr := s.pr.eraseIdx i, queue := s.queue ++ [a.item], pushed := s.pushed ++ [a.item],
                      ignored := s.ignored + if a.ignore then 1 else 0 } w = some s' → P s')
    (hwaitC : ∀ s, P s → s.cr > 0 → s.queue = [] → P { s with cr := s.cr - 1, cw := s.cw + 1 })
    (hpop : ∀ s x q w s', P s → s.cr > 0 → s.queue = x :: q →
      signal { s with cr := s.cr - 1, queue := q, popped := s.popped ++ [x] } w = some s' → P s')
    (hspP : ∀ s i a, P s → s.pw[i]? = some a → P { s with pr := s.pr ++ [a], pw := s.pw.eraseIdx i })
    (hspC : ∀ s, P s → s.cw > 0 → P { s with cr := s.cr + 1, cw := s.cw - 1 })
    (s s' : State) (l : Step) (h : P s) (hs : step M n nc s l = some s') : P s' := by
  cases l with
  | callAdd a =>
    simp only [step] at hs
    split at hs
    · rename_i hc; cases hs; exact hadd s a h hc
    · cases hs
  | callRemove =>
    simp only [step] at hs
    split at hs
    · rename_i hc; cases hs; exact hrem s h hc
    · cases hs
  | producer i w =>
    simp only [step] at hs
    cases ha : s.pr[i]? with
    | none => rw [ha] at hs; cases hs
    | some a =>
      rw [ha] at hs
      simp only [enterAdd] at hs
      split at hs
      · rename_i hc; cases hs; exact hwaitP s i a h ha hc.1 hc.2
      · rename_i hc
        exact hpush s i a w s' h ha (fun hi => by
          rcases Nat.lt_or_ge s.queue.length M with hl | hl
          · exact hl
          · exact absurd ⟨hi, hl⟩ hc) hs
  | consumer w =>
    simp only [step] at hs
    split at hs
    · rename_i hc
      unfold enterRemove at hs
      cases hq : s.queue with
      | nil => simp only [hq] at hs; cases hs; exact (hq ▸ hwaitC s h hc hq)
      | cons x q => simp only [hq] at hs; exact hpop s x q w s' h hc hq hs
    · cases hs
  | spuriousP i =>
    simp only [step] at hs
    cases ha : s.pw[i]? with
    | none => rw [ha] at hs; cases hs
    | some a => rw [ha] at hs; cases hs; exact hspP s i a h ha
  | spuriousC =>
    simp only [step] at hs
    split at hs
    · rename_i hc; cases hs; exact hspC s h hc
    · cases hs

theorem run_induct (M n nc : Nat) (P : State → Prop) (hstep : ∀ s s' l, P s → step M n nc s l = some s' → P s')
    (ls : List Step) : ∀ s s', P s → run M n nc s ls = some s' → P s' := by
  induction ls with
  | nil => intro s s' h hr; cases hr; exact h
  | cons l ls ih =>
    intro s s' h hr
    obtain ⟨t, ht, hr⟩ := Option.bind_eq_some_iff.1 hr
    exact ih t s' (hstep s t l h ht) hr

/-- A signal moves one waiting thread, nothing else. -/
theorem signal_cases (s s' : State) (w : Wake) (h : signal s w = some s') :
    (s' = s ∧ s.pw = [] ∧ s.cw = 0) ∨
    (∃ i a, s.pw[i]? = some a ∧ s' = { s with pr := s.pr ++ [a], pw := s.pw.eraseIdx i }) ∨
    (s.cw > 0 ∧ s' = { s with cr := s.cr + 1, cw := s.cw - 1 }) := by
  cases w with
  | nobody =>
    simp only [signal] at h
    split at h
    · rename_i hc; cases h; exact Or.inl ⟨rfl, hc⟩
    · cases h
  | producer i =>
    simp only [signal] at h
    cases ha : s.pw[i]? with
    | none => rw [ha] at h; cases h
    | some a => rw [ha] at h; cases h; exact Or.inr (Or.inl ⟨i, a, ha, rfl⟩)
  | consumer =>
    simp only [signal] at h
    split at h
    · rename_i hc; cases h; exact Or.inr (Or.inr ⟨hc, rfl⟩)
    · cases h

/-! ## C28 -/

theorem perm_erase {l : List Add} {i : Nat} {a : Add} (h : l[i]? = some a) : (a :: l.eraseIdx i).Perm l := by
  induction l generalizing i with
  | nil => cases h
  | cons b l ih =>
    cases i with
    | zero => cases h; exact List.Perm.refl _
    | succ i =>
      simp only [List.getElem?_cons_succ] at h
      simp only [List.eraseIdx_cons_succ]
      exact (List.Perm.swap b a _).trans ((ih h).cons b)

/-- Calls of `add` that are not done. -/
def pending (s : State) : List Nat := (s.pr ++ s.pw).map (·.item)

structure Fifo (M : Nat) (s : State) : Prop where
  order : s.pushed = s.popped ++ s.queue
  all : s.asked.Perm (s.pushed ++ pending s)
  bound : s.queue.length ≤ M + s.ignored

theorem signal_fifo (M : Nat) (s s' : State) (w : Wake) (h : signal s w = some s') (hf : Fifo M s) : Fifo M s' := by
  rcases signal_cases s s' w h with ⟨rfl, -⟩ | ⟨i, a, ha, rfl⟩ | ⟨-, rfl⟩
  · exact hf
  · refine ⟨hf.order, hf.all.trans (List.Perm.append_left _ ?_), hf.bound⟩
    unfold pending
    refine List.Perm.map _ ?_
    simp only [List.append_assoc, List.singleton_append]
    exact List.Perm.append_left _ (perm_erase ha).symm
  · exact ⟨hf.order, hf.all, hf.bound⟩

theorem step_fifo (M n nc : Nat) (s s' : State) (l : Step) (h : Fifo M s) (hs : step M n nc s l = some s') :
    Fifo M s' := by
  refine step_induct M n nc (Fifo M) ?_ ?_ ?_ ?_ ?_ ?_ ?_ ?_ s s' l h hs
  · intro s a h _
    refine ⟨h.order, ?_, h.bound⟩
    refine (h.all.append_right [a.item]).trans ?_
    rw [List.append_assoc]
    refine List.Perm.append_left _ ?_
    simp only [pending, List.map_append, List.append_assoc, List.map_cons, List.map_nil]
    exact List.Perm.append_left _ List.perm_append_comm
  · intro s h _; exact ⟨h.order, h.all, h.bound⟩
  · intro s i a h ha _ _
    refine ⟨h.order, h.all.trans (List.Perm.append_left _ ?_), h.bound⟩
    unfold pending
    refine List.Perm.map _ ?_
    refine ((perm_erase ha).symm.append_right s.pw).trans ?_
    simp only [List.cons_append]
    rw [← List.append_assoc]
    exact (List.perm_append_singleton a _).symm
  · intro s i a w s' h ha hl hsig
    refine signal_fifo M _ s' w hsig ⟨?_, ?_, ?_⟩
    · simp only [h.order, List.append_assoc]
    · refine h.all.trans ?_
      simp only [List.append_assoc]
      refine List.Perm.append_left _ ?_
      have := (perm_erase ha).symm.append_right s.pw
      exact this.map (·.item)
    · have := h.bound
      simp only [List.length_append, List.length_singleton]
      cases hi : a.ignore with
      | true => simp; omega
      | false => have := hl hi; simp; omega
  · intro s h _ hq; exact ⟨h.order, h.all, h.bound⟩
  · intro s x q w s' h _ hq hsig
    refine signal_fifo M _ s' w hsig ⟨?_, h.all, ?_⟩
    · have := h.order
      rw [hq] at this
      simp only [List.append_assoc, List.singleton_append]; exact this
    · have := h.bound
      rw [hq, List.length_cons] at this
      simp only; omega
  · intro s i a h ha
    exact signal_fifo M s _ (.producer i) (by simp only [signal, ha]) h
  · intro s h _; exact ⟨h.order, h.all, h.bound⟩

/-- C28: under every schedule of any number of producers and consumers, items leave in the order they entered,
every item of a call of `add` either has entered once or its call is pending, and the queue exceeds its limit at
most by the pushes that ignored it. -/
theorem C28_fifo (M n nc : Nat) (ls : List Step) (s : State) (h : run M n nc {} ls = some s) :
    s.pushed = s.popped ++ s.queue ∧ s.asked.Perm (s.pushed ++ (s.pr ++ s.pw).map (·.item)) ∧
    s.queue.length ≤ M + s.ignored := by
  have := run_induct M n nc (Fifo M) (fun s s' l => step_fifo M n nc s s' l) ls {} s ⟨rfl, List.Perm.refl _, Nat.zero_le _⟩ h
  exact ⟨this.order, this.all, this.bound⟩

/-- C28: without calls that ignore the limit it holds always. -/
theorem C28_bounded (M n nc : Nat) (ls : List Step) (s : State) (h : run M n nc {} ls = some s)
    (hi : ∀ a, Step.callAdd a ∈ ls → a.ignore = false) : s.queue.length ≤ M := by
  suffices hs : s.ignored = 0 by have := (C28_fifo M n nc ls s h).2.2; omega
  have main : ∀ (ls : List Step) (s s' : State), (∀ a, Step.callAdd a ∈ ls → a.ignore = false) →
      ((∀ a ∈ s.pr, a.ignore = false) ∧ (∀ a ∈ s.pw, a.ignore = false) ∧ s.ignored = 0) →
      run M n nc s ls = some s' → s'.ignored = 0 := by
    intro ls
    induction ls with
    | nil => intro s s' _ h hr; cases hr; exact h.2.2
    | cons l ls ih =>
      intro s s' hi h hr
      obtain ⟨t, ht, hr⟩ := Option.bind_eq_some_iff.1 hr
      refine ih t s' (fun a ha => hi a (List.mem_cons_of_mem _ ha)) ?_ hr
      have hsig : ∀ (s s' : State) w, signal s w = some s' →
          ((∀ a ∈ s.pr, a.ignore = false) ∧ (∀ a ∈ s.pw, a.ignore = false) ∧ s.ignored = 0) →
          ((∀ a ∈ s'.pr, a.ignore = false) ∧ (∀ a ∈ s'.pw, a.ignore = false) ∧ s'.ignored = 0) := by
        intro s s' w hw h
        rcases signal_cases s s' w hw with ⟨rfl, -⟩ | ⟨i, a, ha, rfl⟩ | ⟨-, rfl⟩
        · exact h
        · refine ⟨?_, fun b hb => h.2.1 b (List.mem_of_mem_eraseIdx hb), h.2.2⟩
          intro b hb
          rcases List.mem_append.1 hb with hb | hb
          · exact h.1 b hb
          · rw [List.mem_singleton.1 hb]; exact h.2.1 a (List.mem_of_getElem? ha)
        · exact h
      cases l with
      | callAdd a =>
        simp only [step] at ht
        split at ht
        · cases ht
          refine ⟨?_, h.2.1, h.2.2⟩
          intro b hb
          rcases List.mem_append.1 hb with hb | hb
          · exact h.1 b hb
          · rw [List.mem_singleton.1 hb]; exact hi a (by simp)
        · cases ht
      | callRemove =>
        simp only [step] at ht
        split at ht
        · cases ht; exact h
        · cases ht
      | producer i w =>
        simp only [step] at ht
        cases ha : s.pr[i]? with
        | none => rw [ha] at ht; cases ht
        | some a =>
          rw [ha] at ht
          have haf : a.ignore = false := h.1 a (List.mem_of_getElem? ha)
          have her : ∀ b ∈ s.pr.eraseIdx i, b.ignore = false := fun b hb => h.1 b (List.mem_of_mem_eraseIdx hb)
          simp only [enterAdd] at ht
          split at ht
          · cases ht
            refine ⟨her, ?_, h.2.2⟩
            intro b hb
            rcases List.mem_append.1 hb with hb | hb
            · exact h.2.1 b hb
            · rw [List.mem_singleton.1 hb]; exact haf
          · exact hsig _ t w ht ⟨her, h.2.1, by simp [haf, h.2.2]⟩
      | consumer w =>
        simp only [step] at ht
        split at ht
        · unfold enterRemove at ht
          cases hq : s.queue with
          | nil => simp only [hq] at ht; cases ht; exact h
          | cons x q => simp only [hq] at ht; exact hsig _ t w ht h
        · cases ht
      | spuriousP i =>
        simp only [step] at ht
        cases ha : s.pw[i]? with
        | none => rw [ha] at ht; cases ht
        | some a => rw [ha] at ht; exact hsig s t (.producer i) (by simp only [signal, ha]; exact ht) h
      | spuriousC =>
        simp only [step] at ht
        split at ht
        · cases ht; exact h
        · cases ht
  exact main ls {} s hi ⟨fun a h => (by cases h), fun a h => (by cases h), rfl⟩ h

/-! ## C29 -/

namespace Spec

/-- The consumer sleeps although there is something to do and no thread is about to run. -/
def ConsumerStuck (s : State) : Prop := s.pr = [] ∧ s.cr = 0 ∧ s.cw > 0 ∧ s.queue ≠ []

/-- A producer sleeps although there is space, no thread is about to run, and no consumer is busy elsewhere
(it would come back). -/
def ProducerStuck (M nc : Nat) (s : State) : Prop :=
  s.pr = [] ∧ s.cr = 0 ∧ s.cw = nc ∧ s.pw ≠ [] ∧ s.queue.length < M

end Spec
open Spec

/-- C29, full statement: with one consumer, as in the code, and any number of producers nobody is stuck under
any schedule. -/
def C29_statement : Prop :=
  ∀ (n : Nat) (ls : List Step) (s : State), run maxQueueSize n 1 {} ls = some s →
    ¬ ConsumerStuck s ∧ ¬ ProducerStuck maxQueueSize 1 s

/-- The invariant, for one consumer. -/
structure Inv (M n : Nat) (s : State) : Prop where
  one : s.cr + s.cw ≤ 1
  threads : s.pr.length + s.pw.length ≤ n
  -- while producers wait, the ready ones can fill the queue
  space : s.pw ≠ [] → M ≤ s.queue.length + s.pr.length
  -- while the consumer waits, there are not enough sleeping producers to fill the queue
  sleep : s.cw > 0 → s.queue.length + s.pw.length ≤ M - 1
  awake : s.cw > 0 → s.queue ≠ [] → s.pr ≠ []

theorem length_erase {l : List Add} {i : Nat} {a : Add} (h : l[i]? = some a) :
    (l.eraseIdx i).length + 1 = l.length := by
  have := (perm_erase h).length_eq
  simpa using this

theorem ne_nil_of_length {α} {l : List α} (h : 0 < l.length) : l ≠ [] := by
  rintro rfl; simp at h

theorem length_of_ne_nil {α} {l : List α} (h : l ≠ []) : 0 < l.length := List.length_pos_iff.2 h

theorem step_inv (M n : Nat) (hM : 0 < M) (hn : n < 2 * M) (s s' : State) (l : Step) (h : Inv M n s)
    (hs : step M n 1 s l = some s') : Inv M n s' := by
  refine step_induct M n 1 (Inv M n) ?_ ?_ ?_ ?_ ?_ ?_ ?_ ?_ s s' l h hs
  · intro s a h hl
    refine ⟨h.one, by simp only [List.length_append, List.length_singleton]; omega, fun hw => ?_, h.sleep,
      fun _ _ => by simp⟩
    have := h.space hw
    simp only [List.length_append, List.length_singleton]; omega
  · intro s h hl; exact ⟨by simp only; omega, h.threads, h.space, h.sleep, h.awake⟩
  · intro s i a h ha _ hq
    have hl := length_erase ha
    have ht := h.threads
    refine ⟨h.one, by simp only [List.length_append, List.length_singleton]; omega, fun _ => by simp only; omega, ?_, ?_⟩
    · intro hc; have := h.sleep hc; omega
    · intro hc; have := h.sleep hc; omega
  · intro s i a w s' h ha _ hsig
    have hl := length_erase ha
    have ht := h.threads
    have h1 := h.one
    rcases signal_cases _ s' w hsig with ⟨rfl, hw, hc⟩ | ⟨j, b, hb, rfl⟩ | ⟨hc, rfl⟩
    · exact ⟨h1, by simp only; omega, fun hne => absurd hw hne,
        fun hc' => by simp only at hc hc'; omega, fun hc' => by simp only at hc hc'; omega⟩
    · have hlb := length_erase hb
      simp only at hlb
      have hsp := h.space (ne_nil_of_length (by omega))
      refine ⟨h1, ?_, fun _ => ?_, fun hc => ?_, fun _ _ => by simp⟩
      · simp only [List.length_append, List.length_singleton]; omega
      · simp only [List.length_append, List.length_singleton]; omega
      · have := h.sleep hc
        simp only [List.length_append, List.length_singleton]; omega
    · simp only at hc
      refine ⟨by simp only; omega, by simp only; omega, fun hw => ?_, fun hc' => by simp only at hc'; omega,
        fun hc' => by simp only at hc'; omega⟩
      have := h.space hw
      simp only [List.length_append, List.length_singleton]; omega
  · intro s h hc hq
    have h1 := h.one
    have ht := h.threads
    refine ⟨by simp only; omega, h.threads, h.space, fun _ => ?_, fun _ hne => absurd hq hne⟩
    simp only [hq, List.length_nil]
    by_cases hw : s.pw = []
    · rw [hw, List.length_nil]; omega
    · have := h.space hw
      rw [hq, List.length_nil] at this
      omega
  · intro s x q w s' h hc hq hsig
    have h1 := h.one
    have ht := h.threads
    have hsp := h.space
    rw [hq, List.length_cons] at hsp
    rcases signal_cases _ s' w hsig with ⟨rfl, hw, hc0⟩ | ⟨j, b, hb, rfl⟩ | ⟨hc', rfl⟩
    · exact ⟨by simp only; omega, ht, fun hne => absurd hw hne,
        fun hc' => by simp only at hc0 hc'; omega, fun hc' => by simp only at hc0 hc'; omega⟩
    · have hlb := length_erase hb
      simp only at hlb
      have hsp' := hsp (ne_nil_of_length (by omega))
      refine ⟨by simp only; omega, ?_, fun _ => ?_, fun hc' => by simp only at hc'; omega,
        fun hc' => by simp only at hc'; omega⟩
      · simp only [List.length_append, List.length_singleton]; omega
      · simp only [List.length_append, List.length_singleton]; omega
    · simp only at hc'; omega
  · intro s i a h ha
    have hl := length_erase ha
    have ht := h.threads
    refine ⟨h.one, by simp only [List.length_append, List.length_singleton]; omega, fun _ => ?_, fun hc => ?_,
      fun _ _ => by simp⟩
    · have := h.space (ne_nil_of_length (by omega))
      simp only [List.length_append, List.length_singleton]; omega
    · have := h.sleep hc; simp only; omega
  · intro s h hc
    have h1 := h.one
    exact ⟨by simp only; omega, h.threads, h.space, fun hc' => by simp only at hc'; omega,
      fun hc' => by simp only at hc'; omega⟩

theorem run_inv (M n : Nat) (hM : 0 < M) (hn : n < 2 * M) (ls : List Step) (s : State)
    (h : run M n 1 {} ls = some s) : Inv M n s :=
  run_induct M n 1 (Inv M n) (fun s s' l => step_inv M n hM hn s s' l) ls {} s
    ⟨Nat.zero_le _, Nat.zero_le _, fun h => absurd rfl h, fun h => absurd h (by decide), fun h => absurd h (by decide)⟩ h

/-- C29, proved part: with one consumer and fewer than 2 * 8 producers nobody is ever stuck (for every limit `M`:
fewer than `2 * M`). Missing: 16 and more producers (`C29_violated`). -/
theorem C29_partial (M n : Nat) (hM : 0 < M) (hn : n < 2 * M) (ls : List Step) (s : State)
    (h : run M n 1 {} ls = some s) : ¬ ConsumerStuck s ∧ ¬ ProducerStuck M 1 s := by
  have hi := run_inv M n hM hn ls s h
  constructor
  · rintro ⟨h1, -, h3, h4⟩; exact hi.awake h3 h4 h1
  · rintro ⟨h1, -, -, h4, h5⟩
    have := hi.space h4
    rw [h1, List.length_nil] at this
    omega

/-- C29, progress: while the consumer sleeps at most `pw` more items can enter before it is woken, where `pw` is
the number of sleeping producers. So with `C29_partial` it is woken after finitely many steps of ready
producers. -/
theorem C29_woken (M n : Nat) (hM : 0 < M) (hn : n < 2 * M) (ls : List Step) (s : State)
    (h : run M n 1 {} ls = some s) : ∀ (ms : List Step) (s' : State), run M n 1 s ms = some s' →
    (∀ k t, run M n 1 s (ms.take k) = some t → t.cw > 0) → s'.queue.length ≤ s.queue.length + s.pw.length := by
  have key : ∀ (ms : List Step) (s s' : State), Inv M n s → run M n 1 s ms = some s' →
      (∀ k t, run M n 1 s (ms.take k) = some t → t.cw > 0) →
      s'.queue.length + s'.pw.length ≤ s.queue.length + s.pw.length := by
    intro ms
    induction ms with
    | nil => intro s s' _ hr _; cases hr; exact Nat.le_refl _
    | cons l ms ih =>
      intro s s' hi hr hk
      obtain ⟨t, ht, hr⟩ := Option.bind_eq_some_iff.1 hr
      have hct : t.cw > 0 := hk 1 t (by simp only [List.take_succ_cons, List.take_zero, run, ht, Option.bind_some])
      have hcs : s.cw > 0 := hk 0 s rfl
      have hit := step_inv M n hM hn s t l hi ht
      have hrest := ih t s' hit hr (fun k u hu => hk (k + 1) u (by
        simp only [List.take_succ_cons, run, ht, Option.bind_some]; exact hu))
      refine Nat.le_trans hrest ?_
      have h1 := hi.one
      have hsl := hi.sleep hcs
      cases l with
      | callAdd a =>
        simp only [step] at ht
        split at ht
        · cases ht; exact Nat.le_refl _
        · cases ht
      | callRemove =>
        simp only [step] at ht
        split at ht
        · omega
        · cases ht
      | producer i w =>
        simp only [step] at ht
        cases ha : s.pr[i]? with
        | none => rw [ha] at ht; cases ht
        | some a =>
          rw [ha] at ht
          simp only [enterAdd] at ht
          split at ht
          · rename_i hc; omega
          · rcases signal_cases _ t w ht with ⟨rfl, hw, hc⟩ | ⟨j, b, hb, rfl⟩ | ⟨hc, rfl⟩
            · simp only at hc; omega
            · have hlb := length_erase hb
              simp only at hlb
              simp only [List.length_append, List.length_singleton]; omega
            · simp only at hct; omega
      | consumer w =>
        simp only [step] at ht
        split at ht
        · omega
        · cases ht
      | spuriousP i =>
        simp only [step] at ht
        cases ha : s.pw[i]? with
        | none => rw [ha] at ht; cases ht
        | some a =>
          rw [ha] at ht; cases ht
          have hlb := length_erase ha
          simp only; omega
      | spuriousC =>
        simp only [step] at ht
        split at ht
        · cases ht; simp only at hct; omega
        · omega
  intro ms s' hr hk
  have := key ms s s' (run_inv M n hM hn ls s h) hr hk
  omega

/-! With 16 producers the queue can hang. -/

/-- Eight items enter, 16 producers go to sleep on the full queue; the consumer takes the eight items, waking
eight producers, and goes to sleep; each of these adds an item and wakes another producer; these find the queue
full and sleep again. -/
def hang : List Step :=
  (List.range 8).flatMap (fun i => [Step.callAdd ⟨i, false⟩, .producer 0 .nobody]) ++
  (List.range 16).flatMap (fun i => [Step.callAdd ⟨8 + i, false⟩, .producer 0 .nobody]) ++
  (List.range 8).flatMap (fun _ => [Step.callRemove, .consumer (.producer 0)]) ++
  [Step.callRemove, .consumer .nobody] ++
  (List.range 8).map (fun _ => Step.producer 0 (.producer 0)) ++
  (List.range 8).map (fun _ => Step.producer 0 .nobody)

theorem hang_state : (run maxQueueSize 16 1 {} hang).map (fun s => (s.pr, s.cr, s.cw, s.queue)) =
    some ([], 0, 1, [8, 9, 10, 11, 12, 13, 14, 15]) := by
  decide +kernel

/-- C29 is false of the code: with 16 producers the consumer sleeps on a full queue and all other threads wait
for it, because `signal` may wake a producer when the consumer is meant. -/
theorem C29_violated : ¬ C29_statement := by
  intro h
  have hs := hang_state
  cases hr : run maxQueueSize 16 1 {} hang with
  | none => rw [hr] at hs; cases hs
  | some s =>
    rw [hr] at hs
    simp only [Option.map_some, Option.some.injEq, Prod.mk.injEq] at hs
    obtain ⟨h1, h2, h3, h4⟩ := hs
    exact (h 16 hang s hr).1 ⟨h1, h2, by omega, by rw [h4]; simp⟩

/-- The hang is permanent: no step except spurious wake-ups, more producers (which sleep too) or adding beyond
the limit. -/
theorem C29_hang_permanent (M n : Nat) (s s' : State) (l : Step)
    (hs : s.pr = [] ∧ s.cr = 0 ∧ s.cw = 1 ∧ s.queue.length ≥ M)
    (hl : (∀ a, l = .callAdd a → False) ∧ (∀ i, l ≠ .spuriousP i) ∧ l ≠ .spuriousC) :
    step M n 1 s l = some s' → False := by
  obtain ⟨h1, h2, h3, h4⟩ := hs
  intro h
  cases l with
  | callAdd a => exact hl.1 a rfl
  | callRemove => simp [step, h2, h3] at h
  | producer i w => simp [step, h1] at h
  | consumer w => simp [step, h2] at h
  | spuriousP i => exact hl.2.1 i rfl
  | spuriousC => exact hl.2.2 rfl

/-- Non-vacuity of `C28` and `C29_partial`: producers sleep on a full queue of limit 2, one adds ignoring the
limit, the consumer wakes one of them. -/
example : (run 2 3 1 {} [.callAdd ⟨1, false⟩, .producer 0 .nobody, .callAdd ⟨2, false⟩, .producer 0 .nobody,
      .callAdd ⟨3, false⟩, .producer 0 .nobody, .callAdd ⟨4, false⟩, .producer 0 .nobody, .callAdd ⟨5, true⟩,
      .producer 0 (.producer 1), .callRemove, .consumer (.producer 0)]).map
    (fun s => (s.popped, s.queue, s.pr, s.pw, s.ignored)) = some ([1], [2, 5], [⟨4, false⟩, ⟨3, false⟩], [], 1) := by
  decide +kernel

end Verif.WorkQueue
