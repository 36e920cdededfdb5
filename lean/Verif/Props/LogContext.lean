import Verif.Model.LogContext

/-
C199: A line of the log tells the host, the program and the thread from which it comes.
-/
namespace Verif.LogContext
open Verif.Ipc (Str)

theorem rchr_none (c : Char) (l : Str) : rchr c l = none ↔ c ∉ l := by
  induction l with
  | nil => simp [rchr]
  | cons x l ih =>
    simp only [rchr]
    cases h : rchr c l with
    | some r =>
      have : c ∈ l := by
        apply Classical.byContradiction
        intro hc
        rw [ih.2 hc] at h
        cases h
      simp [this]
    | none =>
      have := ih.1 h
      by_cases hx : x = c
      · simp [hx]
      · simp [this, hx, Ne.symm hx]

theorem rchr_some (c : Char) (l r : Str) (h : rchr c l = some r) : ∃ d f, l = d ++ c :: f ∧ r = c :: f ∧ c ∉ f := by
  induction l with
  | nil => simp [rchr] at h
  | cons x l ih =>
    simp only [rchr] at h
    cases hl : rchr c l with
    | some r' =>
      rw [hl] at h
      cases h
      obtain ⟨d, f, a, b, e⟩ := ih hl
      exact ⟨x :: d, f, by rw [a]; rfl, b, e⟩
    | none =>
      rw [hl] at h
      simp only at h
      split at h
      · next hx =>
        subst hx
        cases h
        exact ⟨[], l, rfl, rfl, (rchr_none _ _).1 hl⟩
      · cases h

/-- The name of a program is the last component of its path, for every path. -/
theorem C199_app (path : Str) : '/' ∉ app path ∧ (path = app path ∨ ∃ d, path = d ++ '/' :: app path) := by
  unfold app
  cases h : rchr '/' path with
  | none => exact ⟨(rchr_none _ _).1 h, Or.inl rfl⟩
  | some r =>
    obtain ⟨d, f, a, b, e⟩ := rchr_some _ _ _ h
    subst b
    exact ⟨e, Or.inr ⟨d, a⟩⟩

/-- The name of a host is complete exactly if it has less than 64 characters; Linux allows 64. -/
theorem C199_host (name : Str) : host name = name ↔ name.length ≤ 63 := by
  unfold host
  constructor
  · intro h
    have := congrArg List.length h
    rw [List.length_take] at this
    omega
  · intro h
    exact List.take_of_length_le h

/-- What is true of every process: all threads have the name of the first one, and so have their contexts and the lines of the log. -/
structure Good (e : Env) (p : Proc) : Prop where
  names : ∀ t ∈ p.threads, t.name = e.comm
  ctxs : ∀ t ∈ p.threads, ∀ c, t.ctx = some c → c = ⟨host e.hostname, e.pid, app e.path, e.comm, e.user⟩
  lines : ∀ x ∈ p.log, ∀ c, x.2 = some c → c = ⟨host e.hostname, e.pid, app e.path, e.comm, e.user⟩

theorem step_good (e : Env) (p : Proc) (o : Op) (h : Good e p) : Good e (step e p o) := by
  cases o with
  | spawn i =>
    simp only [step]
    split
    · exact h
    · next t ht =>
      have hm := List.mem_of_getElem? ht
      refine ⟨fun s hs => ?_, fun s hs c hc => ?_, h.lines⟩
      · rcases List.mem_append.1 hs with hs | hs
        · exact h.names s hs
        · rw [List.mem_singleton.1 hs]; exact h.names t hm
      · rcases List.mem_append.1 hs with hs | hs
        · exact h.ctxs s hs c hc
        · rw [List.mem_singleton.1 hs] at hc; cases hc
  | configure i =>
    simp only [step]
    split
    · exact h
    · next t ht =>
      have hm := List.mem_of_getElem? ht
      refine ⟨fun s hs => ?_, fun s hs c hc => ?_, h.lines⟩
      · rcases List.mem_or_eq_of_mem_set hs with hs | hs
        · exact h.names s hs
        · rw [hs]; exact h.names t hm
      · rcases List.mem_or_eq_of_mem_set hs with hs | hs
        · exact h.ctxs s hs c hc
        · rw [hs] at hc
          cases hc
          have hu : user e t.ctx = e.user := by
            unfold user
            cases hu : e.user with
            | some u => rfl
            | none =>
              cases hx : t.ctx with
              | none => rfl
              | some c =>
                rw [h.ctxs t hm c hx]
                exact hu
          rw [h.names t hm, hu]
  | write i =>
    simp only [step]
    split
    · exact h
    · next t ht =>
      have hm := List.mem_of_getElem? ht
      refine ⟨h.names, h.ctxs, fun x hx c hc => ?_⟩
      rcases List.mem_append.1 hx with hx | hx
      · exact h.lines x hx c hc
      · rw [List.mem_singleton.1 hx] at hc
        exact h.ctxs t hm c hc

theorem run_good (e : Env) (ops : List Op) : Good e (run e ops) := by
  suffices ∀ p, Good e p → Good e (ops.foldl (step e) p) from
    this _ ⟨fun t ht => (by rw [List.mem_singleton.1 ht]), fun t ht c hc => (by rw [List.mem_singleton.1 ht] at hc; cases hc), fun x hx => (by cases hx)⟩
  induction ops with
  | nil => intro p h; exact h
  | cons o ops ih => intro p h; exact ih _ (step_good e p o h)

/-- The full statement: every line has the host, the process, the program and the user, and lines of different threads
differ in the name of the thread. -/
def C199_statement : Prop := ∀ (e : Env) (ops : List Op), ∀ x ∈ (run e ops).log,
  (∃ c, x.2 = some c ∧ c.host = e.hostname ∧ c.pid = e.pid ∧ c.user = e.user) ∧
  ∀ y ∈ (run e ops).log, x.1 ≠ y.1 → x.2.map Ctx.thread ≠ y.2.map Ctx.thread

/-- Some process. -/
def some1 : Env := ⟨"pc1".toList, 4711, "/opt/bin/frameReceiver".toList, "frameReceiver".toList, some "det".toList⟩

theorem C199_violated : ¬ C199_statement := by
  intro h
  have := (h some1 [.configure 0, .spawn 0, .configure 1, .write 0, .write 1] (0, some ⟨some1.hostname, 4711, "frameReceiver".toList, some1.comm, some1.user⟩)
    (by decide +kernel)).2 (1, some ⟨some1.hostname, 4711, "frameReceiver".toList, some1.comm, some1.user⟩) (by decide +kernel) (by decide)
  exact this rfl

/-- In general: the name of the thread is the same in all lines of a process that have a context, whatever its threads do. -/
theorem C199_thread (e : Env) (ops : List Op) (x : Nat × Option Ctx) (hx : x ∈ (run e ops).log) (c : Ctx) (hc : x.2 = some c) : c.thread = e.comm := by
  rw [(run_good e ops).lines x hx c hc]

theorem keeps (e : Env) (i : Nat) : ∀ (ops : List Op) (p : Proc), (∃ t, p.threads[i]? = some t ∧ t.ctx ≠ none) →
    ∃ t, (ops.foldl (step e) p).threads[i]? = some t ∧ t.ctx ≠ none := by
  intro ops
  induction ops with
  | nil => intro p h; exact h
  | cons o ops ih =>
    intro p ⟨t, ht, hc⟩
    refine ih _ ?_
    cases o with
    | spawn j =>
      simp only [step]
      split
      · exact ⟨t, ht, hc⟩
      · refine ⟨t, ?_, hc⟩
        have hi := (List.getElem?_eq_some_iff.1 ht).1
        show (p.threads ++ _)[i]? = some t
        rw [List.getElem?_append_left hi]
        exact ht
    | configure j =>
      simp only [step]
      split
      · exact ⟨t, ht, hc⟩
      · next s hs =>
        by_cases hj : j = i
        · subst hj
          refine ⟨configured e s, ?_, by simp [configured]⟩
          show (p.threads.set j _)[j]? = _
          rw [List.getElem?_set_self (List.getElem?_eq_some_iff.1 ht).1]
        · refine ⟨t, ?_, hc⟩
          show (p.threads.set j _)[i]? = _
          rw [List.getElem?_set_ne hj]
          exact ht
    | write j =>
      simp only [step]
      split
      · exact ⟨t, ht, hc⟩
      · exact ⟨t, ht, hc⟩

/-- Proved part: what a thread writes after `configure_logging_mdc`, whatever happens before, between and in other threads, has the name of the host if
this is shorter than 64 characters, the number of the process, the last component of the path of the program, and the user. -/
theorem C199_partial (e : Env) (before between : List Op) (i : Nat) (t : Thread) (ht : (run e before).threads[i]? = some t) (hh : e.hostname.length ≤ 63) :
    ∃ l, (run e (before ++ .configure i :: between ++ [.write i])).log = l ++ [(i, some ⟨e.hostname, e.pid, app e.path, e.comm, e.user⟩)] := by
  have hg := run_good e (before ++ .configure i :: between)
  have h1 : ∃ s, (run e (before ++ .configure i :: between)).threads[i]? = some s ∧ s.ctx ≠ none := by
    unfold run at *
    rw [List.foldl_append, List.foldl_cons]
    refine keeps e i between _ ⟨configured e t, ?_, by simp [configured]⟩
    simp only [step, ht]
    rw [List.getElem?_set_self (List.getElem?_eq_some_iff.1 ht).1]
  obtain ⟨s, hs, hc⟩ := h1
  have hw : run e (before ++ .configure i :: between ++ [.write i]) = step e (run e (before ++ .configure i :: between)) (.write i) := by
    unfold run
    rw [List.foldl_append]
    rfl
  rw [hw]
  simp only [step, hs]
  refine ⟨(run e (before ++ .configure i :: between)).log, ?_⟩
  cases hx : s.ctx with
  | none => exact absurd hx hc
  | some c =>
    rw [hg.ctxs s (List.mem_of_getElem? hs) c hx, (C199_host _).2 hh]

/-- The first line of the thread of the receiver has no context, from level 1 of debugging on; that of the thread of the processor has one. -/
theorem C199_before (e : Env) (debug : Nat) (h : 1 ≤ debug) : (run e ([.configure 0, .spawn 0] ++ runService 1 debug)).log = [(1, none)] ∧
    (run e ([.configure 0, .spawn 0] ++ runIpcService 1 debug)).log = [(1, some ⟨host e.hostname, e.pid, app e.path, e.comm, e.user⟩)] := by
  unfold runService runIpcService
  rw [if_pos h]
  constructor
  · rfl
  · simp only [run, List.foldl, step, List.cons_append, List.nil_append, List.getElem?_cons_zero, List.set_cons_zero, List.getElem?_cons_succ, List.set_cons_succ,
      configured, user, Option.bind]
    cases e.user <;> rfl

/-- Without a call of `configure_logging_mdc`, as in the simulator, no line has a context. -/
theorem C199_never (e : Env) (ops : List Op) (h : ∀ i, Op.configure i ∉ ops) : ∀ x ∈ (run e ops).log, x.2 = none := by
  suffices ∀ p : Proc, (∀ t ∈ p.threads, t.ctx = none) → (∀ x ∈ p.log, x.2 = none) → ∀ x ∈ (ops.foldl (step e) p).log, x.2 = none from
    this _ (fun t ht => (by rw [List.mem_singleton.1 ht])) (fun x hx => (by cases hx))
  induction ops with
  | nil => intro p _ hl; exact hl
  | cons o ops ih =>
    intro p ht hl
    have hr : ∀ i, Op.configure i ∉ ops := fun i hi => h i (List.mem_cons_of_mem _ hi)
    cases o with
    | configure i => exact absurd (List.mem_cons_self ..) (h i)
    | spawn i =>
      rw [List.foldl_cons]
      simp only [step]
      split
      · exact ih hr p ht hl
      · refine ih hr _ (fun t hx => ?_) hl
        rcases List.mem_append.1 hx with hx | hx
        · exact ht t hx
        · rw [List.mem_singleton.1 hx]
    | write i =>
      rw [List.foldl_cons]
      simp only [step]
      split
      · exact ih hr p ht hl
      · next t e1 =>
        refine ih hr _ ht fun x hx => ?_
        rcases List.mem_append.1 hx with hx | hx
        · exact hl x hx
        · rw [List.mem_singleton.1 hx]; exact ht t (List.mem_of_getElem? e1)

/-- The constructor of the processor's controller and the thread that it has made (FrameProcessorController.cpp:62, 71, 1023) ask for
the user at the same time: one of their orders is a race. One after the other is none, whatever the number of threads. -/
theorem C199_race : races [] [.call 0, .call 1, .use 1, .use 0] = true ∧
    ∀ l : List Nat, races [] (l.flatMap fun i => [.call i, .use i]) = false := by
  refine ⟨by decide, fun l => ?_⟩
  induction l with
  | nil => rfl
  | cons i l ih => simpa [races] using ih

/-! Concrete cases: a path without a directory, with one; the name of a host with 64 characters. -/

example : app "frameReceiver".toList = "frameReceiver".toList ∧ app "/opt/odin/bin/frameProcessor".toList = "frameProcessor".toList ∧ app "bin/".toList = [] := by decide +kernel
example : (host (List.replicate 64 'a')).length = 63 ∧ host "pc1".toList = "pc1".toList := by decide +kernel
example : (run some1 [.configure 0, .spawn 0, .write 1, .spawn 1, .configure 2, .write 2]).log =
    [(1, none), (2, some ⟨"pc1".toList, 4711, "frameReceiver".toList, "frameReceiver".toList, some "det".toList⟩)] := by decide +kernel
example : (run some1 [.spawn 0]).threads[1]? = some ⟨"frameReceiver".toList, none⟩ := by decide +kernel

end Verif.LogContext
