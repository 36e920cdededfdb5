import Verif.Model.Locking
/-
C138: what a plugin works with is not changed meanwhile.
-/
namespace Verif.Locking

/-! ## Specification -/

/-- Two sections use a member at the same time, and one of them changes it. -/
def Conflict (g g' : Sec) (f : Field) : Prop :=
  (f ∈ g.writes ∧ (f ∈ g'.writes ∨ f ∈ g'.reads)) ∨ (f ∈ g.reads ∧ f ∈ g'.writes)

instance (g g' : Sec) (f : Field) : Decidable (Conflict g g' f) := inferInstanceAs (Decidable (_ ∨ _))

/-- Two threads are in two methods of plugin `p` at once, and one of them changes member `f` which the other one uses. -/
def RaceOf (s : State) (p : Nat) (m m' : Meth) (f : Field) : Prop :=
  ∃ t t' c c', t ≠ t' ∧ c ∈ s t ∧ c' ∈ s t' ∧ c.plugin = p ∧ c'.plugin = p ∧ c.meth = m ∧ c'.meth = m' ∧
    Conflict c.cur c'.cur f

def Race (s : State) (p : Nat) (f : Field) : Prop := ∃ m m', RaceOf s p m m' f

/-- Whatever plugins there are and however they are connected: no member is changed while another thread uses it. -/
def C138_statement : Prop := ∀ y s, Reach y s → ∀ p f, ¬ Race s p f

/-! ## What the tables say -/

/-- Two methods can run at once: control messages are handled by one thread, and so is the timeout of a file writer. -/
def Meet (m m' : Meth) : Prop := ¬ (m.control = true ∧ m'.control = true) ∧ ¬ (m = .timer ∧ m' = .timer)

instance (m m' : Meth) : Decidable (Meet m m') := inferInstanceAs (Decidable (_ ∧ _))

/-- No mutex is held in both sections. -/
def Apart (g g' : Sec) : Prop := ∀ k ∈ g.locks, k ∉ g'.locks

instance (g g' : Sec) : Decidable (Apart g g') := inferInstanceAs (Decidable (∀ k ∈ g.locks, k ∉ g'.locks))

/-- Two methods that can run at once have sections that use `f`, one changing it, without a mutex in common. -/
def Unprotected (k : Kind) (m m' : Meth) (f : Field) : Prop :=
  Meet m m' ∧ ∃ g ∈ body k m, ∃ g' ∈ body k m', Conflict g g' f ∧ Apart g g'

instance (k m m' f) : Decidable (Unprotected k m m' f) := inferInstanceAs (Decidable (_ ∧ _))

def fields : List Field :=
  [.callbacks, .duration, .errors, .writing, .current, .next, .defs, .geom, .naming, .options, .master,
   .period, .active, .calls, .errorDef, .bound, .datasets, .tags, .rate, .freq, .last, .socket, .addr, .layout, .offset,
   .adjust, .inputs, .image, .lost, .commanded, .settings, .acq, .servers, .topicName, .topic, .producer, .partition,
   .dataset, .include, .sent, .dropped, .ack]

theorem mem_kinds (k : Kind) : k ∈ kinds := by cases k <;> decide
theorem mem_meths (m : Meth) : m ∈ meths := by cases m <;> decide
theorem mem_fields (f : Field) : f ∈ fields := by cases f <;> decide

/-- The races of the code, by plugin: two methods and the members concerned. -/
def races : Kind → List (Meth × Meth × List Field)
  | .fileWriter =>
    [(.frame, .frame, [.duration]),
     (.frame, .eoa, [.writing, .current, .next, .active, .calls]),
     (.frame, .request, [.next]),
     (.frame, .status, [.duration, .writing, .current, .active, .calls]),
     (.frame, .execute, [.writing, .current, .next, .calls]),
     (.frame, .reset, [.duration, .calls]),
     (.frame, .connect, [.callbacks]),
     (.frame, .timer, [.active]),
     (.eoa, .eoa, [.writing, .current, .next, .active, .calls]),
     (.eoa, .configure, [.writing, .next, .defs, .geom, .naming, .options, .master, .active, .errorDef]),
     (.eoa, .request, [.next]),
     (.eoa, .status, [.writing, .current, .active, .calls]),
     (.eoa, .execute, [.writing, .current, .next, .calls]),
     (.eoa, .reset, [.calls]),
     (.eoa, .connect, [.callbacks]),
     (.eoa, .timer, [.writing, .current, .next, .active, .calls]),
     (.configure, .timer, [.period, .active]),
     (.request, .timer, [.next]),
     (.status, .timer, [.writing, .current, .active, .calls]),
     (.execute, .timer, [.writing, .current, .next, .calls]),
     (.reset, .timer, [.calls])]
  | .liveView =>
    [(.frame, .frame, [.duration, .datasets, .last, .socket]),
     (.frame, .configure, [.bound, .datasets, .tags, .rate, .freq, .socket, .addr]),
     (.frame, .status, [.duration]), (.frame, .reset, [.duration]),
     (.frame, .connect, [.callbacks]), (.eoa, .connect, [.callbacks])]
  | .gapFill =>
    [(.frame, .frame, [.duration]), (.frame, .configure, [.layout]),
     (.frame, .status, [.duration]), (.frame, .reset, [.duration]),
     (.frame, .connect, [.callbacks]), (.eoa, .connect, [.callbacks])]
  | .offset =>
    [(.frame, .frame, [.duration]), (.frame, .configure, [.offset]),
     (.frame, .status, [.duration]), (.frame, .reset, [.duration]),
     (.frame, .connect, [.callbacks]), (.eoa, .connect, [.callbacks])]
  | .param =>
    [(.frame, .frame, [.duration]), (.frame, .configure, [.adjust, .inputs]),
     (.frame, .status, [.duration]), (.frame, .reset, [.duration]),
     (.frame, .connect, [.callbacks]), (.eoa, .connect, [.callbacks])]
  | .sum =>
    [(.frame, .frame, [.duration]), (.frame, .status, [.duration]), (.frame, .reset, [.duration]),
     (.frame, .connect, [.callbacks]), (.eoa, .connect, [.callbacks])]
  | .dummy =>
    [(.frame, .frame, [.duration, .lost]), (.frame, .configure, [.image]),
     (.frame, .status, [.duration, .lost]), (.frame, .reset, [.duration, .lost]),
     (.frame, .connect, [.callbacks]), (.eoa, .connect, [.callbacks])]
  | .blosc =>
    [(.frame, .frame, [.duration]), (.frame, .status, [.duration, .settings]), (.frame, .reset, [.duration]),
     (.frame, .connect, [.callbacks]), (.eoa, .connect, [.callbacks])]
  | .kafka =>
    [(.frame, .frame, [.duration]), (.frame, .configure, [.topic, .dataset]),
     (.frame, .status, [.duration, .sent, .dropped, .ack]), (.frame, .reset, [.duration, .sent, .dropped, .ack]),
     (.frame, .connect, [.callbacks]), (.eoa, .connect, [.callbacks])]

/-- The race of two methods on a member is one of the list. -/
def Listed (k : Kind) (m m' : Meth) (f : Field) : Prop :=
  ∃ e ∈ races k, ((e.1 = m ∧ e.2.1 = m') ∨ (e.1 = m' ∧ e.2.1 = m)) ∧ f ∈ e.2.2

instance (k m m' f) : Decidable (Listed k m m' f) :=
  inferInstanceAs (Decidable (∃ e ∈ races k, ((e.1 = m ∧ e.2.1 = m') ∨ (e.1 = m' ∧ e.2.1 = m)) ∧ f ∈ e.2.2))

/-- The entry of the list for two methods. -/
def entry (k : Kind) (m m' : Meth) : List Field :=
  (races k).flatMap fun e => if (e.1 = m ∧ e.2.1 = m') ∨ (e.1 = m' ∧ e.2.1 = m) then e.2.2 else []

theorem entry_listed (k : Kind) (m m' : Meth) (f : Field) (h : f ∈ entry k m m') : Listed k m m' f := by
  obtain ⟨e, he, hf⟩ := List.mem_flatMap.mp h
  split at hf
  · next hc => exact ⟨e, he, hc, hf⟩
  · cases hf

/-- The members two sections use, one of them changing them. -/
def common (g g' : Sec) : List Field :=
  g.writes.filter (fun f => f ∈ g'.writes ++ g'.reads) ++ g.reads.filter (fun f => f ∈ g'.writes)

theorem common_iff (g g' : Sec) (f : Field) : f ∈ common g g' ↔ Conflict g g' f := by
  simp [common, Conflict]

def checkTable (k : Kind) : Bool :=
  meths.all fun m => meths.all fun m' => !decide (Meet m m') ||
    (body k m).all fun g => (body k m').all fun g' => !decide (Apart g g') ||
      (common g g').all fun f => decide (f ∈ entry k m m')

theorem table_ok : ∀ k, checkTable k = true := by
  intro k
  cases k <;> decide +kernel

theorem sound_table (k : Kind) (m m' : Meth) (f : Field) (h : Unprotected k m m' f) : Listed k m m' f := by
  obtain ⟨hm, g, hg, g', hg', hc, ha⟩ := h
  have h := table_ok k
  simp only [checkTable, List.all_eq_true, Bool.or_eq_true, Bool.not_eq_true', decide_eq_false_iff_not, decide_eq_true_eq] at h
  have h1 := (h m (mem_meths m) m' (mem_meths m')).resolve_left (fun h => h hm)
  have h2 := (h1 g hg g' hg').resolve_left (fun h => h ha)
  exact entry_listed k m m' f (h2 f ((common_iff g g' f).mpr hc))

theorem complete_table (k : Kind) : ∀ e ∈ races k, ∀ f ∈ e.2.2, Unprotected k e.1 e.2.1 f := by
  cases k <;> decide +kernel

theorem unprotected_symm (k : Kind) (m m' : Meth) (f : Field) (h : Unprotected k m m' f) : Unprotected k m' m f := by
  obtain ⟨hm, g, hg, g', hg', hc, ha⟩ := h
  refine ⟨⟨fun h => hm.1 ⟨h.2, h.1⟩, fun h => hm.2 ⟨h.2, h.1⟩⟩, g', hg', g, hg, ?_, fun k h1 h2 => ha k h2 h1⟩
  rcases hc with ⟨h, h' | h'⟩ | ⟨h, h'⟩
  · exact Or.inl ⟨h', Or.inl h⟩
  · exact Or.inr ⟨h', h⟩
  · exact Or.inl ⟨h', Or.inr h⟩

theorem listed (k : Kind) (m m' : Meth) (f : Field) : Unprotected k m m' f ↔ Listed k m m' f := by
  constructor
  · exact sound_table k m m' f
  · rintro ⟨e, he, ⟨h1, h2⟩ | ⟨h1, h2⟩, hf⟩
    · subst h1 h2; exact complete_table k e he f hf
    · subst h1 h2; exact unprotected_symm _ _ _ _ (complete_table k e he f hf)

/-- Only `callback` calls other plugins. -/
theorem push_table : ∀ k ∈ kinds, ∀ m ∈ meths, ∀ g ∈ body k m, g.push = true → m.data = true := by decide +kernel

theorem push_data (k : Kind) (m : Meth) (g : Sec) (hg : g ∈ body k m) (hp : g.push = true) : m.data = true :=
  push_table k (mem_kinds k) m (mem_meths m) g hg hp

/-! ## Invariant -/

/-- Which thread a call is of. -/
def Caller (y : Sys) (t : Thread) (c : Call) : Prop :=
  (c.meth.control = true ∧ t = .control)
  ∨ (c.meth.data = true ∧ (∃ q, t = .worker q) ∧ (t = .worker c.plugin ∨ ∃ q, y.blocking q c.plugin))
  ∨ (c.meth = .timer ∧ t = .timer c.plugin)
  ∨ (c.meth = .warn ∧ ∃ i, t = .watchdog c.plugin i)

structure Inv (y : Sys) (s : State) : Prop where
  excl : ∀ t t', t ≠ t' → ∀ c ∈ s t, ∀ c' ∈ s t', c.plugin = c'.plugin → Apart c.cur c'.cur
  src : ∀ t, ∀ c ∈ s t, ∃ pre, body (y.kind c.plugin) c.meth = pre ++ c.cur :: c.rest
  caller : ∀ t, ∀ c ∈ s t, Caller y t c

theorem set_same (s : State) (t : Thread) (l : List Call) : s.set t l t = l := by simp [State.set]

theorem set_other (s : State) (t t' : Thread) (l : List Call) (h : t' ≠ t) : s.set t l t' = s t' := by simp [State.set, h]

theorem set_set (s : State) (t : Thread) (l l' : List Call) : (s.set t l).set t l' = s.set t l' := by
  funext t'
  by_cases h : t' = t
  · subst h; simp [State.set]
  · simp [State.set, h]

theorem inv_set (y : Sys) (s : State) (hi : Inv y s) (t : Thread) (l : List Call)
    (hl : ∀ c ∈ l, c ∈ s t ∨ (Free s t c.plugin c.cur.locks ∧
      (∃ pre, body (y.kind c.plugin) c.meth = pre ++ c.cur :: c.rest) ∧ Caller y t c)) : Inv y (s.set t l) := by
  refine ⟨?_, ?_, ?_⟩
  · intro t1 t2 hne c hc c' hc' hp
    by_cases h1 : t1 = t
    · subst h1
      rw [set_same] at hc
      rw [set_other _ _ _ _ (Ne.symm hne)] at hc'
      rcases hl c hc with h | ⟨hf, -, -⟩
      · exact hi.excl _ _ hne c h c' hc' hp
      · intro k hk
        exact hf t2 (Ne.symm hne) c' hc' hp.symm k hk
    · rw [set_other _ _ _ _ h1] at hc
      by_cases h2 : t2 = t
      · subst h2
        rw [set_same] at hc'
        rcases hl c' hc' with h | ⟨hf, -, -⟩
        · exact hi.excl _ _ hne c hc c' h hp
        · intro k hk hk'
          exact hf t1 hne c hc hp k hk' hk
      · rw [set_other _ _ _ _ h2] at hc'
        exact hi.excl _ _ hne c hc c' hc' hp
  · intro t1 c hc
    by_cases h1 : t1 = t
    · subst h1
      rw [set_same] at hc
      rcases hl c hc with h | ⟨-, h, -⟩
      · exact hi.src _ c h
      · exact h
    · rw [set_other _ _ _ _ h1] at hc
      exact hi.src _ c hc
  · intro t1 c hc
    by_cases h1 : t1 = t
    · subst h1
      rw [set_same] at hc
      rcases hl c hc with h | ⟨-, -, h⟩
      · exact hi.caller _ c h
      · exact h
    · rw [set_other _ _ _ _ h1] at hc
      exact hi.caller _ c hc

theorem inv_step (y : Sys) (s s' : State) (hi : Inv y s) (h : Step y s s') : Inv y s' := by
  cases h with
  | @call t p m g gs ha hb hf =>
    refine inv_set y s hi t _ (fun c hc => ?_)
    rcases List.mem_cons.mp hc with h | h
    · subst h
      refine Or.inr ⟨hf, ⟨[], hb⟩, ?_⟩
      rcases ha with ⟨h1, h2, -⟩ | ⟨h1, h2, -⟩ | ⟨h1, c, l, h2, h3, h4⟩ | ⟨h1, h2, -⟩ | ⟨h1, h2, -⟩
      · exact Or.inl ⟨h1, h2⟩
      · exact Or.inr (Or.inl ⟨h1, ⟨p, h2⟩, Or.inl h2⟩)
      · have hc : c ∈ s t := by rw [h2]; exact List.mem_cons_self ..
        obtain ⟨pre, hs⟩ := hi.src t c hc
        have hd := push_data _ _ c.cur (by rw [hs]; simp) h3
        rcases hi.caller t c hc with ⟨h5, -⟩ | ⟨-, h5, -⟩ | ⟨h5, -⟩ | ⟨h5, -⟩
        · cases hm : c.meth <;> rw [hm] at hd h5 <;> simp [Meth.data, Meth.control] at hd h5
        · exact Or.inr (Or.inl ⟨h1, h5, Or.inr ⟨_, h4⟩⟩)
        · rw [h5] at hd; cases hd
        · rw [h5] at hd; cases hd
      · exact Or.inr (Or.inr (Or.inl ⟨h1, h2⟩))
      · exact Or.inr (Or.inr (Or.inr ⟨h1, h2⟩))
    · exact Or.inl h
  | @next t p m g g' gs l he hf =>
    refine inv_set y s hi t _ (fun c hc => ?_)
    have hc0 : (⟨p, m, g, g' :: gs⟩ : Call) ∈ s t := by rw [he]; exact List.mem_cons_self ..
    rcases List.mem_cons.mp hc with h | h
    · subst h
      obtain ⟨pre, hs⟩ := hi.src t _ hc0
      have hcl := hi.caller t _ hc0
      exact Or.inr ⟨hf, ⟨pre ++ [g], by rw [hs]; simp⟩, hcl⟩
    · exact Or.inl (by rw [he]; exact List.mem_cons_of_mem _ h)
  | @ret t p m g l he =>
    refine inv_set y s hi t _ (fun c hc => Or.inl (by rw [he]; exact List.mem_cons_of_mem _ hc))

theorem inv_reach (y : Sys) (s : State) (h : Reach y s) : Inv y s := by
  induction h with
  | init => exact ⟨fun t t' _ c hc => (by cases hc), fun t c hc => (by cases hc), fun t c hc => (by cases hc)⟩
  | step _ hs ih => exact inv_step y _ _ ih hs

/-- Threads that call two methods of a plugin are different only if the methods can run at once. -/
theorem meet_of (y : Sys) (t t' : Thread) (c c' : Call) (hne : t ≠ t') (hp : c.plugin = c'.plugin)
    (h : Caller y t c) (h' : Caller y t' c') : Meet c.meth c'.meth := by
  constructor
  · rintro ⟨h1, h2⟩
    have e : t = .control := by
      rcases h with ⟨-, h⟩ | ⟨hd, -⟩ | ⟨hm, -⟩ | ⟨hm, -⟩
      · exact h
      · cases hm : c.meth <;> rw [hm] at hd h1 <;> simp [Meth.data, Meth.control] at hd h1
      · rw [hm] at h1; cases h1
      · rw [hm] at h1; cases h1
    have e' : t' = .control := by
      rcases h' with ⟨-, h⟩ | ⟨hd, -⟩ | ⟨hm, -⟩ | ⟨hm, -⟩
      · exact h
      · cases hm : c'.meth <;> rw [hm] at hd h2 <;> simp [Meth.data, Meth.control] at hd h2
      · rw [hm] at h2; cases h2
      · rw [hm] at h2; cases h2
    exact hne (e.trans e'.symm)
  · rintro ⟨h1, h2⟩
    have e : t = .timer c.plugin := by
      rcases h with ⟨hm, -⟩ | ⟨hm, -⟩ | ⟨-, hm⟩ | ⟨hm, -⟩
      · rw [h1] at hm; cases hm
      · rw [h1] at hm; cases hm
      · exact hm
      · rw [h1] at hm; cases hm
    have e' : t' = .timer c'.plugin := by
      rcases h' with ⟨hm, -⟩ | ⟨hm, -⟩ | ⟨-, hm⟩ | ⟨hm, -⟩
      · rw [h2] at hm; cases hm
      · rw [h2] at hm; cases hm
      · exact hm
      · rw [h2] at hm; cases hm
    exact hne (e.trans (hp ▸ e'.symm))

/-- A race that occurs is one of the list. -/
theorem C138_listed (y : Sys) (s : State) (h : Reach y s) (p : Nat) (m m' : Meth) (f : Field) (hr : RaceOf s p m m' f) :
    Listed (y.kind p) m m' f := by
  have hi := inv_reach y s h
  obtain ⟨t, t', c, c', hne, hc, hc', hp, hp', hm, hm', hf⟩ := hr
  rw [← listed, ← hm, ← hm']
  obtain ⟨pre, hs⟩ := hi.src t c hc
  obtain ⟨pre', hs'⟩ := hi.src t' c' hc'
  rw [hp] at hs
  rw [hp'] at hs'
  exact ⟨meet_of y t t' c c' hne (hp.trans hp'.symm) (hi.caller t c hc) (hi.caller t' c' hc'),
    c.cur, by rw [hs]; simp, c'.cur, by rw [hs']; simp, hf, hi.excl t t' hne c hc c' hc' (hp.trans hp'.symm)⟩

/-! ## Every race of the list occurs -/

theorem free_set (s : State) (t : Thread) (l : List Call) (p : Nat) (ks : List Lock) (h : Free s t p ks) :
    Free (s.set t l) t p ks := by
  intro t' ht' c hc
  rw [set_other _ _ _ _ ht'] at hc
  exact h t' ht' c hc

/-- A thread goes from a section to a later one. -/
theorem walk (y : Sys) (s : State) (t : Thread) (p : Nat) (m : Meth) (l : List Call) (post : List Sec) :
    ∀ (pre : List Sec) (a g : Sec), Reach y (s.set t (⟨p, m, a, pre ++ g :: post⟩ :: l)) →
      (∀ x ∈ pre ++ [g], Free s t p x.locks) → Reach y (s.set t (⟨p, m, g, post⟩ :: l))
  | [], a, g, h, hf => by
    have h1 := Reach.step h (Step.next (set_same _ _ _) (free_set s t _ p _ (hf g (by simp))))
    rw [set_set] at h1
    exact h1
  | b :: pre, a, g, h, hf => by
    have h1 := Reach.step h (Step.next (set_same _ _ _) (free_set s t _ p _ (hf b (by simp))))
    rw [set_set] at h1
    exact walk y s t p m l post pre b g h1 (fun x hx => hf x (by simp at hx ⊢; exact Or.inr hx))

/-- A thread calls a method and goes to one of its sections. -/
theorem arrive (y : Sys) (s : State) (t : Thread) (p : Nat) (m : Meth) (pre post : List Sec) (g : Sec)
    (h : Reach y s) (ha : Allowed y s t p m) (hb : body (y.kind p) m = pre ++ g :: post)
    (hf : ∀ x ∈ pre ++ [g], Free s t p x.locks) : Reach y (s.set t (⟨p, m, g, post⟩ :: s t)) := by
  cases pre with
  | nil => exact Reach.step h (Step.call ha hb (hf g (by simp)))
  | cons a pre =>
    have h1 := Reach.step h (Step.call ha hb (hf a (by simp)))
    exact walk y s t p m (s t) post pre a g h1 (fun x hx => hf x (by simp at hx ⊢; exact Or.inr hx))

/-- Two threads, one after the other. -/
theorem both_arrive (y : Sys) (s : State) (t t' : Thread) (p : Nat) (m m' : Meth) (pre post pre' post' : List Sec) (g g' : Sec)
    (hne : t' ≠ t) (h : Reach y s) (ha : Allowed y s t p m) (ha' : Allowed y s t' p m')
    (hs : ∀ t, ∀ c ∈ s t, c.plugin ≠ p)
    (hb : body (y.kind p) m = pre ++ g :: post) (hb' : body (y.kind p) m' = pre' ++ g' :: post')
    (hf : ∀ x ∈ pre' ++ [g'], Apart x g) :
    ∃ s', Reach y s' ∧ (⟨p, m, g, post⟩ : Call) ∈ s' t ∧ (⟨p, m', g', post'⟩ : Call) ∈ s' t' := by
  have h1 := arrive y s t p m pre post g h ha hb (fun x _ t1 _ c hc hp => absurd hp (hs t1 c hc))
  have ha1 : Allowed y (s.set t (⟨p, m, g, post⟩ :: s t)) t' p m' := by
    simp only [Allowed, set_other _ _ _ _ hne]
    exact ha'
  have h2 := arrive y _ t' p m' pre' post' g' h1 ha1 hb' (fun x hx t1 ht1 c hc hp k hk => by
    by_cases e : t1 = t
    · subst e
      rw [set_same] at hc
      rcases List.mem_cons.mp hc with h | h
      · subst h; exact hf x hx k hk
      · exact absurd hp (hs _ c h)
    · rw [set_other _ _ _ _ e] at hc
      exact absurd hp (hs t1 c hc))
  refine ⟨_, h2, ?_, ?_⟩
  · rw [set_other _ _ _ _ (Ne.symm hne), set_same]; exact List.mem_cons_self ..
  · rw [set_same]; exact List.mem_cons_self ..

/-- Every way to cut a method at a section. -/
def cuts {α : Type} : List α → List (List α × α × List α)
  | [] => []
  | a :: l => ([], a, l) :: (cuts l).map fun x => (a :: x.1, x.2.1, x.2.2)

theorem cuts_eq {α : Type} (l : List α) (x : List α × α × List α) (h : x ∈ cuts l) : l = x.1 ++ x.2.1 :: x.2.2 := by
  induction l generalizing x with
  | nil => cases h
  | cons a l ih =>
    rcases List.mem_cons.mp h with h | h
    · subst h; rfl
    · obtain ⟨y, hy, e⟩ := List.mem_map.mp h
      subst e
      simp [← ih y hy]

theorem cuts_mem {α : Type} (l : List α) (g : α) (h : g ∈ l) : ∃ x ∈ cuts l, x.2.1 = g := by
  induction l with
  | nil => cases h
  | cons a l ih =>
    rcases List.mem_cons.mp h with h | h
    · subst h; exact ⟨_, List.mem_cons_self .., rfl⟩
    · obtain ⟨x, hx, e⟩ := ih h
      exact ⟨_, List.mem_cons_of_mem _ (List.mem_map_of_mem hx), e⟩

def checkOrder (k : Kind) : Bool :=
  meths.all fun m => meths.all fun m' => !decide (Meet m m') ||
    (cuts (body k m)).all fun x => (cuts (body k m')).all fun x' => !decide (Apart x.2.1 x'.2.1) ||
      ((x'.1 ++ [x'.2.1]).all fun z => decide (Apart z x.2.1)) || ((x.1 ++ [x.2.1]).all fun z => decide (Apart z x'.2.1))

theorem order_ok : ∀ k, checkOrder k = true := by
  intro k
  cases k <;> decide +kernel

/-- Two sections without a common mutex can be reached in one order or in the other. -/
theorem order_table (k : Kind) (m m' : Meth) (hm : Meet m m') (x x' : List Sec × Sec × List Sec)
    (hx : x ∈ cuts (body k m)) (hx' : x' ∈ cuts (body k m')) (ha : Apart x.2.1 x'.2.1) :
    (∀ z ∈ x'.1 ++ [x'.2.1], Apart z x.2.1) ∨ (∀ z ∈ x.1 ++ [x.2.1], Apart z x'.2.1) := by
  have h := order_ok k
  simp only [checkOrder, List.all_eq_true, Bool.or_eq_true, Bool.not_eq_true', decide_eq_false_iff_not, decide_eq_true_eq] at h
  have h1 := (h m (mem_meths m) m' (mem_meths m')).resolve_left (fun h => h hm) x hx x' hx'
  rcases h1 with (h1 | h1) | h1
  · exact absurd ha h1
  · exact Or.inl h1
  · exact Or.inr h1

/-- A plugin under test, and a second one that calls it. -/
def pair (k : Kind) : Sys := ⟨fun p => if p = 0 then k else .sum, fun q p => q = 1 ∧ p = 0⟩

/-- The thread that calls a method of plugin 0. -/
def first : Meth → Thread
  | .frame | .eoa => .worker 0
  | .timer => .timer 0
  | .warn => .watchdog 0 0
  | _ => .control

/-- Another one where there can be one. -/
def second : Meth → Thread
  | .frame | .eoa => .worker 1
  | .timer => .timer 0
  | .warn => .watchdog 0 1
  | _ => .control

/-- The second plugin is about to hand a frame to the first one. -/
def handing : State := State.set init (.worker 1) [⟨1, .frame, pushing [], [timed]⟩]

theorem handing_reach (k : Kind) : Reach (pair k) handing :=
  Reach.step .init (Step.call (Or.inr (Or.inl ⟨rfl, rfl, rfl⟩)) rfl (fun t _ c hc => by cases hc))

theorem handing_plugin : ∀ t, ∀ c ∈ handing t, c.plugin ≠ 0 := by
  intro t c hc
  by_cases h : t = .worker 1
  · subst h
    rw [handing, set_same] at hc
    rw [List.mem_singleton.mp hc]
    decide
  · rw [handing, set_other _ _ _ _ h] at hc
    cases hc

theorem first_allowed (k : Kind) (m : Meth) : Allowed (pair k) handing (first m) 0 m := by
  cases m <;> simp [Allowed, first, handing, State.set, init, Meth.control, Meth.data]

theorem second_allowed (k : Kind) (m : Meth) : Allowed (pair k) handing (second m) 0 m := by
  cases m <;> simp [Allowed, second, handing, State.set, init, Meth.control, Meth.data, pushing, pair]

theorem first_second (m m' : Meth) (h : Meet m m') : first m ≠ second m' := by
  cases m <;> cases m' <;> first | (simp [first, second]; done) | (exact absurd h (by decide))

/-- Every race of the list occurs, and no other one: whatever plugins are loaded and connected. -/
theorem C138_exact (k : Kind) (m m' : Meth) (f : Field) :
    (∃ y s p, Reach y s ∧ y.kind p = k ∧ RaceOf s p m m' f) ↔ Listed k m m' f := by
  constructor
  · rintro ⟨y, s, p, h, rfl, hr⟩
    exact C138_listed y s h p m m' f hr
  · intro h
    obtain ⟨hm, g, hg, g', hg', hc, ha⟩ := (listed k m m' f).mpr h
    obtain ⟨x, hx, rfl⟩ := cuts_mem _ g hg
    obtain ⟨x', hx', rfl⟩ := cuts_mem _ g' hg'
    have hne := first_second m m' hm
    rcases order_table k m m' hm x x' hx hx' ha with h1 | h1
    · obtain ⟨s, hs, h2, h3⟩ := both_arrive (pair k) handing (first m) (second m') 0 m m' x.1 x.2.2 x'.1 x'.2.2 x.2.1 x'.2.1
        (Ne.symm hne) (handing_reach k) (first_allowed k m) (second_allowed k m') handing_plugin
        (cuts_eq _ x hx) (cuts_eq _ x' hx') h1
      exact ⟨_, s, 0, hs, rfl, _, _, _, _, hne, h2, h3, rfl, rfl, rfl, rfl, hc⟩
    · obtain ⟨s, hs, h2, h3⟩ := both_arrive (pair k) handing (second m') (first m) 0 m' m x'.1 x'.2.2 x.1 x.2.2 x'.2.1 x.2.1
        hne (handing_reach k) (second_allowed k m') (first_allowed k m) handing_plugin
        (cuts_eq _ x' hx') (cuts_eq _ x hx) h1
      exact ⟨_, s, 0, hs, rfl, _, _, _, _, hne, h3, h2, rfl, rfl, rfl, rfl, hc⟩

/-! ## What follows -/

/-- The property does not hold: the command that stops a file writer changes its acquisition while a frame is written
into it (FileWriterPlugin.cpp:146-171, 975-998). -/
theorem C138_violated : ¬ C138_statement := by
  intro h
  obtain ⟨y, s, p, hr, -, hf⟩ := (C138_exact .fileWriter .frame .execute .current).mpr (by decide)
  exact h y s hr p .current ⟨_, _, hf⟩

/-- Members that are more than one word: containers, strings, pointers to something the plugin destroys. -/
def compound : Field → Bool
  | .callbacks | .errors | .current | .next | .defs | .naming | .master | .datasets | .tags | .socket | .addr | .layout
  | .adjust | .inputs | .acq | .servers | .topicName | .topic | .producer | .dataset => true
  | _ => false

/-- Every plugin has such a race with `connect`. -/
theorem C138_connect_violated (k : Kind) (m : Meth) (hm : m.data = true) :
    ∃ y s p, Reach y s ∧ y.kind p = k ∧ RaceOf s p m .connect .callbacks := by
  refine (C138_exact k m .connect .callbacks).mpr ?_
  cases m <;> first | (exact absurd hm (by decide)) | (cases k <;> decide)

theorem not_listed (y : Sys) (s : State) (h : Reach y s) (p : Nat) (m m' : Meth) (f : Field)
    (hn : ¬ Listed (y.kind p) m m' f) : ¬ RaceOf s p m m' f := fun hr => hn (C138_listed y s h p m m' f hr)

/-- The messages of a plugin are never changed while another thread uses them. -/
theorem C138_errors (y : Sys) (s : State) (h : Reach y s) (p : Nat) : ¬ Race s p .errors := by
  rintro ⟨m, m', hr⟩
  have hl := C138_listed y s h p m m' .errors hr
  obtain ⟨e, he, -, hf⟩ := hl
  have key : ∀ k, ∀ e ∈ races k, Field.errors ∉ e.2.2 := by intro k; cases k <;> decide
  exact key _ e he hf

/-- In the summing, offset, dummy and Blosc plugins no container, string or pointer other than the list of callbacks
is changed while another thread uses it. -/
theorem C138_intact (y : Sys) (s : State) (h : Reach y s) (p : Nat)
    (hk : y.kind p = .sum ∨ y.kind p = .offset ∨ y.kind p = .dummy ∨ y.kind p = .blosc)
    (f : Field) (hf : compound f = true) (hc : f ≠ .callbacks) : ¬ Race s p f := by
  rintro ⟨m, m', hr⟩
  obtain ⟨e, he, -, hm⟩ := C138_listed y s h p m m' f hr
  have key : ∀ k ∈ [Kind.sum, .offset, .dummy, .blosc], ∀ e ∈ races k, ∀ f ∈ e.2.2, compound f = true → f = .callbacks := by decide
  exact hc (key _ (by simpa using hk) e he f hm hf)

/-- A file writer, a Blosc plugin and a summing plugin are not configured while they process a frame. -/
theorem C138_configured (y : Sys) (s : State) (h : Reach y s) (p : Nat)
    (hk : y.kind p = .fileWriter ∨ y.kind p = .blosc ∨ y.kind p = .sum) (f : Field) : ¬ RaceOf s p .frame .configure f := by
  refine not_listed y s h p _ _ f ?_
  rintro ⟨e, he, hm, -⟩
  have key : ∀ k ∈ [Kind.fileWriter, .blosc, .sum], ∀ e ∈ races k,
      ¬ ((e.1 = .frame ∧ e.2.1 = .configure) ∨ (e.1 = .configure ∧ e.2.1 = .frame)) := by decide
  exact key _ (by simpa using hk) e he hm

/-- The other plugins may be. -/
theorem C138_configured_violated (k : Kind) (hk : k ≠ .fileWriter ∧ k ≠ .blosc ∧ k ≠ .sum) :
    ∃ f y s p, Reach y s ∧ y.kind p = k ∧ RaceOf s p .frame .configure f := by
  have key : ∃ f, Listed k .frame .configure f := by
    obtain ⟨h1, h2, h3⟩ := hk
    cases k
    · exact absurd rfl h1
    · exact ⟨.socket, by decide⟩
    · exact ⟨.layout, by decide⟩
    · exact ⟨.offset, by decide⟩
    · exact ⟨.adjust, by decide⟩
    · exact absurd rfl h3
    · exact ⟨.image, by decide⟩
    · exact absurd rfl h2
    · exact ⟨.topic, by decide⟩
  obtain ⟨f, hf⟩ := key
  exact ⟨f, (C138_exact k _ _ f).mpr hf⟩

/-- Control messages are handled when nothing else is under way. -/
def Quiet (s : State) : Prop := s .control ≠ [] → ∀ t, t ≠ .control → s t = []

theorem caller_cases (y : Sys) (s : State) (h : Reach y s) (hq : Quiet s) (p : Nat) (hb : ∀ q, ¬ y.blocking q p)
    (t t' : Thread) (hne : t ≠ t') (c c' : Call) (hc : c ∈ s t) (hc' : c' ∈ s t') (hp : c.plugin = p) (hp' : c'.plugin = p) :
    c.meth = .timer ∨ c.meth = .warn ∨ c'.meth = .timer ∨ c'.meth = .warn := by
  have hi := inv_reach y s h
  have nq : ∀ {a b : Thread} {x z : Call}, a ≠ b → x ∈ s a → z ∈ s b → a = .control → False := by
    intro a b x z hab hx hz e
    subst e
    have := hq (fun e => by rw [e] at hx; cases hx) b (Ne.symm hab)
    rw [this] at hz
    cases hz
  rcases hi.caller t c hc with ⟨-, e⟩ | ⟨-, -, e⟩ | ⟨e, -⟩ | ⟨e, -⟩
  · exact absurd e (fun e => nq hne hc hc' e)
  · rcases hi.caller t' c' hc' with ⟨-, e'⟩ | ⟨-, -, e'⟩ | ⟨e', -⟩ | ⟨e', -⟩
    · exact absurd e' (fun e => nq (Ne.symm hne) hc' hc e)
    · rw [hp] at e
      rw [hp'] at e'
      rcases e with e | ⟨q, e⟩
      · rcases e' with e' | ⟨q, e'⟩
        · exact absurd (e.trans e'.symm) hne
        · exact absurd e' (hb q)
      · exact absurd e (hb q)
    · exact Or.inr (Or.inr (Or.inl e'))
    · exact Or.inr (Or.inr (Or.inr e'))
  · exact Or.inl e
  · exact Or.inr (Or.inl e)

/-- What holds: if control messages come when nothing is processed and a plugin is called by its own thread only (it is
connected to no plugin as blocking), then nothing is changed while another thread uses it, except by the timeout
of a file writer: that one and an end of acquisition, or the flag of the timeout. -/
theorem C138_partial (y : Sys) (s : State) (h : Reach y s) (hq : Quiet s) (p : Nat) (hb : ∀ q, ¬ y.blocking q p)
    (m m' : Meth) (f : Field) (hr : RaceOf s p m m' f) :
    y.kind p = .fileWriter ∧ ((m = .timer ∧ (m' = .eoa ∨ f = .active)) ∨ (m' = .timer ∧ (m = .eoa ∨ f = .active))) := by
  have hl := C138_listed y s h p m m' f hr
  obtain ⟨t, t', c, c', hne, hc, hc', hp, hp', hm, hm', -⟩ := hr
  have h4 := caller_cases y s h hq p hb t t' hne c c' hc hc' hp hp'
  have hctl : (m.control = true → t = .control) ∧ (m'.control = true → t' = .control) := by
    have hi := inv_reach y s h
    have key : ∀ t c, c ∈ s t → c.meth.control = true → t = .control := by
      intro t c hc hm
      rcases hi.caller t c hc with ⟨-, e⟩ | ⟨e, -⟩ | ⟨e, -⟩ | ⟨e, -⟩
      · exact e
      · cases hx : c.meth <;> rw [hx] at e hm <;> simp [Meth.data, Meth.control] at e hm
      · rw [e] at hm; cases hm
      · rw [e] at hm; cases hm
    exact ⟨fun e => key t c hc (hm ▸ e), fun e => key t' c' hc' (hm' ▸ e)⟩
  have h1 : m.control = false := by
    refine Bool.eq_false_iff.mpr (fun e => ?_)
    have e1 := hctl.1 e
    subst e1
    have := hq (fun e => by rw [e] at hc; cases hc) t' (Ne.symm hne)
    rw [this] at hc'
    cases hc'
  have h2 : m'.control = false := by
    refine Bool.eq_false_iff.mpr (fun e => ?_)
    have e1 := hctl.2 e
    subst e1
    have := hq (fun e => by rw [e] at hc'; cases hc') t hne
    rw [this] at hc
    cases hc
  rw [hm, hm'] at h4
  obtain ⟨e, he, hmm, hf⟩ := hl
  have key : ∀ k, ∀ e ∈ races k, e.1.control = false → e.2.1.control = false →
      (e.1 = .timer ∨ e.1 = .warn ∨ e.2.1 = .timer ∨ e.2.1 = .warn) →
      ∀ f ∈ e.2.2, k = .fileWriter ∧ e.2.1 = .timer ∧ (e.1 = .eoa ∨ f = .active) := by
    intro k; cases k <;> decide
  rcases hmm with ⟨a, b⟩ | ⟨a, b⟩
  · subst a b
    obtain ⟨k1, k2, k3⟩ := key _ e he h1 h2 h4 f hf
    exact ⟨k1, Or.inr ⟨k2, k3⟩⟩
  · subst a b
    obtain ⟨k1, k2, k3⟩ := key _ e he h2 h1 (by
      rcases h4 with h | h | h | h
      · exact Or.inr (Or.inr (Or.inl h))
      · exact Or.inr (Or.inr (Or.inr h))
      · exact Or.inl h
      · exact Or.inr (Or.inl h)) f hf
    exact ⟨k1, Or.inl ⟨k2, k3⟩⟩

/-! ## Cases -/

/-- A lone file writer: its timeout runs in one thread and an end of acquisition is handled in another one. -/
def lone (k : Kind) : Sys := ⟨fun _ => k, fun _ _ => False⟩

/-- The exception of `C138_partial` does occur: the timeout stops the acquisition while the end of acquisition
stops it too (FileWriterPlugin.cpp:178-184, 929-934). -/
theorem C138_timer_violated : ∃ s, Reach (lone .fileWriter) s ∧ Quiet s ∧ RaceOf s 3 .eoa .timer .current := by
  have h1 := arrive (lone .fileWriter) init (.timer 3) 3 .timer
    [{ locks := [.start], writes := [.active] }, { locks := [.start, .close], reads := [.active, .period] },
      error [.start, .close, .own]] [] { locks := [.start, .close, .own], reads := starts, writes := stops }
    .init (Or.inr (Or.inr (Or.inr (Or.inl ⟨rfl, rfl, rfl⟩)))) rfl (fun x _ t _ c hc => by cases hc)
  have h2 := arrive (lone .fileWriter) _ (.worker 3) 3 .eoa [] [pushing []] { reads := starts, writes := stops }
    h1 (Or.inr (Or.inl ⟨rfl, rfl, rfl⟩)) rfl (fun x hx t _ c _ _ k hk => by
      rw [List.mem_singleton.mp hx] at hk; cases hk)
  refine ⟨_, h2, fun h => absurd rfl h, .worker 3, .timer 3, ⟨3, .eoa, { reads := starts, writes := stops }, [pushing []]⟩,
    ⟨3, .timer, { locks := [.start, .close, .own], reads := starts, writes := stops }, []⟩, by decide, ?_, ?_, rfl, rfl, rfl, rfl, ?_⟩
  · rw [set_same]; exact List.mem_cons_self ..
  · rw [set_other _ _ _ _ (by decide), set_same]; exact List.mem_cons_self ..
  · decide

example : ∃ s, Reach (lone .fileWriter) s ∧ s (.worker 3) ≠ [] ∧ Quiet s := by
  refine ⟨_, Reach.step .init (Step.call (t := .worker 3) (p := 3) (m := .frame) (Or.inr (Or.inl ⟨rfl, rfl, rfl⟩)) rfl
    (fun t _ c hc => by cases hc)), ?_, ?_⟩
  · rw [set_same]; simp
  · intro h; exact absurd rfl h

/-- While a frame is written the file writer cannot enter `configure`. -/
example : ∃ s, Reach (lone .fileWriter) s ∧ s (.worker 3) ≠ [] ∧
    ∀ g ∈ (body .fileWriter .configure).take 1, ¬ Free s .control 3 g.locks := by
  refine ⟨_, Reach.step .init (Step.call (t := .worker 3) (p := 3) (m := .frame) (Or.inr (Or.inl ⟨rfl, rfl, rfl⟩)) rfl
    (fun t _ c hc => by cases hc)), ?_, ?_⟩
  · rw [set_same]; simp
  · intro g hg hf
    rw [List.mem_singleton.mp hg] at hf
    exact hf (.worker 3) (by decide) ⟨3, .frame, _, _⟩ (by rw [set_same]; exact List.mem_cons_self ..) rfl .own (by decide) (by decide)

example : Listed .fileWriter .eoa .timer .current ∧ Listed .kafka .frame .configure .topic ∧
    ¬ Listed .kafka .frame .configure .producer := by decide

example : compound .callbacks = true ∧ compound .duration = false := by decide

end Verif.Locking
