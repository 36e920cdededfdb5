import Verif.Model.Library
/-!
C190: the HDF5 library is used by one thread at a time.
-/
namespace Verif.Library

/-! ## Specification -/

/-- A thread is in the library, with this file, called from this method of this writer. -/
def Inside (s : St) (t : Thread) (p : Nat) (m : Meth) (f : File) : Prop := ∃ k, s.run t = some ⟨p, m, .inside f k⟩

/-- C190, full statement: never two threads at a time. -/
def C190_statement : Prop :=
  ∀ n s, Reach n s → ∀ t t' p p' m m' f f', Inside s t p m f → Inside s t' p' m' f' → t = t'

/-- The methods that take the mutex of the writer. -/
def locked : Meth → Bool
  | .frame .. => true
  | .timeout .. => true
  | _ => false

/-! ## Proofs -/

/-- All uses of the library are between taking and giving back the mutex of the writer; `h`: it is held now. -/
def safe (p : Nat) : Bool → Prog → Prop
  | _, .done => True
  | h, .take m k => safe p (h || decide (m = .own p)) k
  | h, .give m k => safe p (h && decide (m ≠ .own p)) k
  | h, .ask _ a b => safe p h a ∧ safe p h b
  | h, .set _ _ k => safe p h k
  | h, .fresh _ k => safe p h k
  | h, .lib _ k => h = true ∧ safe p h k
  | h, .inside _ k => h = true ∧ safe p h k

theorem safe_libs (p q : Nat) (k : Prog) (h : safe p true k) : ∀ n, safe p true (libs q n k)
  | 0 => h
  | n + 1 => ⟨rfl, safe_libs p q k h n⟩

theorem safe_stop (p : Nat) (k : Prog) (h : safe p true k) : safe p true (stop p k) := ⟨⟨rfl, h⟩, h⟩

theorem safe_start (p n : Nat) (k : Prog) (h : safe p true k) : safe p true (start p n k) :=
  ⟨h, safe_libs p p (.set p true k) h n⟩

theorem safe_next (p : Nat) (r : Bool) (n : Nat) (k : Prog) (h : safe p true k) : safe p true (stopNext p r n k) := by
  unfold stopNext
  refine safe_stop p _ ?_
  split
  · exact safe_start p n k h
  · exact h

theorem safe_unlock (p : Nat) : safe p true (unlock p) := by
  simp [unlock, safe]

theorem safe_write (p : Nat) (l r : Bool) (w n : Nat) : safe p true (write p l r w n) := by
  refine ⟨safe_libs p p _ ?_ w, safe_unlock p⟩
  split
  · exact safe_next p r n _ (safe_unlock p)
  · exact safe_unlock p

theorem safe_body (p : Nat) (m : Meth) (h : locked m = true) : safe p false (body p m) := by
  cases m with
  | frame nx l r w n =>
    have key : safe p true (if nx then stop p (start p n (write p l r w n)) else write p l r w n) := by
      split
      · exact safe_stop p _ (safe_start p n _ (safe_write p l r w n))
      · exact safe_write p l r w n
    simpa [body, safe] using key
  | timeout r n =>
    have key : safe p true (.ask p (stopNext p r n (unlock p)) (unlock p)) := ⟨safe_next p r n _ (safe_unlock p), safe_unlock p⟩
    simpa [body, safe] using key
  | eoa r n => cases h
  | startCmd n => cases h
  | stopCmd => cases h

/-- A thread that is in the library has the mutex of its file, and that of its writer if its method takes it. -/
def Good (s : St) (t : Thread) : Prop :=
  ∀ j, s.run t = some j →
    (∀ f k, j.prog = .inside f k → s.held (.file f) = some t) ∧
    (locked j.meth = true → ∃ h, safe j.plugin h j.prog ∧ (h = true → s.held (.own j.plugin) = some t))

/-- Mutexes that `t` has stay with it, and its work is as before. -/
theorem good_other (s s' : St) (t : Thread) (hg : Good s t) (hr : s'.run t = s.run t)
    (hh : ∀ m, s.held m = some t → s'.held m = some t) : Good s' t := by
  intro j hj
  rw [hr] at hj
  obtain ⟨h1, h2⟩ := hg j hj
  refine ⟨fun f k e => hh _ (h1 f k e), fun hl => ?_⟩
  obtain ⟨h, h3, h4⟩ := h2 hl
  exact ⟨h, h3, fun e => hh _ (h4 e)⟩

theorem upd_same {α β : Type} [DecidableEq α] (f : α → β) (a : α) (b : β) : upd f a b a = b := by simp [upd]

theorem upd_other {α β : Type} [DecidableEq α] (f : α → β) (a x : α) (b : β) (h : x ≠ a) : upd f a b x = f x := by simp [upd, h]

/-- What a step of a thread does to the others. -/
theorem advance_other (s s' : St) (t : Thread) (j : Job) (k : Prog) (h : advance s t j k = some s') (t' : Thread) (ht : t' ≠ t)
    (hin : ∀ f k', k = .inside f k' → s.held (.file f) = some t) :
    s'.run t' = s.run t' ∧ ∀ m, s.held m = some t' → s'.held m = some t' := by
  cases k with
  | done => cases h; exact ⟨upd_other _ _ _ _ ht, fun m e => e⟩
  | take m k =>
    simp only [advance] at h
    split at h
    · next hm =>
      cases h
      refine ⟨upd_other _ _ _ _ ht, fun m' e => ?_⟩
      show upd s.held m (some t) m' = some t'
      rw [upd_other _ _ _ _ (fun c => by rw [c, hm] at e; cases e)]
      exact e
    · cases h
  | give m k =>
    simp only [advance] at h
    split at h
    · next hm =>
      cases h
      refine ⟨upd_other _ _ _ _ ht, fun m' e => ?_⟩
      show upd s.held m none m' = some t'
      rw [upd_other _ _ _ _ (fun c => by rw [c, hm] at e; exact ht (Option.some.inj e).symm)]
      exact e
    · cases h
  | ask p a b => cases h; exact ⟨upd_other _ _ _ _ ht, fun m e => e⟩
  | set p b k => cases h; exact ⟨upd_other _ _ _ _ ht, fun m e => e⟩
  | fresh p k => cases h; exact ⟨upd_other _ _ _ _ ht, fun m e => e⟩
  | lib p k =>
    simp only [advance] at h
    split at h
    · next hm =>
      cases h
      refine ⟨upd_other _ _ _ _ ht, fun m' e => ?_⟩
      show upd s.held (.file (s.file p)) (some t) m' = some t'
      rw [upd_other _ _ _ _ (fun c => by rw [c, hm] at e; cases e)]
      exact e
    · cases h
  | inside f k =>
    cases h
    refine ⟨upd_other _ _ _ _ ht, fun m' e => ?_⟩
    show upd s.held (.file f) none m' = some t'
    rw [upd_other _ _ _ _ (fun c => by rw [c, hin f k rfl] at e; exact ht (Option.some.inj e).symm)]
    exact e

/-- No program but one under way has `inside` in it. -/
def clean : Prog → Bool
  | .done => true
  | .take _ k => clean k
  | .give _ k => clean k
  | .ask _ a b => clean a && clean b
  | .set _ _ k => clean k
  | .fresh _ k => clean k
  | .lib _ k => clean k
  | .inside _ _ => false

/-- Or just begins with it. -/
def tidy : Prog → Bool
  | .inside _ k => clean k
  | k => clean k

theorem tidy_of (k : Prog) (h : clean k = true) : tidy k = true := by
  cases k <;> first | exact h | cases h

theorem clean_inside (k : Prog) (h : clean k = true) (f : File) (k' : Prog) : k ≠ .inside f k' := by
  rintro rfl; cases h

theorem clean_libs (p : Nat) (k : Prog) (h : clean k = true) : ∀ n, clean (libs p n k) = true
  | 0 => h
  | n + 1 => clean_libs p k h n

theorem clean_start (p n : Nat) (k : Prog) (h : clean k = true) : clean (start p n k) = true := by
  simp [start, clean, h, clean_libs p (.set p true k) h n]

theorem clean_next (p : Nat) (r : Bool) (n : Nat) (k : Prog) (h : clean k = true) : clean (stopNext p r n k) = true := by
  cases r <;> simp [stopNext, stop, clean, h, clean_start p n k h]

theorem clean_write (p : Nat) (l r : Bool) (w n : Nat) : clean (write p l r w n) = true := by
  have hu : clean (unlock p) = true := rfl
  simp only [write, clean, hu, Bool.and_true]
  refine clean_libs p _ ?_ w
  split
  · exact clean_next p r n _ hu
  · exact hu

theorem clean_body (p : Nat) (m : Meth) : clean (body p m) = true := by
  cases m with
  | frame nx l r w n =>
    have hw := clean_write p l r w n
    cases nx <;> simp [body, clean, stop, hw, clean_start p n _ hw]
  | timeout r n =>
    have hu : clean (unlock p) = true := rfl
    simp [body, clean, hu, clean_next p r n _ hu]
  | eoa r n => simp [body, clean, clean_next p r n .done rfl]
  | startCmd n => exact clean_start p n .done rfl
  | stopCmd => rfl

/-- The thread itself after a step. -/
theorem advance_self (s s' : St) (t : Thread) (j : Job) (hg : Good s t) (hj : s.run t = some j) (ht : tidy j.prog = true)
    (h : advance s t j j.prog = some s') : Good s' t ∧ ∀ j', s'.run t = some j' → tidy j'.prog = true := by
  obtain ⟨p, m, k⟩ := j
  obtain ⟨h1, h2⟩ := hg _ hj
  dsimp only at h h1 h2 ht
  -- what is left is `k'`, which is clean; the mutex of the writer is as `safe` says
  have fin : ∀ (s1 : St) (k' : Prog), clean k' = true →
      (locked m = true → ∃ b, safe p b k' ∧ (b = true → s1.held (.own p) = some t)) →
      Good (s1.go t ⟨p, m, k⟩ k') t ∧ ∀ j', (s1.go t ⟨p, m, k⟩ k').run t = some j' → tidy j'.prog = true := by
    intro s1 k' hc hs
    have e : (s1.go t ⟨p, m, k⟩ k').run t = some ⟨p, m, k'⟩ := upd_same _ _ _
    refine ⟨fun j' hj' => ?_, fun j' hj' => ?_⟩
    · rw [e] at hj'
      cases hj'
      exact ⟨fun f k'' c => absurd c (clean_inside k' hc f k''), hs⟩
    · rw [e] at hj'
      cases hj'
      exact tidy_of k' hc
  cases k with
  | done =>
    cases h
    have e : (upd s.run t none) t = none := upd_same _ _ _
    have no : ∀ j', (upd s.run t none) t ≠ some j' := fun j' c => by rw [e] at c; cases c
    exact ⟨fun j' hj' => absurd hj' (no j'), fun j' hj' => absurd hj' (no j')⟩
  | take x k =>
    simp only [advance] at h
    split at h
    · next hx =>
      cases h
      refine fin _ k ht (fun hl => ?_)
      obtain ⟨b, h3, h4⟩ := h2 hl
      refine ⟨_, h3, fun hb => ?_⟩
      show upd s.held x (some t) (.own p) = some t
      by_cases hxo : x = .own p
      · rw [hxo]; exact upd_same _ _ _
      · rw [upd_other _ _ _ _ (Ne.symm hxo)]
        exact h4 (by simpa [hxo] using hb)
    · cases h
  | give x k =>
    simp only [advance] at h
    split at h
    · next hx =>
      cases h
      refine fin _ k ht (fun hl => ?_)
      obtain ⟨b, h3, h4⟩ := h2 hl
      refine ⟨_, h3, fun hb => ?_⟩
      simp only [Bool.and_eq_true, decide_eq_true_eq] at hb
      show upd s.held x none (.own p) = some t
      rw [upd_other _ _ _ _ (Ne.symm hb.2)]
      exact h4 hb.1
    · cases h
  | ask q a b =>
    cases h
    have hc : clean a = true ∧ clean b = true := by simpa [tidy, clean] using ht
    refine fin s _ (by split; exact hc.1; exact hc.2) (fun hl => ?_)
    obtain ⟨y, h3, h4⟩ := h2 hl
    refine ⟨y, ?_, h4⟩
    split
    · exact h3.1
    · exact h3.2
  | set q b k =>
    cases h
    exact fin ⟨upd s.writing q b, s.file, s.held, s.run⟩ k ht (fun hl => h2 hl)
  | fresh q k =>
    cases h
    exact fin ⟨s.writing, upd s.file q (q, (s.file q).2 + 1), s.held, s.run⟩ k ht (fun hl => h2 hl)
  | lib q k =>
    simp only [advance] at h
    split at h
    · next hx =>
      cases h
      have e : ((s.lock (.file (s.file q)) (some t)).go t ⟨p, m, .lib q k⟩ (.inside (s.file q) k)).run t =
        some ⟨p, m, .inside (s.file q) k⟩ := upd_same _ _ _
      refine ⟨fun j' hj' => ?_, fun j' hj' => ?_⟩
      · rw [e] at hj'
        cases hj'
        refine ⟨fun f k' c => ?_, fun hl => ?_⟩
        · cases c
          exact upd_same _ _ _
        · obtain ⟨y, h3, h4⟩ := h2 hl
          refine ⟨y, h3, fun hy => ?_⟩
          show upd s.held (.file (s.file q)) (some t) (.own p) = some t
          rw [upd_other _ _ _ _ (by simp)]
          exact h4 hy
      · rw [e] at hj'
        cases hj'
        exact ht
    · cases h
  | inside f k =>
    cases h
    refine fin (s.lock (.file f) none) k ht (fun hl => ?_)
    obtain ⟨y, h3, h4⟩ := h2 hl
    refine ⟨y, h3.2, fun hy => ?_⟩
    show upd s.held (.file f) none (.own p) = some t
    rw [upd_other _ _ _ _ (by simp)]
    exact h4 hy

theorem inv (n : Nat) (s : St) (h : Reach n s) : ∀ t, Good s t ∧ ∀ j, s.run t = some j → tidy j.prog = true := by
  induction h with
  | init => exact fun t => ⟨fun j hj => (by cases hj), fun j hj => (by cases hj)⟩
  | @step s s' _ hs ih =>
    intro t'
    cases hs with
    | @call t p m hr hp hc =>
      by_cases ht : t' = t
      · subst ht
        have e : (s.go t' ⟨p, m, body p m⟩ (body p m)).run t' = some ⟨p, m, body p m⟩ := upd_same _ _ _
        refine ⟨fun j hj => ?_, fun j hj => ?_⟩
        · rw [e] at hj
          cases hj
          exact ⟨fun f k c => absurd c (clean_inside _ (clean_body p m) f k), fun hl => ⟨false, safe_body p m hl, fun c => by cases c⟩⟩
        · rw [e] at hj
          cases hj
          exact tidy_of _ (clean_body p m)
      · have e : (s.go t ⟨p, m, body p m⟩ (body p m)).run t' = s.run t' := upd_other _ _ _ _ ht
        exact ⟨good_other s _ t' (ih t').1 e (fun m e => e), fun j hj => (ih t').2 j (by rw [← e]; exact hj)⟩
    | @go _ t j hr ha =>
      by_cases ht : t' = t
      · subst ht
        exact advance_self s s' t' j (ih t').1 hr ((ih t').2 j hr) ha
      · obtain ⟨e, hh⟩ := advance_other s s' t j j.prog ha t' ht (fun f k c => ((ih t).1 j hr).1 f k c)
        exact ⟨good_other s _ t' (ih t').1 e hh, fun j hj => (ih t').2 j (by rw [← e]; exact hj)⟩

/-- Two threads are never in the library with the same file. -/
theorem C190_file (n : Nat) (s : St) (h : Reach n s) (t t' : Thread) (p p' : Nat) (m m' : Meth) (f : File)
    (hi : Inside s t p m f) (hi' : Inside s t' p' m' f) : t = t' := by
  obtain ⟨k, e⟩ := hi
  obtain ⟨k', e'⟩ := hi'
  have h1 := ((inv n s h t).1 _ e).1 f k rfl
  have h2 := ((inv n s h t').1 _ e').1 f k' rfl
  exact Option.some.inj (h1.symm.trans h2)

/-- Two threads in the library at a time are called from different writers, or one of them handles a command or the end of an
acquisition. -/
theorem C190_cause (n : Nat) (s : St) (h : Reach n s) (t t' : Thread) (p p' : Nat) (m m' : Meth) (f f' : File)
    (hi : Inside s t p m f) (hi' : Inside s t' p' m' f') (ht : t ≠ t') :
    p ≠ p' ∨ locked m = false ∨ locked m' = false := by
  by_cases hp : p = p'
  · subst hp
    cases hm : locked m with
    | false => exact Or.inr (Or.inl rfl)
    | true =>
      cases hm' : locked m' with
      | false => exact Or.inr (Or.inr rfl)
      | true =>
        obtain ⟨k, e⟩ := hi
        obtain ⟨k', e'⟩ := hi'
        obtain ⟨b, h1, h2⟩ := ((inv n s h t).1 _ e).2 hm
        obtain ⟨b', h1', h2'⟩ := ((inv n s h t').1 _ e').2 hm'
        exact absurd (Option.some.inj ((h2 h1.1).symm.trans (h2' h1'.1))) ht
  · exact Or.inl hp

/-- The plugins of running methods are loaded. -/
theorem loaded (n : Nat) (s : St) (h : Reach n s) (t : Thread) (j : Job) (hj : s.run t = some j) : j.plugin < n := by
  induction h generalizing t j with
  | init => cases hj
  | @step s s' _ hs ih =>
    cases hs with
    | @call t' p m hr hp hc =>
      by_cases ht : t = t'
      · subst ht
        rw [show (s.go t ⟨p, m, body p m⟩ (body p m)).run t = some ⟨p, m, body p m⟩ from upd_same _ _ _] at hj
        cases hj
        exact hp
      · rw [show (s.go t' ⟨p, m, body p m⟩ (body p m)).run t = s.run t from upd_other _ _ _ _ ht] at hj
        exact ih t j hj
    | @go _ t' j' hr ha =>
      have key : s'.run = upd s.run t' none ∨ ∃ k, s'.run = upd s.run t' (some ⟨j'.plugin, j'.meth, k⟩) := by
        generalize j'.prog = k at ha
        cases k <;> simp only [advance] at ha <;> (try split at ha) <;> cases ha <;>
          first | exact Or.inl rfl | exact Or.inr ⟨_, rfl⟩
      by_cases ht : t = t'
      · subst ht
        rcases key with e | ⟨k, e⟩
        · rw [e, upd_same] at hj; cases hj
        · rw [e, upd_same] at hj
          cases hj
          exact ih t j' hr
      · rcases key with e | ⟨k, e⟩ <;>
        · rw [e, upd_other _ _ _ _ ht] at hj
          exact ih t j hj

/-- With one writer loaded, while no command and no end of an acquisition are handled, the library is used by one thread at a time.
Missing: commands, ends of acquisitions, and several writers. -/
theorem C190_partial (s : St) (h : Reach 1 s) (hq : ∀ t j, s.run t = some j → locked j.meth = true)
    (t t' : Thread) (p p' : Nat) (m m' : Meth) (f f' : File) (hi : Inside s t p m f) (hi' : Inside s t' p' m' f') : t = t' := by
  by_cases ht : t = t'
  · exact ht
  · obtain ⟨k, e⟩ := id hi
    obtain ⟨k', e'⟩ := id hi'
    have h1 := loaded 1 s h t _ e
    have h2 := loaded 1 s h t' _ e'
    rcases C190_cause 1 s h t t' p p' m m' f f' hi hi' ht with c | c | c
    · dsimp only at h1 h2
      omega
    · have := hq t _ e
      dsimp only at this
      rw [c] at this
      cases this
    · have := hq t' _ e'
      dsimp only at this
      rw [c] at this
      cases this

/-! ### The mutexes are given back, and nothing waits for ever -/

/-- The order in which mutexes are taken. -/
def level : Mutex → Nat
  | .close _ => 0
  | .own _ => 1
  | .file _ => 2

/-- What is taken is given back, last taken first; a mutex is taken only while those held are before it. -/
def bal : List Mutex → Prog → Prop
  | hs, .done => hs = []
  | hs, .take m k => (∀ x ∈ hs, level x < level m) ∧ bal (m :: hs) k
  | hs, .give m k => ∃ r, hs = m :: r ∧ bal r k
  | hs, .ask _ a b => bal hs a ∧ bal hs b
  | hs, .set _ _ k => bal hs k
  | hs, .fresh _ k => bal hs k
  | hs, .lib _ k => (∀ x ∈ hs, level x < 2) ∧ bal hs k
  | hs, .inside f k => ∃ r, hs = .file f :: r ∧ bal r k

theorem bal_libs (hs : List Mutex) (p : Nat) (k : Prog) (hl : ∀ x ∈ hs, level x < 2) (h : bal hs k) : ∀ n, bal hs (libs p n k)
  | 0 => h
  | n + 1 => ⟨hl, bal_libs hs p k hl h n⟩

theorem bal_stop (hs : List Mutex) (p : Nat) (k : Prog) (hl : ∀ x ∈ hs, level x < 2) (h : bal hs k) : bal hs (stop p k) := ⟨⟨hl, h⟩, h⟩

theorem bal_start (hs : List Mutex) (p n : Nat) (k : Prog) (hl : ∀ x ∈ hs, level x < 2) (h : bal hs k) : bal hs (start p n k) :=
  ⟨h, bal_libs hs p (.set p true k) hl h n⟩

theorem bal_next (hs : List Mutex) (p : Nat) (r : Bool) (n : Nat) (k : Prog) (hl : ∀ x ∈ hs, level x < 2) (h : bal hs k) :
    bal hs (stopNext p r n k) := by
  unfold stopNext
  refine bal_stop hs p _ hl ?_
  split
  · exact bal_start hs p n k hl h
  · exact h

theorem bal_unlock (p : Nat) : bal [.own p, .close p] (unlock p) := ⟨_, rfl, _, rfl, rfl⟩

theorem both_low (p : Nat) : ∀ x ∈ [Mutex.own p, Mutex.close p], level x < 2 := by
  intro x hx
  simp only [List.mem_cons, List.not_mem_nil, or_false] at hx
  rcases hx with rfl | rfl <;> simp [level]

theorem none_low (l : Nat) : ∀ x ∈ ([] : List Mutex), level x < l := fun x hx => by cases hx

theorem bal_locked (p : Nat) (k : Prog) (h : bal [.own p, .close p] k) : bal [] (.take (.close p) (.take (.own p) k)) := by
  refine ⟨none_low _, fun x hx => ?_, h⟩
  simp only [List.mem_cons, List.not_mem_nil, or_false] at hx
  subst hx
  exact Nat.zero_lt_one

theorem bal_write (p : Nat) (l r : Bool) (w n : Nat) : bal [.own p, .close p] (write p l r w n) := by
  refine ⟨bal_libs _ p _ (both_low p) ?_ w, bal_unlock p⟩
  split
  · exact bal_next _ p r n _ (both_low p) (bal_unlock p)
  · exact bal_unlock p

theorem bal_body (p : Nat) (m : Meth) : bal [] (body p m) := by
  cases m with
  | frame nx l r w n =>
    refine bal_locked p _ ?_
    split
    · exact bal_stop _ p _ (both_low p) (bal_start _ p n _ (both_low p) (bal_write p l r w n))
    · exact bal_write p l r w n
  | timeout r n => exact bal_locked p _ ⟨bal_next _ p r n _ (both_low p) (bal_unlock p), bal_unlock p⟩
  | eoa r n => exact ⟨bal_next _ p r n .done (none_low _) rfl, rfl⟩
  | startCmd n => exact bal_start _ p n .done (none_low _) rfl
  | stopCmd => exact bal_stop _ p .done (none_low _) rfl

/-- A thread has the mutexes its program says. -/
def Has (s : St) (t : Thread) : Prop :=
  (s.run t = none → ∀ m, s.held m ≠ some t) ∧
    ∀ j, s.run t = some j → ∃ hs, bal hs j.prog ∧ hs.Nodup ∧ ∀ m, m ∈ hs ↔ s.held m = some t

theorem has_go (s : St) (t : Thread) (j : Job) (k : Prog) (hs : List Mutex) (h1 : bal hs k) (h2 : hs.Nodup)
    (h3 : ∀ m, m ∈ hs ↔ s.held m = some t) : Has (s.go t j k) t := by
  have e : (s.go t j k).run t = some ⟨j.plugin, j.meth, k⟩ := upd_same _ _ _
  refine ⟨fun c => (by rw [e] at c; cases c), fun j' hj' => ?_⟩
  rw [e] at hj'
  cases hj'
  exact ⟨hs, h1, h2, h3⟩

/-- Taking a mutex that is free. -/
theorem has_take (s : St) (t : Thread) (j : Job) (k : Prog) (m : Mutex) (hs : List Mutex) (h1 : bal (m :: hs) k) (h2 : hs.Nodup)
    (h3 : ∀ m, m ∈ hs ↔ s.held m = some t) (hm : s.held m = none) : Has ((s.lock m (some t)).go t j k) t := by
  refine has_go _ t j k (m :: hs) h1 (List.nodup_cons.2 ⟨fun c => ?_, h2⟩) (fun x => ?_)
  · rw [(h3 m).1 c] at hm
    cases hm
  · show x ∈ m :: hs ↔ upd s.held m (some t) x = some t
    by_cases hx : x = m
    · rw [hx, upd_same]
      simp
    · rw [upd_other _ _ _ _ hx, List.mem_cons, ← h3 x]
      exact ⟨fun c => c.resolve_left hx, Or.inr⟩

/-- Giving it back. -/
theorem has_give (s : St) (t : Thread) (j : Job) (k : Prog) (m : Mutex) (r : List Mutex) (h1 : bal r k) (h2 : (m :: r).Nodup)
    (h3 : ∀ x, x ∈ m :: r ↔ s.held x = some t) : Has ((s.lock m none).go t j k) t := by
  obtain ⟨hn, h2⟩ := List.nodup_cons.1 h2
  refine has_go _ t j k r h1 h2 (fun x => ?_)
  show x ∈ r ↔ upd s.held m none x = some t
  by_cases hx : x = m
  · rw [hx, upd_same]
    exact ⟨fun c => absurd c hn, fun c => (by cases c)⟩
  · rw [upd_other _ _ _ _ hx, ← h3 x, List.mem_cons]
    exact ⟨Or.inr, fun c => c.resolve_left hx⟩

theorem has_self (s s' : St) (t : Thread) (j : Job) (hg : Has s t) (hj : s.run t = some j) (h : advance s t j j.prog = some s') :
    Has s' t := by
  obtain ⟨p, m, k⟩ := j
  obtain ⟨hs, h1, h2, h3⟩ := hg.2 _ hj
  dsimp only at h h1
  cases k with
  | done =>
    cases h
    cases h1
    have e : (upd s.run t none) t = none := upd_same _ _ _
    exact ⟨fun _ x c => (by cases (h3 x).2 c), fun j' hj' => (by rw [show (upd s.run t none) t = some j' from hj'] at e; cases e)⟩
  | take x k =>
    simp only [advance] at h
    split at h
    · next hx => cases h; exact has_take s t _ k x hs h1.2 h2 h3 hx
    · cases h
  | give x k =>
    simp only [advance] at h
    obtain ⟨r, rfl, h1⟩ := h1
    split at h
    · cases h; exact has_give s t _ k x r h1 h2 h3
    · cases h
  | ask q a b =>
    cases h
    refine has_go s t _ _ hs ?_ h2 h3
    split
    · exact h1.1
    · exact h1.2
  | set q b k => cases h; exact has_go ⟨upd s.writing q b, s.file, s.held, s.run⟩ t _ k hs h1 h2 h3
  | fresh q k => cases h; exact has_go ⟨s.writing, upd s.file q (q, (s.file q).2 + 1), s.held, s.run⟩ t _ k hs h1 h2 h3
  | lib q k =>
    simp only [advance] at h
    split at h
    · next hx => cases h; exact has_take s t _ _ _ hs ⟨hs, rfl, h1.2⟩ h2 h3 hx
    · cases h
  | inside f k =>
    obtain ⟨r, rfl, h1⟩ := h1
    cases h
    exact has_give s t _ k (.file f) r h1 h2 h3

theorem has_other (s s' : St) (t : Thread) (hg : Has s t) (hr : s'.run t = s.run t) (hh : ∀ m, s.held m = some t ↔ s'.held m = some t) :
    Has s' t := by
  refine ⟨fun c m => ?_, fun j hj => ?_⟩
  · rw [hr] at c
    exact fun e => hg.1 c m ((hh m).2 e)
  · rw [hr] at hj
    obtain ⟨hs, h1, h2, h3⟩ := hg.2 j hj
    exact ⟨hs, h1, h2, fun m => (h3 m).trans (hh m)⟩

/-- A step gives no mutex to another thread. -/
theorem advance_gives (s s' : St) (t : Thread) (j : Job) (k : Prog) (h : advance s t j k = some s') (t' : Thread) (ht : t' ≠ t) (m : Mutex)
    (e : s'.held m = some t') : s.held m = some t' := by
  have key : ∀ (x : Mutex) (o : Option Thread), o ≠ some t' → upd s.held x o m = some t' → s.held m = some t' := by
    intro x o ho c
    by_cases hx : m = x
    · rw [hx, upd_same] at c; exact absurd c ho
    · rw [upd_other _ _ _ _ hx] at c; exact c
  have n1 : some t ≠ some t' := fun c => ht (Option.some.inj c).symm
  have n2 : (none : Option Thread) ≠ some t' := fun c => by cases c
  cases k <;> simp only [advance] at h <;> (try split at h) <;> cases h <;>
    first | exact e | exact key _ _ n1 e | exact key _ _ n2 e

theorem has_all (n : Nat) (s : St) (h : Reach n s) : ∀ t, Has s t := by
  induction h with
  | init => exact fun t => ⟨fun _ m c => (by cases c), fun j hj => (by cases hj)⟩
  | @step s s' hr0 hs ih =>
    intro t'
    cases hs with
    | @call t p m hr hp hc =>
      by_cases ht : t' = t
      · subst ht
        exact has_go s t' _ _ [] (bal_body p m) List.nodup_nil (fun m => ⟨fun c => (by cases c), fun c => absurd c ((ih t').1 hr m)⟩)
      · exact has_other s _ t' (ih t') (upd_other _ _ _ _ ht) (fun m => Iff.rfl)
    | @go _ t j hr ha =>
      by_cases ht : t' = t
      · subst ht
        exact has_self s s' t' j (ih t') hr ha
      · obtain ⟨e, hh⟩ := advance_other s s' t j j.prog ha t' ht (fun f k c => ((inv n s hr0 t).1 j hr).1 f k c)
        exact has_other s s' t' (ih t') e (fun m => ⟨hh m, advance_gives s s' t j j.prog ha t' ht m⟩)

/-- A thread that does nothing has no mutex. -/
theorem C190_returned (n : Nat) (s : St) (h : Reach n s) (t : Thread) (hr : s.run t = none) (m : Mutex) : s.held m ≠ some t :=
  (has_all n s h t).1 hr m

/-- A thread that cannot go on waits for a mutex another thread has, and that is after all it has itself. -/
theorem waits (n : Nat) (s : St) (h : Reach n s) (t : Thread) (j : Job) (hj : s.run t = some j) (ha : advance s t j j.prog = none) :
    ∃ m t' j', s.held m = some t' ∧ s.run t' = some j' ∧ ∀ x, s.held x = some t → level x < level m := by
  have key : ∃ m t', s.held m = some t' ∧ ∀ x, s.held x = some t → level x < level m := by
    obtain ⟨hs, h1, h2, h3⟩ := (has_all n s h t).2 j hj
    generalize j.prog = k at ha h1
    cases k with
    | take m k =>
      simp only [advance] at ha
      split at ha
      · cases ha
      · next hm =>
        obtain ⟨t', e⟩ := Option.ne_none_iff_exists'.1 hm
        exact ⟨m, t', e, fun x hx => h1.1 x ((h3 x).2 hx)⟩
    | lib p k =>
      simp only [advance] at ha
      split at ha
      · cases ha
      · next hm =>
        obtain ⟨t', e⟩ := Option.ne_none_iff_exists'.1 hm
        exact ⟨_, t', e, fun x hx => h1.1 x ((h3 x).2 hx)⟩
    | give m k =>
      simp only [advance] at ha
      obtain ⟨r, rfl, h1⟩ := h1
      rw [if_pos ((h3 m).1 (by simp))] at ha
      cases ha
    | done => cases ha
    | ask p a b => cases ha
    | set p b k => cases ha
    | fresh p k => cases ha
    | inside f k => cases ha
  obtain ⟨m, t', e, hx⟩ := key
  cases hr : s.run t' with
  | none => exact absurd e (C190_returned n s h t' hr m)
  | some j' => exact ⟨m, t', j', e, hr, hx⟩

/-- No deadlock: as long as a thread has something to do, some thread can go on. -/
theorem C190_live (n : Nat) (s : St) (h : Reach n s) (t : Thread) (j : Job) (hj : s.run t = some j) :
    ∃ t' j' s', s.run t' = some j' ∧ advance s t' j' j'.prog = some s' := by
  have key : ∀ (d l : Nat) (t : Thread) (j : Job), l + d = 3 → s.run t = some j → (l = 0 ∨ ∃ x, s.held x = some t ∧ l ≤ level x + 1) →
      ∃ t' j' s', s.run t' = some j' ∧ advance s t' j' j'.prog = some s' := by
    intro d
    induction d with
    | zero =>
      intro l t j hl hj hx
      cases ha : advance s t j j.prog with
      | some s' => exact ⟨t, j, s', hj, ha⟩
      | none =>
        obtain ⟨m, t', j', _, _, h3⟩ := waits n s h t j hj ha
        rcases hx with hx | ⟨x, hx, hlx⟩
        · omega
        · have h4 := h3 x hx
          have h5 : level m ≤ 2 := by cases m <;> simp [level]
          omega
    | succ d ih =>
      intro l t j hl hj hx
      cases ha : advance s t j j.prog with
      | some s' => exact ⟨t, j, s', hj, ha⟩
      | none =>
        obtain ⟨m, t', j', h1, h2, h3⟩ := waits n s h t j hj ha
        refine ih (l + 1) t' j' (by omega) h2 (Or.inr ⟨m, h1, ?_⟩)
        rcases hx with hx | ⟨x, hx, hlx⟩
        · omega
        · have := h3 x hx
          omega
  exact key 3 0 t j rfl hj (Or.inl rfl)

/-- The file objects of different writers are different. -/
theorem file_owner (n : Nat) (s : St) (h : Reach n s) (p : Nat) : (s.file p).1 = p := by
  induction h with
  | init => rfl
  | @step s s' _ hs ih =>
    cases hs with
    | call => exact ih
    | @go _ t j hr ha =>
      generalize j.prog = k at ha
      cases k <;> simp only [advance] at ha <;> (try split at ha) <;> cases ha <;> try exact ih
      next q k =>
        show (upd s.file q (q, (s.file q).2 + 1) p).1 = p
        by_cases hq : p = q
        · subst hq; rw [upd_same]
        · rw [upd_other _ _ _ _ hq]; exact ih

/-- The timeout thread of a writer works for it only, and the other methods are left to the other threads. -/
theorem caller (n : Nat) (s : St) (h : Reach n s) (t : Thread) (j : Job) (hj : s.run t = some j) :
    (∀ q, t = .timer q ↔ ∃ r k, j.meth = .timeout r k ∧ j.plugin = q) ∧ (t = .control ↔ j.meth = .stopCmd ∨ ∃ k, j.meth = .startCmd k) := by
  induction h generalizing t j with
  | init => cases hj
  | @step s s' _ hs ih =>
    cases hs with
    | @call t' p m hr hp hc =>
      by_cases ht : t = t'
      · subst ht
        rw [show (s.go t ⟨p, m, body p m⟩ (body p m)).run t = some ⟨p, m, body p m⟩ from upd_same _ _ _] at hj
        cases hj
        cases t <;> cases m <;> simp [calls] at hc ⊢
        subst hc
        exact fun _ => ⟨fun c => c, fun c => c⟩
      · rw [show (s.go t' ⟨p, m, body p m⟩ (body p m)).run t = s.run t from upd_other _ _ _ _ ht] at hj
        exact ih t j hj
    | @go _ t' j' hr ha =>
      have key : s'.run = upd s.run t' none ∨ ∃ k, s'.run = upd s.run t' (some ⟨j'.plugin, j'.meth, k⟩) := by
        generalize j'.prog = k at ha
        cases k <;> simp only [advance] at ha <;> (try split at ha) <;> cases ha <;>
          first | exact Or.inl rfl | exact Or.inr ⟨_, rfl⟩
      by_cases ht : t = t'
      · subst ht
        rcases key with e | ⟨k, e⟩
        · rw [e, upd_same] at hj; cases hj
        · rw [e, upd_same] at hj
          cases hj
          exact ih t j' hr
      · rcases key with e | ⟨k, e⟩ <;>
        · rw [e, upd_other _ _ _ _ ht] at hj
          exact ih t j hj

/-! ## Runs -/

/-- What is done next: a method is called, or a thread goes on. -/
inductive Do
  | call (t : Thread) (p : Nat) (m : Meth)
  | go (t : Thread)
deriving DecidableEq, Repr

def doOne (n : Nat) (s : St) : Do → Option St
  | .call t p m => if s.run t = none ∧ p < n ∧ calls t p m = true then some (s.go t ⟨p, m, body p m⟩ (body p m)) else none
  | .go t => (s.run t).bind (fun j => advance s t j j.prog)

def doAll (n : Nat) (s : St) : List Do → Option St
  | [] => some s
  | d :: l => (doOne n s d).bind (fun s => doAll n s l)

theorem reach_all (n : Nat) (l : List Do) (s s' : St) (h : Reach n s) (e : doAll n s l = some s') : Reach n s' := by
  induction l generalizing s with
  | nil => cases e; exact h
  | cons d l ih =>
    simp only [doAll] at e
    cases h1 : doOne n s d with
    | none => rw [h1] at e; cases e
    | some s1 =>
      rw [h1] at e
      refine ih s1 (.step h ?_) e
      cases d with
      | call t p m =>
        simp only [doOne] at h1
        split at h1
        · next hc =>
          cases h1
          exact .call hc.1 hc.2.1 hc.2.2
        · cases h1
      | go t =>
        simp only [doOne] at h1
        cases hr : s.run t with
        | none => rw [hr] at h1; cases h1
        | some j =>
          rw [hr] at h1
          exact .go hr h1

/-- In which files the threads are after these steps. -/
def where_ (n : Nat) (l : List Do) (ts : List Thread) : Option (List (Option File)) :=
  (doAll n init l).map (fun s => ts.map (fun t => (s.run t).bind (fun j => match j.prog with
    | .inside f _ => some f
    | _ => none)))

theorem both_inside (n : Nat) (l : List Do) (t t' : Thread) (f f' : File) (h : where_ n l [t, t'] = some [some f, some f']) :
    ∃ s p p' m m', Reach n s ∧ Inside s t p m f ∧ Inside s t' p' m' f' := by
  unfold where_ at h
  cases e : doAll n init l with
  | none => rw [e] at h; cases h
  | some s =>
    rw [e] at h
    have h := Option.some.inj h
    simp only [List.map_cons, List.map_nil, List.cons.injEq, and_true] at h
    have key : ∀ (t : Thread) (f : File), (s.run t).bind (fun j => match j.prog with
        | .inside f _ => some f
        | _ => none) = some f → ∃ p m, Inside s t p m f := by
      intro t f h
      cases hr : s.run t with
      | none => rw [hr] at h; cases h
      | some j =>
        obtain ⟨p, m, k⟩ := j
        rw [hr] at h
        cases k with
        | inside g k => cases h; exact ⟨p, m, k, hr⟩
        | _ => cases h
    obtain ⟨p, m, hi⟩ := key t f h.1
    obtain ⟨p', m', hi'⟩ := key t' f' h.2
    exact ⟨s, p, p', m, m', reach_all n l init s .init e, hi, hi'⟩

/-- The thread goes on `k` times. -/
def goes (t : Thread) (k : Nat) : List Do := List.replicate k (.go t)

/-- Writer `p` is started by a command. -/
def started (p : Nat) : List Do := .call .control p (.startCmd 1) :: goes .control 6

/-- The last frame of an acquisition has been written, and its file is being closed; a command starts the next. -/
def exStart : List Do :=
  started 0 ++ .call (.data 0) 0 (.frame false true false 1 1) :: goes (.data 0) 8 ++ .call .control 0 (.startCmd 1) :: goes .control 3

/-- Two writers, a frame for each. -/
def exTwo : List Do :=
  started 0 ++ started 1 ++ .call (.data 0) 0 (.frame false false false 1 1) :: goes (.data 0) 4 ++
    .call (.data 1) 1 (.frame false false false 1 1) :: goes (.data 1) 4

/-- The timeout closes the file when the end of the acquisition has just come, which starts the next. -/
def exEnd : List Do :=
  started 0 ++ .call (.data 0) 0 (.eoa true 1) :: goes (.data 0) 1 ++ .call (.timer 0) 0 (.timeout false 1) :: goes (.timer 0) 6 ++
    goes (.data 0) 4

/-- A frame is being written while the timeout waits for the mutex. -/
example : where_ 1 (started 0 ++ .call (.data 0) 0 (.frame false false false 2 1) :: goes (.data 0) 4 ++
      [.call (.timer 0) 0 (.timeout false 1)]) [.data 0, .timer 0] = some [some (0, 1), none] ∧
    where_ 1 (started 0 ++ .call (.data 0) 0 (.frame false false false 2 1) :: goes (.data 0) 4 ++
      [.call (.timer 0) 0 (.timeout false 1), .go (.timer 0)]) [.data 0, .timer 0] = none := by decide +kernel

/-- The command to stop closes the file. -/
example : where_ 1 (started 0 ++ .call .control 0 .stopCmd :: goes .control 3) [.control] = some [some (0, 1)] := by decide +kernel

theorem exStart_inside : where_ 1 exStart [.data 0, .control] = some [some (0, 1), some (0, 2)] := by decide +kernel

/-- A command that starts the next acquisition while the file of the last is closed. -/
theorem C190_violated : ¬ C190_statement := by
  intro h
  obtain ⟨s, p, p', m, m', hr, hi, hi'⟩ := both_inside 1 exStart _ _ _ _ exStart_inside
  exact absurd (h 1 s hr _ _ _ _ _ _ _ _ hi hi') (by decide)

/-- Two writers. -/
theorem C190_two : where_ 2 exTwo [.data 0, .data 1] = some [some (0, 1), some (1, 1)] := by decide +kernel

/-- The end of an acquisition and the timeout. -/
theorem C190_end : where_ 1 exEnd [.data 0, .timer 0] = some [some (0, 2), some (0, 1)] := by decide +kernel

end Verif.Library
