import Verif.Model.Circulation
/-!
C86: a frame buffer is never in use twice. C87: no frame buffer is lost.
-/
namespace Verif.Circulation

/-! ## Specification -/

/-- Buffers under way from the receiver thread. -/
def upBuffers : List Up → List Nat
  | [] => []
  | .ready b :: l => b :: upBuffers l
  | _ :: l => upBuffers l

/-- Buffers under way to the receiver thread. -/
def downBuffers : List Down → List Nat
  | [] => []
  | .precharge n :: l => List.range n ++ downBuffers l
  | .release b :: l => b :: downBuffers l

/-- Every place where a buffer can be. -/
def owners (s : St) : List Nat :=
  s.empty ++ s.mapped ++ upBuffers s.up ++ downBuffers s.down ++ s.ready ++ s.held ++ s.freed

/-- Nothing is under way or in use. -/
def Quiet (s : St) : Prop :=
  s.thread = true ∧ s.up = [] ∧ s.down = [] ∧ s.mapped = [] ∧ s.ready = [] ∧ s.held = [] ∧ s.freed = []

/-- C86, full statement: with one processor, no buffer is in two places. -/
def C86_statement : Prop := ∀ (l : List Act), (owners (run { subs := 1 } l)).Nodup

/-- C87, full statement: with one processor, when nothing is under way or in use the receiver thread has all buffers. -/
def C87_statement : Prop :=
  ∀ (l : List Act), Quiet (run { subs := 1 } l) →
    (run { subs := 1 } l).empty.Perm (List.range (run { subs := 1 } l).n)

/-- Histories in which the receiver thread is only restarted with all messages read and either empty buffers left in the
decoder or no buffer in use, the shared memory is only recreated when no processor uses a buffer, and no release arrives
between the start of a thread and the announcement of its identity. -/
def Careful (s : St) : Act → Prop
  | .start => s.up = [] ∧ s.down = [] ∧
      (s.empty ≠ [] ∨ s.mapped = [] ∧ s.ready = [] ∧ s.held = [] ∧ s.freed = [])
  | .recreate _ => s.up = [] ∧ s.ready = [] ∧ s.held = [] ∧ s.freed = []
  | .rel => s.thread = true ∧ s.ident = s.epoch
  | _ => True

def CarefulRun (s : St) : List Act → Prop
  | [] => True
  | a :: l => Careful s a ∧ CarefulRun (step s a) l

/-! ## Invariant -/

/-- A request stands for all buffers. -/
def requests (n : Nat) : List Up → List Nat
  | [] => []
  | .request :: l => List.range n ++ requests n l
  | _ :: l => requests n l

def tok (s : St) (b : Nat) : Nat :=
  s.empty.count b + s.mapped.count b + (upBuffers s.up).count b + (requests s.n s.up).count b + (downBuffers s.down).count b +
    s.ready.count b + s.held.count b + s.freed.count b

def NoId (l : List Up) : Prop := ∀ k, Up.identity k ∉ l

structure Inv (s : St) : Prop where
  one : s.subs = 1
  on : s.thread = true → ∀ b, tok s b = (List.range s.n).count b
  off : s.thread = false → ∀ b, tok s b = 0
  ident : s.thread = true → (s.ident = s.epoch ∧ NoId s.up) ∨ ∃ r, s.up = .identity s.epoch :: r ∧ NoId r

theorem upBuffers_append (a b : List Up) : upBuffers (a ++ b) = upBuffers a ++ upBuffers b := by
  induction a with
  | nil => rfl
  | cons x a ih => cases x <;> simp [upBuffers, ih]

theorem requests_append (n : Nat) (a b : List Up) : requests n (a ++ b) = requests n a ++ requests n b := by
  induction a with
  | nil => rfl
  | cons x a ih => cases x <;> simp [requests, ih]

theorem downBuffers_append (a b : List Down) : downBuffers (a ++ b) = downBuffers a ++ downBuffers b := by
  induction a with
  | nil => rfl
  | cons x a ih => cases x <;> simp [downBuffers, ih]

theorem count_erase_add (l : List Nat) (a b : Nat) (h : a ∈ l) : (l.erase a).count b + [a].count b = l.count b := by
  have hp := (List.perm_cons_erase h).count_eq b
  rw [hp, show a :: l.erase a = [a] ++ l.erase a from rfl, List.count_append]
  omega

theorem count_cons1 (x b : Nat) (l : List Nat) : (x :: l).count b = [x].count b + l.count b := by
  rw [show x :: l = [x] ++ l from rfl, List.count_append]

theorem inv_step (s : St) (a : Act) (h : Inv s) (hc : Careful s a) : Inv (step s a) := by
  obtain ⟨h1, h2, h3, h4⟩ := h
  cases a with
  | start =>
    obtain ⟨c1, c2, c3⟩ := hc
    refine ⟨h1, fun _ b => ?_, (by intro h; cases h), fun _ => Or.inr ?_⟩
    · show s.empty.count b + s.mapped.count b + (upBuffers (s.up ++ hello (s.epoch + 1) s.empty)).count b +
        (requests s.n (s.up ++ hello (s.epoch + 1) s.empty)).count b + (downBuffers []).count b + s.ready.count b + s.held.count b +
          s.freed.count b = (List.range s.n).count b
      simp only [tok, c1, c2, upBuffers, requests, downBuffers, List.count_nil] at h2 h3
      rw [c1]
      by_cases he : s.empty = []
      · obtain ⟨e1, e2, e3, e4⟩ : s.mapped.count b = 0 ∧ s.ready.count b = 0 ∧ s.held.count b = 0 ∧ s.freed.count b = 0 := by
          rcases c3 with c3 | ⟨c3, c4, c5, c6⟩
          · exact absurd he c3
          · simp [c3, c4, c5, c6]
        rw [e1, e2, e3, e4, he]
        simp [hello, upBuffers, requests, downBuffers]
      · have ht : s.thread = true := by
          cases ht : s.thread with
          | true => rfl
          | false =>
            obtain ⟨x, l, hx⟩ := List.exists_cons_of_ne_nil he
            have := h3 ht x
            rw [hx] at this
            simp at this
        have := h2 ht b
        simp only [hello, if_neg he, List.nil_append, upBuffers, requests, downBuffers, List.count_nil]
        exact this
    · show ∃ r, s.up ++ hello (s.epoch + 1) s.empty = .identity (s.epoch + 1) :: r ∧ NoId r
      rw [c1]
      unfold hello
      split
      · exact ⟨_, rfl, fun k => by simp⟩
      · exact ⟨_, rfl, fun k => by simp⟩
  | recreate n =>
    obtain ⟨c1, c2, c3, c4⟩ := hc
    refine ⟨h1, (by intro h; cases h), fun _ b => ?_, (by intro h; cases h)⟩
    simp [tok, step, recreate, stop, c1, c2, c3, c4, upBuffers, requests, downBuffers]
  | rx =>
    simp only [step, rx]
    split
    · rename_i ht
      split
      · exact ⟨h1, h2, h3, h4⟩
      · rename_i n l hd
        have h2 := h2 ht
        simp only [tok, hd, downBuffers, List.count_append] at h2
        refine ⟨h1, fun _ b => ?_, fun hf => ?_, h4⟩
        · simp only [tok, List.count_append]
          have := h2 b
          omega
        · rw [show s.thread = false from hf] at ht; cases ht
      · rename_i b' l hd
        have h2 := h2 ht
        refine ⟨h1, fun _ b => ?_, fun hf => ?_, h4⟩
        · have := h2 b
          simp only [tok, hd, downBuffers] at this
          rw [count_cons1] at this
          simp only [tok, List.count_append]
          omega
        · rw [show s.thread = false from hf] at ht; cases ht
    · exact ⟨h1, h2, h3, h4⟩
  | ctrl =>
    simp only [step, ctrl]
    split
    · exact ⟨h1, h2, h3, h4⟩
    · rename_i k l hu
      refine ⟨h1, fun ht b => ?_, fun ht b => ?_, fun ht => ?_⟩
      · have := h2 ht b
        simpa only [tok, hu, upBuffers, requests] using this
      · have := h3 ht b
        simpa only [tok, hu, upBuffers, requests] using this
      · rcases h4 ht with ⟨_, h5⟩ | ⟨r, h4, h5⟩
        · exact absurd (by rw [hu]; exact List.mem_cons_self) (h5 k)
        · rw [hu] at h4
          simp only [List.cons.injEq, Up.identity.injEq] at h4
          exact Or.inl ⟨h4.1, by rw [show ({ s with up := l, ident := k } : St).up = r from h4.2]; exact h5⟩
    · rename_i l hu
      unfold send
      by_cases ht : s.thread = true
      · have hk : s.ident = s.epoch ∧ NoId l := by
          rcases h4 ht with ⟨h4, h5⟩ | ⟨r, h4, _⟩
          · rw [hu] at h5
            exact ⟨h4, fun k hm => h5 k (List.mem_cons_of_mem _ hm)⟩
          · rw [hu] at h4; simp at h4
        rw [if_pos ⟨ht, hk.1⟩]
        refine ⟨h1, fun _ b => ?_, fun hf => ?_, fun _ => Or.inl hk⟩
        · have := h2 ht b
          simp only [tok, hu, upBuffers, requests, List.count_append] at this
          simp only [tok, downBuffers_append, downBuffers, List.count_append, List.count_nil]
          omega
        · rw [show s.thread = false from hf] at ht; cases ht
      · rw [if_neg (fun h => ht h.1)]
        refine ⟨h1, fun h => absurd h ht, fun hf b => ?_, fun h => absurd h ht⟩
        have := h3 hf b
        simp only [tok, hu, upBuffers, requests, List.count_append] at this
        simp only [tok]
        omega
    · rename_i b' l hu
      refine ⟨h1, fun ht b => ?_, fun ht b => ?_, fun ht => ?_⟩
      · have := h2 ht b
        simp only [tok, hu, upBuffers, requests] at this
        rw [count_cons1] at this
        simp only [tok, h1, List.count_append, List.replicate_one]
        omega
      · have := h3 ht b
        simp only [tok, hu, upBuffers, requests] at this
        rw [count_cons1] at this
        simp only [tok, h1, List.count_append, List.replicate_one]
        omega
      · rcases h4 ht with ⟨h4, h5⟩ | ⟨r, h4, _⟩
        · rw [hu] at h5
          exact Or.inl ⟨h4, fun k hm => h5 k (List.mem_cons_of_mem _ hm)⟩
        · rw [hu] at h4; simp at h4
  | rel =>
    obtain ⟨ht, hk⟩ := hc
    simp only [step, rel]
    split
    · exact ⟨h1, h2, h3, h4⟩
    · rename_i b' l hu
      unfold send
      rw [if_pos ⟨ht, hk⟩]
      refine ⟨h1, fun _ b => ?_, fun hf => ?_, h4⟩
      · have := h2 ht b
        simp only [tok, hu] at this
        rw [count_cons1] at this
        simp only [tok, downBuffers_append, downBuffers, List.count_append]
        omega
      · rw [show s.thread = false from hf] at ht; cases ht
  | take =>
    simp only [step, take]
    split
    · rename_i ht
      split
      · exact ⟨h1, h2, h3, h4⟩
      · rename_i b' l hu
        refine ⟨h1, fun _ b => ?_, fun hf => ?_, h4⟩
        · have := h2 ht b
          simp only [tok, hu] at this
          rw [count_cons1] at this
          simp only [tok]
          rw [count_cons1]
          omega
        · rw [show s.thread = false from hf] at ht; cases ht
    · exact ⟨h1, h2, h3, h4⟩
  | done b' =>
    simp only [step, done]
    split
    · rename_i hb
      obtain ⟨ht, hb⟩ := hb
      refine ⟨h1, fun _ b => ?_, fun hf => ?_, fun _ => ?_⟩
      · have := h2 ht b
        have he := count_erase_add s.mapped b' b hb
        simp only [tok] at this
        simp only [tok, upBuffers_append, requests_append, upBuffers, requests, List.count_append, List.count_nil]
        omega
      · rw [show s.thread = false from hf] at ht; cases ht
      · rcases h4 ht with ⟨h4, h5⟩ | ⟨r, h4, h5⟩
        · refine Or.inl ⟨h4, fun k hm => ?_⟩
          rcases List.mem_append.1 hm with hm | hm
          · exact h5 k hm
          · simp at hm
        · refine Or.inr ⟨r ++ [.ready b'], by show s.up ++ _ = _; rw [h4]; rfl, fun k hm => ?_⟩
          rcases List.mem_append.1 hm with hm | hm
          · exact h5 k hm
          · simp at hm
    · exact ⟨h1, h2, h3, h4⟩
  | get =>
    simp only [step, get]
    split
    · exact ⟨h1, h2, h3, h4⟩
    · rename_i b' l hu
      have key : ∀ b, tok { s with ready := l, held := b' :: s.held } b = tok s b := by
        intro b
        simp only [tok, hu]
        rw [count_cons1 b' b s.held, count_cons1 b' b l]
        omega
      exact ⟨h1, fun ht b => by rw [key b]; exact h2 ht b, fun ht b => by rw [key b]; exact h3 ht b, h4⟩
  | drop b' =>
    simp only [step, drop]
    split
    · rename_i hb
      have key : ∀ b, tok { s with held := s.held.erase b', freed := s.freed ++ [b'] } b = tok s b := by
        intro b
        have he := count_erase_add s.held b' b hb
        simp only [tok, List.count_append]
        omega
      exact ⟨h1, fun ht b => by rw [key b]; exact h2 ht b, fun ht b => by rw [key b]; exact h3 ht b, h4⟩
    · exact ⟨h1, h2, h3, h4⟩

theorem inv_run (l : List Act) (s : St) (h : Inv s) (hc : CarefulRun s l) : Inv (run s l) := by
  induction l generalizing s with
  | nil => exact h
  | cons a l ih => exact ih (step s a) (inv_step s a h hc.1) hc.2

theorem inv_init : Inv { subs := 1 } :=
  ⟨rfl, (by intro h; cases h), fun _ _ => rfl, (by intro h; cases h)⟩

theorem owners_count (s : St) (b : Nat) : (owners s).count b + (requests s.n s.up).count b = tok s b := by
  simp only [owners, tok, List.count_append]
  omega

/-- C86, proved part: in careful histories every buffer is in at most one place, and only buffers of the shared memory are
anywhere. Missing: see `C86_violated` and `C86_configure`. -/
theorem C86_partial (l : List Act) (hc : CarefulRun { subs := 1 } l) :
    (owners (run { subs := 1 } l)).Nodup ∧ ∀ b ∈ owners (run { subs := 1 } l), b < (run { subs := 1 } l).n := by
  have h := inv_run l _ inv_init hc
  generalize run { subs := 1 } l = s at *
  have hle : ∀ b, (owners s).count b ≤ (List.range s.n).count b := by
    intro b
    have hb := owners_count s b
    cases ht : s.thread with
    | true => have := h.on ht b; omega
    | false => have := h.off ht b; omega
  refine ⟨List.nodup_iff_count.2 fun b => Nat.le_trans (hle b) (List.nodup_iff_count.1 List.nodup_range b), ?_⟩
  intro b hb
  have := hle b
  have hp := List.count_pos_iff.2 hb
  exact List.mem_range.1 (List.count_pos_iff.1 (by omega))

/-- C87, proved part: in careful histories no buffer is lost. -/
theorem C87_partial (l : List Act) (hc : CarefulRun { subs := 1 } l) (hq : Quiet (run { subs := 1 } l)) :
    (run { subs := 1 } l).empty.Perm (List.range (run { subs := 1 } l).n) := by
  have h := inv_run l _ inv_init hc
  generalize run { subs := 1 } l = s at *
  obtain ⟨ht, q1, q2, q3, q4, q5, q6⟩ := hq
  refine List.perm_iff_count.2 fun b => ?_
  have := h.on ht b
  simp only [tok, q1, q2, q3, q4, q5, q6, upBuffers, requests, downBuffers, List.count_nil] at this
  omega

/-! ## Coming to rest -/

def upWeight : List Up → Nat
  | [] => 0
  | .identity _ :: l => 1 + upWeight l
  | .request :: l => 2 + upWeight l
  | .ready _ :: l => 6 + upWeight l

theorem upWeight_append (a b : List Up) : upWeight (a ++ b) = upWeight a + upWeight b := by
  induction a with
  | nil => simp [upWeight]
  | cons x a ih => cases x <;> simp [upWeight, ih] <;> omega

/-- How far the buffers are from the receiver thread. -/
def weight (s : St) : Nat :=
  7 * s.mapped.length + upWeight s.up + 5 * s.ready.length + 4 * s.held.length + 2 * s.freed.length + s.down.length

/-- Restarts and changes of the shared memory. -/
def Disturbs : Act → Prop
  | .start => True
  | .recreate _ => True
  | _ => False

theorem drain_step (s : St) (hi : Inv s) (ht : s.thread = true) (hq : ¬ Quiet s) :
    ∃ a, Careful s a ∧ ¬ Disturbs a ∧ (step s a).thread = true ∧ (step s a).n = s.n ∧ weight (step s a) < weight s := by
  cases hu : s.up with
  | cons x l =>
    refine ⟨.ctrl, trivial, id, ?_⟩
    cases x with
    | identity k =>
      simp only [step, ctrl, hu, weight, upWeight]
      exact ⟨ht, (by first | rfl | trivial), by omega⟩
    | request =>
      simp only [step, ctrl, hu, send]
      split
      · refine ⟨ht, (by first | rfl | trivial), ?_⟩
        simp only [weight, hu, upWeight, List.length_append, List.length_singleton]
        omega
      · refine ⟨ht, (by first | rfl | trivial), ?_⟩
        simp only [weight, hu, upWeight]
        omega
    | ready b =>
      simp only [step, ctrl, hu, weight, upWeight, List.length_append, List.length_replicate, hi.one]
      exact ⟨ht, trivial, by omega⟩
  | nil =>
    cases hd : s.down with
    | cons x l =>
      refine ⟨.rx, trivial, id, ?_⟩
      simp only [step, rx, ht, if_true, hd]
      cases x with
      | precharge n => exact ⟨rfl, (by first | rfl | trivial), by simp only [weight, hd, List.length_cons]; omega⟩
      | release b => exact ⟨rfl, (by first | rfl | trivial), by simp only [weight, hd, List.length_cons]; omega⟩
    | nil =>
      cases hm : s.mapped with
      | cons b l =>
        refine ⟨.done b, trivial, id, ?_⟩
        have hc : s.thread = true ∧ b ∈ s.mapped := ⟨ht, by rw [hm]; exact List.mem_cons_self⟩
        simp only [step, done, if_pos hc]
        refine ⟨ht, (by first | rfl | trivial), ?_⟩
        simp only [weight, hm, upWeight_append, upWeight, List.erase_cons_head, List.length_cons]
        omega
      | nil =>
        cases hr : s.ready with
        | cons b l =>
          refine ⟨.get, trivial, id, ?_⟩
          simp only [step, get, hr]
          exact ⟨ht, (by first | rfl | trivial), by simp only [weight, hr, List.length_cons]; omega⟩
        | nil =>
          cases hh : s.held with
          | cons b l =>
            refine ⟨.drop b, trivial, id, ?_⟩
            have hc : b ∈ s.held := by rw [hh]; exact List.mem_cons_self
            simp only [step, drop, if_pos hc]
            refine ⟨ht, (by first | rfl | trivial), ?_⟩
            simp only [weight, hh, List.erase_cons_head, List.length_cons, List.length_append, List.length_nil]
            omega
          | nil =>
            cases hf : s.freed with
            | nil => exact absurd ⟨ht, hu, hd, hm, hr, hh, hf⟩ hq
            | cons b l =>
              have hk : s.ident = s.epoch := by
                rcases hi.ident ht with h | ⟨r, h, _⟩
                · exact h.1
                · rw [hu] at h; cases h
              refine ⟨.rel, ⟨ht, hk⟩, id, ?_⟩
              simp only [step, rel, hf, send]
              rw [if_pos ⟨ht, hk⟩]
              refine ⟨ht, (by first | rfl | trivial), ?_⟩
              simp only [weight, hf, List.length_cons, List.length_append, List.length_nil]
              omega

theorem drain (k : Nat) (s : St) (hi : Inv s) (ht : s.thread = true) (hw : weight s ≤ k) :
    ∃ l, CarefulRun s l ∧ (∀ a ∈ l, ¬ Disturbs a) ∧ Quiet (run s l) ∧ (run s l).n = s.n := by
  induction k generalizing s with
  | zero =>
    by_cases hq : Quiet s
    · exact ⟨[], trivial, by simp, hq, rfl⟩
    · obtain ⟨a, _, _, _, _, h⟩ := drain_step s hi ht hq
      omega
  | succ k ih =>
    by_cases hq : Quiet s
    · exact ⟨[], trivial, by simp, hq, rfl⟩
    · obtain ⟨a, h1, h2, h3, h4, h5⟩ := drain_step s hi ht hq
      obtain ⟨l, g1, g2, g3, g4⟩ := ih (step s a) (inv_step s a hi h1) h3 (by omega)
      refine ⟨a :: l, ⟨h1, g1⟩, ?_, g3, g4.trans h4⟩
      intro x hx
      rcases List.mem_cons.1 hx with hx | hx
      · rw [hx]; exact h2
      · exact g2 x hx

/-- After every careful history with a receiver thread, all buffers can come back to it without any restart. -/
theorem C87_return_partial (l : List Act) (hc : CarefulRun { subs := 1 } l) (ht : (run { subs := 1 } l).thread = true) :
    ∃ l', (∀ a ∈ l', ¬ Disturbs a) ∧
      (run { subs := 1 } (l ++ l')).empty.Perm (List.range (run { subs := 1 } l).n) := by
  have hi := inv_run l _ inv_init hc
  obtain ⟨l', h1, h2, h3, h4⟩ := drain _ _ hi ht (Nat.le_refl _)
  have hr : run { subs := 1 } (l ++ l') = run (run { subs := 1 } l) l' := by unfold run; rw [List.foldl_append]
  have hi' := inv_run l' _ hi h1
  refine ⟨l', h2, ?_⟩
  rw [hr, ← h4]
  generalize run (run { subs := 1 } l) l' = s at *
  obtain ⟨ht, q1, q2, q3, q4, q5, q6⟩ := h3
  refine List.perm_iff_count.2 fun b => ?_
  have := hi'.on ht b
  simp only [tok, q1, q2, q3, q4, q5, q6, upBuffers, requests, downBuffers, List.count_nil] at this
  omega

/-! ## Violations -/

instance (s : St) : Decidable (Quiet s) := inferInstanceAs (Decidable (_ ∧ _))

/-- The receiver thread of a receiver with one buffer starts and gets it; the buffer is filled, announced, and held by the
processor. -/
def busy : List Act := [.recreate 1, .start, .ctrl, .ctrl, .rx, .take, .done 0, .ctrl, .get]

/-- A restart of the receiver thread (for example after a change of the RX address) while all buffers are in use gives it the
same buffers again. -/
theorem C86_violated : ¬ C86_statement := by
  intro h
  have := h (busy ++ [.start, .ctrl, .ctrl, .rx])
  revert this
  decide +kernel

/-- So the decoder fills a buffer which the processor reads. -/
theorem C86_overwritten :
    (run { subs := 1 } (busy ++ [.start, .ctrl, .ctrl, .rx, .take])).mapped = [0] ∧
      (run { subs := 1 } (busy ++ [.start, .ctrl, .ctrl, .rx, .take])).held = [0] := by decide +kernel

/-- The same after a configure command that recreates the shared memory (see C36: any configure command does): a frame
released later puts its buffer into the queue a second time, and two frames are received into it. -/
theorem C86_configure :
    (run { subs := 1 } (busy ++ [.recreate 1, .start, .ctrl, .ctrl, .rx, .drop 0, .rel, .rx, .take, .take])).mapped = [0, 0] := by
  decide +kernel

/-- With two processors subscribed the same happens without any restart. -/
theorem C86_two_processors :
    (run { subs := 2 } (busy ++ [.get, .drop 0, .drop 0, .rel, .rel, .rx, .rx])).empty = [0, 0] := by decide +kernel

/-- A release on its way to a thread that is stopped is lost; one other buffer is left, so there is no request. -/
theorem C87_violated : ¬ C87_statement := by
  intro h
  have := h [.recreate 2, .start, .ctrl, .ctrl, .rx, .take, .done 0, .ctrl, .get, .drop 0, .rel, .start, .ctrl]
    (by decide +kernel)
  revert this
  decide +kernel

/-- A release that arrives before the identity of the new thread is lost as well. -/
theorem C87_identity :
    (run { subs := 1 } [.recreate 2, .start, .ctrl, .ctrl, .rx, .take, .done 0, .ctrl, .get, .drop 0, .start, .rel, .ctrl]).empty =
      [1] := by decide +kernel

/-- Without a processor every frame takes its buffer away. -/
theorem C87_no_processor :
    (run { subs := 0 } [.recreate 2, .start, .ctrl, .ctrl, .rx, .take, .done 0, .ctrl, .take, .done 1, .ctrl]).empty = [] ∧
    owners (run { subs := 0 } [.recreate 2, .start, .ctrl, .ctrl, .rx, .take, .done 0, .ctrl, .take, .done 1, .ctrl]) = [] := by
  decide +kernel

/-- Non-vacuity: a careful history with a restart and a change of the shared memory. -/
def careful : List Act :=
  [.recreate 2, .start, .ctrl, .ctrl, .rx, .take, .done 0, .ctrl, .get, .start, .ctrl, .drop 0, .rel, .rx, .recreate 3, .start,
    .ctrl, .ctrl, .rx]

instance (s : St) (a : Act) : Decidable (Careful s a) := by
  cases a <;> simp only [Careful] <;> infer_instance

instance carefulDec : (s : St) → (l : List Act) → Decidable (CarefulRun s l)
  | _, [] => .isTrue trivial
  | s, a :: l =>
    have := carefulDec (step s a) l
    inferInstanceAs (Decidable (_ ∧ _))

example : CarefulRun { subs := 1 } careful ∧ Quiet (run { subs := 1 } careful) ∧ (run { subs := 1 } careful).empty = [0, 1, 2] := by
  decide +kernel

end Verif.Circulation
