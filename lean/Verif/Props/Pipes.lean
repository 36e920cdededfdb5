import Verif.Model.Pipes

/-
C198: No message about a buffer is dropped between receiver and processor.
-/
namespace Verif.Pipes

/-- The messages in a pipe that are not about buffers. -/
def others (q : List Msg) : Nat := q.count .other

theorem length_bufs (q : List Msg) : q.length = (bufs q).length + others q := by
  induction q with
  | nil => rfl
  | cons m q ih => cases m <;> simp [bufs, others] at * <;> omega

theorem bufs_append (q r : List Msg) : bufs (q ++ r) = bufs q ++ bufs r := by
  induction q with
  | nil => rfl
  | cons m q ih => cases m <;> simp [bufs, ih]

/-- All places of a buffer. -/
def places (s : St) : List Nat := s.empty ++ bufs s.q1 ++ bufs s.q2 ++ s.held ++ bufs s.q3 ++ bufs s.q4 ++ s.lostReady ++ s.lostRelease

theorem count_post (cap : Nat) (q : List Msg) (m : Msg) (b : Nat) :
    (bufs (post cap q m)).count b + (dropped cap q m).count b = (bufs q).count b + (bufs [m]).count b := by
  unfold post dropped
  split
  · rw [bufs_append]; simp
  · rfl

theorem count_post_other (cap : Nat) (q : List Msg) (b : Nat) : (bufs (post cap q .other)).count b = (bufs q).count b := by
  unfold post
  split
  · rw [bufs_append]; simp [bufs]
  · rfl

theorem count_eraseIdx (l : List Nat) (i b x : Nat) (h : l[i]? = some b) : (l.eraseIdx i).count x + [b].count x = l.count x := by
  induction l generalizing i with
  | nil => simp at h
  | cons a l ih =>
    cases i with
    | zero =>
      simp at h
      subst h
      simp [List.count_cons]
    | succ i =>
      simp at h
      have := ih i h
      simp only [List.eraseIdx_cons_succ, List.count_cons] at *
      omega

/-- A buffer is moved, neither made nor destroyed. -/
theorem count_step (cap : Nat) (s : St) (o : Op) (x : Nat) : (places (step cap s o)).count x = (places s).count x := by
  cases o with
  | ready =>
    simp only [step]
    split
    · rfl
    · next b l e =>
      split
      · simp only [places, e, bufs_append, List.count_append, bufs, List.count_cons, List.count_nil]; omega
      · rfl
  | status => simp only [step, places, List.count_append, count_post_other]
  | forward =>
    simp only [step]
    split
    · rfl
    · next q e => simp only [places, e, bufs]
    · next b q e =>
      have := count_post cap s.q2 (.buf b) x
      simp only [places, e, bufs, List.count_append, List.count_cons, List.count_nil] at *
      omega
  | config => simp only [step, places, List.count_append, count_post_other]
  | take =>
    simp only [step]
    split
    · rfl
    · next q e => simp only [places, e, bufs]
    · next b q e =>
      simp only [places, e, bufs, List.count_append, List.count_cons]
      omega
  | release i =>
    simp only [step]
    split
    · rfl
    · next b e =>
      have := count_post cap s.q3 (.buf b) x
      have := count_eraseIdx s.held i b x e
      simp only [places, bufs, List.count_append] at *
      omega
  | request => simp only [step, places, List.count_append, count_post_other]
  | back =>
    simp only [step]
    split
    · rfl
    · next q e => simp only [places, e, bufs]
    · next b q e =>
      have := count_post cap s.q4 (.buf b) x
      simp only [places, e, bufs, List.count_append, List.count_cons, List.count_nil] at *
      omega
  | hello => simp only [step, places, List.count_append, count_post_other]
  | reuse =>
    simp only [step]
    split
    · rfl
    · next q e => simp only [places, e, bufs]
    · next b q e =>
      simp only [places, e, bufs, List.count_append, List.count_cons, List.count_nil]
      omega

theorem perm_foldl (cap : Nat) (ops : List Op) : ∀ s, (places (ops.foldl (step cap) s)).Perm (places s) := by
  induction ops with
  | nil => intro s; exact List.Perm.refl _
  | cons o ops ih => intro s; exact (ih _).trans (List.perm_iff_count.2 fun x => count_step cap s o x)

/-- Whatever happens every buffer is in exactly one place, or lost, once. -/
theorem C198_conserved (cap n : Nat) (ops : List Op) : (places (run cap n ops)).Perm (List.range n) := by
  have h := perm_foldl cap ops (start n)
  have : places (start n) = List.range n := by simp [places, start, bufs]
  rw [this] at h
  exact h

/-- The buffers that are lost. -/
def lost (s : St) : List Nat := s.lostReady ++ s.lostRelease

theorem lost_step (cap : Nat) (s : St) (o : Op) (b : Nat) (h : b ∈ lost s) : b ∈ lost (step cap s o) := by
  unfold lost at *
  cases o <;> simp only [step] <;> (repeat' split) <;> simp_all <;> rcases h with h | h <;> simp [h]

/-- What is lost stays lost. -/
theorem C198_for_ever (cap : Nat) (ops : List Op) : ∀ s b, b ∈ lost s → b ∈ lost (ops.foldl (step cap) s) := by
  induction ops with
  | nil => intro s b h; exact h
  | cons o ops ih => intro s b h; exact ih _ b (lost_step cap s o b h)

/-- The full statement: no buffer is lost, with the limits of the channels. -/
def C198_statement : Prop := ∀ n ops, lost (run defaultLimit n ops) = []

/-- The processor does not read its channel: `j` frames are announced. -/
theorem rounds (cap n : Nat) (hc : 0 < cap) : ∀ j, j ≤ cap → j ≤ n →
    run cap n (List.flatten (List.replicate j [.ready, .forward])) =
      { empty := List.range' j (n - j), q2 := (List.range j).map .buf, received := j } := by
  intro j
  induction j with
  | zero => intro _ _; simp [run, start, List.range_eq_range']
  | succ j ih =>
    intro h1 h2
    have e := ih (by omega) (by omega)
    unfold run at *
    rw [List.replicate_succ', List.flatten_append, List.foldl_append, e]
    have r : List.range' j (n - j) = j :: List.range' (j + 1) (n - (j + 1)) := by
      rw [show n - j = (n - (j + 1)) + 1 by omega, List.range'_succ]
    have hj : ((List.range j).map Msg.buf).length < cap := by simp; omega
    simp [step, r, hc, post, dropped, List.range_succ]
    omega

/-- With more buffers than fit into the pipe, whatever its limit: a processor that is slow for a while loses a buffer. The receiver counts its frame as received. -/
theorem C198_lost (cap n : Nat) (hc : 0 < cap) (h : cap < n) : ∃ ops, lost (run cap n ops) = [cap] ∧ (run cap n ops).received = cap + 1 := by
  refine ⟨List.flatten (List.replicate cap [.ready, .forward]) ++ [.ready, .forward], ?_⟩
  have e := rounds cap n hc cap (Nat.le_refl _) (by omega)
  unfold run at *
  rw [List.foldl_append, e]
  have r : List.range' cap (n - cap) = cap :: List.range' (cap + 1) (n - (cap + 1)) := by
    rw [show n - cap = (n - (cap + 1)) + 1 by omega, List.range'_succ]
  simp [step, r, hc, post, dropped, lost, bufs]

theorem C198_violated : ¬ C198_statement := by
  intro h
  obtain ⟨ops, ho, _⟩ := C198_lost defaultLimit 1001 (by decide) (by decide)
  rw [h 1001 ops] at ho
  cases ho

/-- In no pipe that drops are more than `k` messages that are not about buffers. -/
def Few (k : Nat) (s : St) : Prop := others s.q2 ≤ k ∧ others s.q3 ≤ k ∧ others s.q4 ≤ k

instance (k : Nat) (s : St) : Decidable (Few k s) := inferInstanceAs (Decidable (_ ∧ _ ∧ _))

theorem dropped_none (cap : Nat) (q : List Msg) (m : Msg) (h : q.length < cap) : dropped cap q m = [] := if_pos h

theorem step_none (cap n k : Nat) (hn : n + k ≤ cap) (s : St) (hs : (places s).Perm (List.range n)) (hl : lost s = []) (hf : Few k s) (o : Op) :
    lost (step cap s o) = [] := by
  have hlen := hs.length_eq
  obtain ⟨h2, h3, h4⟩ := hf
  have l1 := length_bufs s.q1
  have l2 := length_bufs s.q2
  have l3 := length_bufs s.q3
  have l4 := length_bufs s.q4
  simp only [places, List.length_append, List.length_range] at hlen
  have hr : s.lostReady = [] := (List.append_eq_nil_iff.1 hl).1
  have hq : s.lostRelease = [] := (List.append_eq_nil_iff.1 hl).2
  cases o with
  | ready => simp only [step]; (repeat' split) <;> exact hl
  | status => exact hl
  | forward =>
    simp only [step]
    split
    · exact hl
    · exact hl
    · next b q e =>
      simp only [e, bufs, List.length_cons] at hlen
      rw [lost, hr, hq, dropped_none cap s.q2 _ (by omega)]
      rfl
  | config => exact hl
  | take => simp only [step]; (repeat' split) <;> exact hl
  | release i =>
    simp only [step]
    split
    · exact hl
    · next b e =>
      have : i < s.held.length := (List.getElem?_eq_some_iff.1 e).1
      rw [lost, hr, hq, dropped_none cap s.q3 _ (by omega)]
      rfl
  | request => exact hl
  | back =>
    simp only [step]
    split
    · exact hl
    · exact hl
    · next b q e =>
      simp only [e, bufs, List.length_cons] at hlen
      rw [lost, hr, hq, dropped_none cap s.q4 _ (by omega)]
      rfl
  | hello => exact hl
  | reuse => simp only [step]; (repeat' split) <;> exact hl

/-- Proved part: if there are no more buffers than fit into a pipe beside the other messages, none is lost, whatever happens and however slow the processor is. -/
theorem C198_partial (cap n k : Nat) (hn : n + k ≤ cap) (ops : List Op)
    (hf : ∀ pre suf, ops = pre ++ suf → Few k (run cap n pre)) : lost (run cap n ops) = [] := by
  suffices ∀ s, (places s).Perm (List.range n) → lost s = [] → (∀ pre suf, ops = pre ++ suf → Few k (pre.foldl (step cap) s)) →
      lost (ops.foldl (step cap) s) = [] from this (start n) (C198_conserved cap n []) rfl hf
  clear hf
  induction ops with
  | nil => intro s _ hl _; exact hl
  | cons o ops ih =>
    intro s hs hl hf
    refine ih _ ((List.perm_iff_count.2 fun x => count_step cap s o x).trans hs) (step_none cap n k hn s hs hl (hf [] _ rfl) o) fun pre suf e => ?_
    exact hf (o :: pre) suf (by rw [e]; rfl)

/-- Then the thread of the receiver never waits for its pipe either, as long as there is room for its own other messages. -/
theorem C198_no_wait (cap n : Nat) (ops : List Op) (b : Nat) (l : List Nat) (he : (run cap n ops).empty = b :: l)
    (ho : n + others (run cap n ops).q1 ≤ cap) : (run cap n ops).q1.length < cap := by
  have hlen := (C198_conserved cap n ops).length_eq
  have l1 := length_bufs (run cap n ops).q1
  simp only [places, he, List.length_append, List.length_cons, List.length_range] at hlen
  omega

/-- The counters do not show it: received are the frames that the processor has seen, those in the pipe, and those that are lost. -/
theorem C198_counted (cap n : Nat) (ops : List Op) : (run cap n ops).received =
    (run cap n ops).taken + (bufs (run cap n ops).q2).length + (run cap n ops).lostReady.length := by
  have hp : ∀ q b, (bufs (post cap q (.buf b))).length + (dropped cap q (.buf b)).length = (bufs q).length + 1 := by
    intro q b
    unfold post dropped
    split
    · rw [bufs_append]; simp [bufs]
    · rfl
  have ho : ∀ q, (bufs (post cap q .other)).length = (bufs q).length := by
    intro q
    unfold post
    split
    · rw [bufs_append]; simp [bufs]
    · rfl
  suffices ∀ s : St, s.received = s.taken + (bufs s.q2).length + s.lostReady.length →
      (ops.foldl (step cap) s).received = (ops.foldl (step cap) s).taken + (bufs (ops.foldl (step cap) s).q2).length +
        (ops.foldl (step cap) s).lostReady.length from this (start n) rfl
  induction ops with
  | nil => intro s h; exact h
  | cons o ops ih =>
    intro s h
    refine ih _ ?_
    cases o with
    | forward =>
      simp only [step]
      split
      · exact h
      · exact h
      · next b q e =>
        have := hp s.q2 b
        simp only [List.length_append]
        omega
    | take =>
      simp only [step]
      split
      · exact h
      · next q e => simp only [e, bufs] at h; exact h
      · next b q e =>
        simp only [e, bufs, List.length_cons] at h
        simp only
        omega
    | config => simp only [step, ho]; exact h
    | _ => simp only [step] <;> (repeat' split) <;> exact h

/-- Every message that is read is gone from its pipe, whatever it is about, and a buffer is then at the next place. -/
theorem C198_read (cap : Nat) (s : St) : (step cap s .forward).q1 = s.q1.tail ∧ (step cap s .take).q2 = s.q2.tail ∧
    (step cap s .back).q3 = s.q3.tail ∧ (step cap s .reuse).q4 = s.q4.tail ∧
    (step cap s .take).held.Perm (bufs (s.q2.take 1) ++ s.held) ∧ (step cap s .reuse).empty = s.empty ++ bufs (s.q4.take 1) := by
  refine ⟨?_, ?_, ?_, ?_, ?_, ?_⟩ <;> simp only [step] <;> split <;> simp_all [bufs]

/-! Concrete cases: three buffers, pipes for two; one buffer goes round, another one is lost when the processor does not read; with
pipes for three none is. -/

example : run 2 3 [.ready, .forward, .take, .release 0, .back, .reuse] = { empty := [1, 2, 0], received := 1, released := 1, taken := 1 } := by decide
example : lost (run 2 3 [.ready, .forward, .ready, .forward, .ready, .forward, .take, .take]) = [2] ∧
    lost (run 3 3 [.ready, .forward, .ready, .forward, .ready, .forward, .take, .take]) = [] := by decide
/-- Releases are lost in the same way, on both parts of the way back. -/
example : lost (run 2 3 [.ready, .forward, .take, .ready, .forward, .take, .ready, .forward, .take, .release 0, .release 0, .release 0]) = [0] := by decide
example : lost (run 1 2 [.ready, .forward, .take, .ready, .forward, .take, .release 0, .back, .release 0, .back]) = [0] := by decide
/-- Messages that fill the pipe. -/
example : lost (run 2 2 [.config, .ready, .forward, .ready, .forward]) = [1] ∧ Few 1 (run 2 2 [.config, .ready, .forward]) := by decide
example : ∀ pre suf, [Op.ready, .forward, .take] = pre ++ suf → Few 0 (run 2 2 pre) := by
  intro pre suf h
  match pre, h with
  | [], _ => exact ⟨Nat.le_refl _, Nat.le_refl _, Nat.le_refl _⟩
  | [_], h => cases h; exact ⟨by decide, by decide, by decide⟩
  | [_, _], h => cases h; exact ⟨by decide, by decide, by decide⟩
  | [_, _, _], h => cases h; exact ⟨by decide, by decide, by decide⟩
  | _ :: _ :: _ :: _ :: _, h => cases h

end Verif.Pipes
