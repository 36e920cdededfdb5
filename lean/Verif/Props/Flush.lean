import Verif.Model.Flush
/-
C139: a program that reads the file while it is written sees what was written a while ago.
-/
namespace Verif.Flush

/-! ## Specification -/

/-- A reader sees the value. -/
def Sees (d : Ds) (x : Nat × Int) : Prop := x ∈ d.written.take d.seen

instance (d : Ds) (x : Nat × Int) : Decidable (Sees d x) := inferInstanceAs (Decidable (x ∈ d.written.take d.seen))

/-- When the value of a write was written. -/
def Op.now : Op → Int
  | .frame _ n _ => n
  | .param _ n _ _ => n

/-- The value of a write. -/
def Op.value : Op → Nat
  | .frame v _ _ => v
  | .param v _ _ _ => v

/-- A second (and the millisecond that is dropped), in microseconds. -/
def period : Int := 1001000

/-- Whatever was written more than a period before the present moment `t` is seen. -/
def C139_statement : Prop :=
  ∀ ops t, (∀ o ∈ ops, o.now ≤ t) → ∀ x ∈ (run false ops).written, x.2 + period ≤ t → Sees (run false ops) x

/-- All flushes succeed. -/
def Op.good : Op → Bool
  | .frame _ _ ok => ok
  | .param _ _ _ ok => ok

/-- The clock is not set back: it is at `t` before the writes. -/
def Clocked (t : Int) : List Op → Prop
  | [] => True
  | .frame _ n _ :: l => t ≤ n ∧ Clocked n l
  | .param _ n a _ :: l => t ≤ n ∧ n ≤ a ∧ Clocked a l

/-! ## Violations -/

/-- The property does not hold: nothing is flushed if no further value is written. -/
theorem C139_violated : ¬ C139_statement := by
  intro h
  have := h [.param 1 0 0 true, .param 2 1 1 true] 5000000 (by decide) (2, 1) (by decide) (by decide)
  exact absurd this (by decide +kernel)

/-- Values written for an hour are not seen, although the last one was written just now, if the clock is set back by an
hour, as local time is in autumn. -/
theorem C139_clock_violated :
    let d := run false [.param 1 3600000000 3600000000 true, .param 2 0 0 true, .param 3 1800000000 1800000000 true,
      .param 4 3500000000 3500000000 true]
    d.written = [(1, 3600000000), (2, 0), (3, 1800000000), (4, 3500000000)] ∧ ¬ Sees d (2, 0) ∧ ¬ Sees d (3, 1800000000) := by
  intro d
  decide +kernel

/-- A flush that failed is not tried again when the next value is written: it is recorded as done. -/
theorem C139_failed_violated :
    let d := run false [.param 1 0 0 true, .param 2 5000000 5000000 false, .param 3 5900000 5900000 true,
      .param 4 6000000 6000000 true]
    d.written = [(1, 0), (2, 5000000), (3, 5900000), (4, 6000000)] ∧ ∀ x ∈ d.written, x ≠ (1, 0) → ¬ Sees d x := by
  intro d
  decide +kernel

/-- In the earliest version nothing is flushed. -/
theorem C139_earliest_violated (ops : List Op) : (run true ops).seen = 0 := by
  have key : ∀ (ops : List Op) (d : Ds), d.seen = 0 → (ops.foldl (step true) d).seen = 0 := by
    intro ops
    induction ops with
    | nil => exact fun d h => h
    | cons o l ih =>
      intro d h
      refine ih _ ?_
      cases o <;> simp [step, Ds.store, h]
  exact key ops {} rfl

/-! ## What holds -/

theorem written_step (e : Bool) (d : Ds) (o : Op) : (step e d o).written = d.written ++ [(o.value, o.now)] := by
  cases o with
  | frame v n ok => cases e <;> cases ok <;> rfl
  | param v n a ok =>
    cases e <;> cases ok <;> simp only [step] <;> split <;> rfl

theorem foldl_written (e : Bool) (ops : List Op) (d : Ds) :
    (ops.foldl (step e) d).written = d.written ++ ops.map fun o => (o.value, o.now) := by
  induction ops generalizing d with
  | nil => simp
  | cons o l ih => simp [List.foldl_cons, ih, written_step]

/-- What is written is written, in this order, whatever is flushed. -/
theorem C139_written (e : Bool) (ops : List Op) : (run e ops).written = ops.map fun o => (o.value, o.now) := by
  simp [run, foldl_written]

/-- A frame is seen as soon as the call that writes it has succeeded, and so is all that was written before. -/
theorem C139_frames (ops : List Op) (v : Nat) (n : Int) :
    ∀ x ∈ (run false (ops ++ [.frame v n true])).written, Sees (run false (ops ++ [.frame v n true])) x := by
  intro x hx
  have h : (run false (ops ++ [.frame v n true])).seen = (run false (ops ++ [.frame v n true])).written.length := by
    simp [run, step, Ds.flush]
  rw [Sees, h, List.take_length]
  exact hx

/-- When the file is closed everything is there. -/
theorem C139_closed (e : Bool) (ops : List Op) :
    (close (run e ops)).written = ops.map (fun o => (o.value, o.now)) ∧ ∀ x ∈ (close (run e ops)).written, Sees (close (run e ops)) x := by
  refine ⟨C139_written e ops, fun x hx => ?_⟩
  rw [Sees, close, List.take_length]
  exact hx

/-- What holds while the clock is at `t`. -/
structure Inv (t : Int) (d : Ds) : Prop where
  le : d.seen ≤ d.written.length
  clock : ∀ l, d.last = some l → l ≤ t
  late : ∀ x ∈ d.written.drop d.seen, ∃ l, d.last = some l ∧ l ≤ x.2

/-- The clock after a write. -/
def Op.after : Op → Int
  | .frame _ n _ => n
  | .param _ _ a _ => a

theorem clocked_cons (t : Int) (o : Op) (l : List Op) (h : Clocked t (o :: l)) :
    t ≤ o.now ∧ o.now ≤ o.after ∧ Clocked o.after l := by
  cases o with
  | frame v n ok => exact ⟨h.1, Int.le_refl _, h.2⟩
  | param v n a ok => exact h

theorem not_due (l n : Int) (h : due (some l) n = false) : n < l + period := by
  have h1 : (n - l).tdiv 1000 ≤ 1000 := by
    have := of_decide_eq_false h
    omega
  simp only [period]
  by_cases hn : 0 ≤ n - l
  · rw [Int.tdiv_eq_ediv_of_nonneg hn] at h1
    omega
  · omega

theorem inv_step (t : Int) (d : Ds) (o : Op) (hi : Inv t d) (h1 : t ≤ o.now) (h2 : o.now ≤ o.after) (hg : o.good = true) :
    Inv o.after (step false d o) ∧ ∀ x ∈ (step false d o).written.drop (step false d o).seen, o.now < x.2 + period := by
  cases o with
  | frame v n ok =>
    simp only [Op.good] at hg
    subst hg
    simp only [Op.now, Op.after] at h1 h2
    refine ⟨⟨?_, ?_, ?_⟩, ?_⟩
    · simp [step, Ds.flush]
    · intro l hl
      have : d.last = some l := hl
      exact Int.le_trans (hi.clock l this) h1
    · intro x hx
      simp [step, Ds.flush] at hx
    · intro x hx
      simp [step, Ds.flush] at hx
  | param v n a ok =>
    simp only [Op.good] at hg
    subst hg
    simp only [Op.now, Op.after] at h1 h2
    cases hd : due d.last n with
    | true =>
      have e : step false d (.param v n a true) =
          { (d.store v n).flush true with last := stamp d.last n a } := by simp [step, hd]
      rw [e]
      refine ⟨⟨?_, ?_, ?_⟩, ?_⟩
      · simp [Ds.flush]
      · intro l hl
        simp only at hl
        cases hl0 : d.last with
        | none => rw [hl0] at hl; injection hl with hl; subst hl; exact h2
        | some l0 =>
          rw [hl0] at hl hd
          simp only [stamp, hd, if_true] at hl
          injection hl with hl
          exact Int.le_of_eq hl.symm
      · intro x hx; simp [Ds.flush] at hx
      · intro x hx; simp [Ds.flush] at hx
    | false =>
      cases hl0 : d.last with
      | none => rw [hl0] at hd; cases hd
      | some l0 =>
        rw [hl0] at hd
        have hs : stamp d.last n a = d.last := by rw [hl0]; simp [stamp, hd]
        have e : step false d (.param v n a true) = d.store v n := by
          simp only [step, hl0, hd]
          simp only [Bool.false_and, Bool.false_eq_true, if_false]
          rw [← hl0, hs]
          rfl
        rw [e]
        have hl1 := hi.clock l0 hl0
        have hdr : (d.store v n).written.drop (d.store v n).seen = d.written.drop d.seen ++ [(v, n)] := by
          simp only [Ds.store]
          rw [List.drop_append_of_le_length hi.le]
        have hlate : ∀ x ∈ d.written.drop d.seen ++ [(v, n)], l0 ≤ x.2 := by
          intro x hx
          rcases List.mem_append.mp hx with hx | hx
          · obtain ⟨l, e1, e2⟩ := hi.late x hx
            rw [hl0] at e1; injection e1 with e1; subst e1; exact e2
          · rw [List.mem_singleton.mp hx]; exact Int.le_trans hl1 h1
        refine ⟨⟨?_, ?_, ?_⟩, ?_⟩
        · have := hi.le; simp only [Ds.store, List.length_append, List.length_singleton]; omega
        · intro l hl
          have := hi.clock l hl
          simp only [Op.after]; omega
        · intro x hx
          rw [hdr] at hx
          exact ⟨l0, hl0, hlate x hx⟩
        · intro x hx
          rw [hdr] at hx
          have h3 := hlate x hx
          have h4 := not_due l0 n hd
          simp only [Op.now]; omega

theorem inv_run (ops : List Op) : ∀ (t : Int) (d : Ds), Inv t d → Clocked t ops → (∀ o ∈ ops, o.good = true) →
    ∃ t', Inv t' (ops.foldl (step false) d) ∧ ∀ rest, Clocked t (ops ++ rest) → Clocked t' rest := by
  induction ops with
  | nil => exact fun t d h _ _ => ⟨t, h, fun _ h => h⟩
  | cons o l ih =>
    intro t d hi hc hg
    obtain ⟨h1, h2, h3⟩ := clocked_cons t o l hc
    obtain ⟨t', h4, h5⟩ := ih o.after (step false d o) (inv_step t d o hi h1 h2 (hg o (List.mem_cons_self ..))).1 h3
      (fun x hx => hg x (List.mem_cons_of_mem _ hx))
    exact ⟨t', h4, fun rest hr => h5 rest (clocked_cons t o (l ++ rest) hr).2.2⟩

theorem clocked_append (ops rest : List Op) : ∀ t, Clocked t (ops ++ rest) → Clocked t ops := by
  induction ops with
  | nil => exact fun _ _ => trivial
  | cons o l ih =>
    intro t h
    obtain ⟨h1, h2, h3⟩ := clocked_cons t o (l ++ rest) h
    have := ih _ h3
    cases o with
    | frame v n ok => exact ⟨h1, this⟩
    | param v n a ok => exact ⟨h1, h2, this⟩

/-- What holds: if the clock is not set back and the flushes succeed, then whenever something has just been written
into the dataset, all that was written into it a period before that is seen. -/
theorem C139_partial (t : Int) (ops : List Op) (o : Op) (hc : Clocked t (ops ++ [o])) (hg : ∀ x ∈ ops ++ [o], x.good = true) :
    ∀ x ∈ (run false (ops ++ [o])).written, x.2 + period ≤ o.now → Sees (run false (ops ++ [o])) x := by
  intro x hx hp
  have h0 : Inv t ({} : Ds) := by
    refine ⟨Nat.le_refl _, ?_, ?_⟩
    · intro l hl; cases hl
    · intro x hx; cases hx
  obtain ⟨t', h1, h2⟩ := inv_run ops t {} h0 (clocked_append ops [o] t hc)
    (fun x hx => hg x (List.mem_append_left _ hx))
  obtain ⟨h3, h4, -⟩ := clocked_cons t' o [] (h2 [o] hc)
  have h5 := (inv_step t' _ o h1 h3 h4 (hg o (by simp))).2
  have e : run false (ops ++ [o]) = step false (ops.foldl (step false) {}) o := by simp [run]
  rw [e] at hx ⊢
  rw [← List.take_append_drop (step false (ops.foldl (step false) {}) o).seen (step false _ o).written] at hx
  rcases List.mem_append.mp hx with hx | hx
  · exact hx
  · have := h5 x hx; omega

/-- Values written every 0.4 s: after the fourth one the first three are seen, the fourth one too. -/
example :
    let ops := [Op.param 1 0 0 true, .param 2 400000 400000 true, .param 3 800000 800000 true, .param 4 1200000 1200000 true]
    Clocked 0 ops ∧ (∀ x ∈ ops, x.good = true) ∧ (run false ops).seen = 4 ∧ (run false (ops.take 3)).seen = 1 := by
  refine ⟨by simp [Clocked], ?_, ?_, ?_⟩ <;> decide +kernel

end Verif.Flush
